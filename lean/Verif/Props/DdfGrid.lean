import Verif.Model.DdfGrid
import Verif.Props.PreschedTimes
import Verif.Props.LongGap

/-!
Property C247: the grid of times and conditions for deep drilling fields.
-/

namespace Verif

open Dgr

/-- The time of the `i`-th row. -/
def gridTime (mjd0 deltaT : ℚ) (i : ℕ) : ℚ := mjd0 + i * (deltaT / (60 * 24))

/-- What a row says when the sky is dark: the conditions at its time. -/
def DarkRow (M : Models) (t : ℚ) (r : Reading) (row : Dgr.Row) : Prop :=
  row.sunAlt = r.sunAlt ∧ row.moonAlt = r.moonAlt ∧ row.moonPhase = r.moonPhase ∧ row.rising = M.rising t ∧ row.airmass = r.airmass ∧ row.sky = r.mags
    ∧ ∀ (k : ℕ) (a s : Option ℚ), r.airmass[k]? = some a → r.mags[k]? = some s → row.m5[k]? = some (M.depth s a)

/-- No conditions of the fields: zeros, or `nan`. -/
def Blank (row : Dgr.Row) : Prop := ∀ x, x ∈ row.airmass ∨ x ∈ row.sky → x = none ∨ x = some 0

theorem timesZero_blank (l : List (Option ℚ)) : ∀ x ∈ l.map timesZero, x = none ∨ x = some 0 := by
  intro x hx
  obtain ⟨y, -, rfl⟩ := List.mem_map.1 hx
  cases y with
  | none => exact .inl rfl
  | some q => right; show some (q * 0) = some 0; rw [mul_zero]

theorem rowOf_dark (M : Models) (limit t : ℚ) (r : Reading) (h : r.sunAlt ≤ limit) : DarkRow M t r (rowOf M limit t r) := by
  unfold rowOf
  rw [if_neg (not_lt.2 h), if_neg (not_lt.2 h)]
  refine ⟨rfl, rfl, rfl, rfl, rfl, rfl, ?_⟩
  intro k a s ha hs
  dsimp only
  rw [List.getElem?_zipWith, hs, ha]

theorem rowOf_blank (M : Models) (limit t : ℚ) (r : Reading) (h : limit < r.sunAlt) : Blank (rowOf M limit t r) := by
  unfold rowOf
  rw [if_pos h, if_pos h]
  rintro x (hx | hx)
  · exact timesZero_blank _ x hx
  · exact timesZero_blank _ x hx

/-- Where the sky model stands after the times before the `i`-th. -/
def LastAnswer (M : Models) (st : Option Reading) (ts : List ℚ) (i : ℕ) (r : Reading) : Prop :=
  (∃ (j : ℕ) (t : ℚ) (r0 : Reading), j < i ∧ ts[j]? = some t ∧ M.read t = some r0 ∧ r0.moonAlt = r.moonAlt ∧ r0.moonPhase = r.moonPhase
      ∧ ∀ k, j < k → k < i → ∀ t', ts[k]? = some t' → M.read t' = none)
    ∨ ((∃ r0 ∈ st, r0.moonAlt = r.moonAlt ∧ r0.moonPhase = r.moonPhase) ∧ ∀ k < i, ∀ t', ts[k]? = some t' → M.read t' = none)

theorem loop_spec (M : Models) (limit : ℚ) : ∀ (ts : List ℚ) (st : Option Reading) (rows : List Dgr.Row), loop M limit st ts = some rows →
    rows.map Dgr.Row.mjd = ts ∧ ∀ (i : ℕ) row, rows[i]? = some row → ∃ r, row = rowOf M limit row.mjd r
      ∧ ((M.read row.mjd = some r) ∨ (M.read row.mjd = none ∧ r.sunAlt = 12 ∧ LastAnswer M st ts i r)) := by
  intro ts
  induction ts with
  | nil =>
    intro st rows h
    cases h
    exact ⟨rfl, fun i row hi => by simp at hi⟩
  | cons t ts ih =>
    intro st rows h
    unfold loop at h
    cases ha : after M st t with
    | none => rw [ha] at h; cases h
    | some r =>
      rw [ha] at h
      simp only [Option.map_eq_some_iff] at h
      obtain ⟨rest, hr, rfl⟩ := h
      obtain ⟨h1, h2⟩ := ih _ _ hr
      refine ⟨by rw [List.map_cons, h1]; rfl, ?_⟩
      intro i row hi
      cases i with
      | zero =>
        have hi : rowOf M limit t r = row := by simpa using hi
        subst hi
        refine ⟨r, rfl, ?_⟩
        show M.read t = some r ∨ _
        unfold after at ha
        cases hm : M.read t with
        | some r' => rw [hm] at ha; exact .inl ha
        | none =>
          rw [hm] at ha
          simp only [Option.map_eq_some_iff] at ha
          obtain ⟨r0, h0, rfl⟩ := ha
          exact .inr ⟨hm, rfl, .inr ⟨⟨r0, h0, rfl, rfl⟩, fun k hk => absurd hk (by omega)⟩⟩
      | succ i =>
        have hi : rest[i]? = some row := by simpa using hi
        obtain ⟨r1, e, h3⟩ := h2 i row hi
        refine ⟨r1, e, ?_⟩
        rcases h3 with h3 | ⟨h3, h4, h5⟩
        · exact .inl h3
        · refine .inr ⟨h3, h4, ?_⟩
          rcases h5 with ⟨j, t0, r0, hj, ht, hr0, e1, e2, hb⟩ | ⟨⟨r0, h0, e1, e2⟩, hb⟩
          · refine .inl ⟨j + 1, t0, r0, by omega, by simpa using ht, hr0, e1, e2, ?_⟩
            intro k hk1 hk2 t' ht'
            cases k with
            | zero => omega
            | succ k => exact hb k (by omega) (by omega) t' (by simpa using ht')
          · have h0 : r = r0 := by simpa using h0
            subst h0
            unfold after at ha
            cases hm : M.read t with
            | some r' =>
              rw [hm] at ha
              have ha : r' = r := by simpa using ha
              subst ha
              refine .inl ⟨0, t, r', by omega, rfl, hm, e1, e2, ?_⟩
              intro k hk1 hk2 t' ht'
              cases k with
              | zero => omega
              | succ k => exact hb k (by omega) t' (by simpa using ht')
            | none =>
              rw [hm] at ha
              simp only [Option.map_eq_some_iff] at ha
              obtain ⟨r2, h2', rfl⟩ := ha
              refine .inr ⟨⟨r2, h2', e1, e2⟩, ?_⟩
              intro k hk t' ht'
              cases k with
              | zero =>
                have ht' : t = t' := by simpa using ht'
                rw [← ht']
                exact hm
              | succ k => exact hb k (by omega) t' (by simpa using ht')

theorem loop_none (M : Models) (limit : ℚ) : ∀ (ts : List ℚ) (st : Option Reading), loop M limit st ts = none ↔ st = none ∧ ∃ t, ts.head? = some t ∧ M.read t = none := by
  have hsome : ∀ (ts : List ℚ) (r : Reading), loop M limit (some r) ts ≠ none := by
    intro ts
    induction ts with
    | nil => intro r h; cases h
    | cons t ts ih =>
      intro r h
      unfold loop after at h
      cases hm : M.read t with
      | some r' => rw [hm] at h; simp [ih] at h
      | none => rw [hm] at h; simp [ih] at h
  intro ts st
  cases ts with
  | nil =>
    constructor
    · intro h; cases h
    · rintro ⟨-, t, h, -⟩; cases h
  | cons t ts =>
    constructor
    · intro h
      cases st with
      | some r => exact absurd h (hsome _ _)
      | none =>
        refine ⟨rfl, t, rfl, ?_⟩
        cases hm : M.read t with
        | none => rfl
        | some r =>
          unfold loop after at h
          rw [hm] at h
          simp [hsome] at h
    · rintro ⟨rfl, t', h, hm⟩
      have h : t = t' := by simpa using h
      subst h
      unfold loop after
      rw [hm]
      rfl

theorem arange_get (lo hi step : ℚ) (hs : 0 < step) (i : ℕ) (t : ℚ) : (Long.arange lo hi step)[i]? = some t ↔ t = lo + i * step ∧ lo + i * step < hi := by
  unfold Long.arange
  rw [List.getElem?_map, Option.map_eq_some_iff]
  have hlt : i < ⌈(hi - lo) / step⌉.toNat ↔ lo + i * step < hi := by
    rw [Int.lt_toNat, Int.lt_ceil, lt_div_iff₀ hs, Int.cast_natCast]
    constructor <;> intro h <;> linarith
  constructor
  · rintro ⟨k, hk, rfl⟩
    obtain ⟨h1, rfl⟩ := List.getElem?_eq_some_iff.1 hk
    rw [List.getElem_range]
    rw [List.length_range] at h1
    exact ⟨rfl, hlt.1 h1⟩
  · rintro ⟨rfl, h⟩
    exact ⟨i, List.getElem?_range (hlt.2 h), rfl⟩

/-- C247: the rows of the grid are at equal steps from the start and fill the time asked for. -/
theorem C247_times (M : Models) (mjd0 deltaT years limit : ℚ) (hT : 0 < deltaT) (rows : List Dgr.Row) (h : grid M mjd0 deltaT years limit = some rows) (i : ℕ) :
    (∀ row, rows[i]? = some row → row.mjd = gridTime mjd0 deltaT i) ∧ (i < rows.length ↔ gridTime mjd0 deltaT i < mjd0 + years * 365.25) := by
  have hs : 0 < deltaT / 60 / 24 := by positivity
  have he : deltaT / 60 / 24 = deltaT / (60 * 24) := by rw [div_div]
  obtain ⟨hm, -⟩ := loop_spec M limit _ _ _ h
  have hget : ∀ t, (rows[i]?).map Dgr.Row.mjd = some t ↔ t = gridTime mjd0 deltaT i ∧ gridTime mjd0 deltaT i < mjd0 + years * 365.25 := by
    intro t
    rw [← List.getElem?_map, hm, arange_get _ _ _ hs, he]
    rfl
  refine ⟨fun row hr => ((hget row.mjd).1 (by rw [hr]; rfl)).1, ?_, ?_⟩
  · intro hi
    exact ((hget (rows[i]).mjd).1 (by rw [List.getElem?_eq_getElem hi]; rfl)).2
  · intro hi
    have := (hget _).2 ⟨rfl, hi⟩
    rw [Option.map_eq_some_iff] at this
    obtain ⟨a, ha, -⟩ := this
    exact (List.getElem?_eq_some_iff.1 ha).1

/-- C247: a row at a time with the Sun not above the limit says what the model of the sky says of that time; with the Sun above the limit it has Sun and Moon of that
time and no conditions of the fields; at a time for which the model has no answer the Sun is said to be up, there are no conditions of the fields, and the Moon is that
of the last time before with an answer. -/
theorem C247_rows_partial (M : Models) (mjd0 deltaT years limit : ℚ) (hT : 0 < deltaT) (hl : limit < 12) (rows : List Dgr.Row)
    (h : grid M mjd0 deltaT years limit = some rows) (i : ℕ) (row : Dgr.Row) (hr : rows[i]? = some row) :
    (∀ r, M.read (gridTime mjd0 deltaT i) = some r → r.sunAlt ≤ limit → DarkRow M (gridTime mjd0 deltaT i) r row)
    ∧ (∀ r, M.read (gridTime mjd0 deltaT i) = some r → limit < r.sunAlt →
        Blank row ∧ row.sunAlt = r.sunAlt ∧ row.moonAlt = r.moonAlt ∧ row.moonPhase = r.moonPhase ∧ row.rising = M.rising (gridTime mjd0 deltaT i))
    ∧ (M.read (gridTime mjd0 deltaT i) = none → Blank row ∧ row.sunAlt = 12 ∧ row.rising = M.rising (gridTime mjd0 deltaT i)
        ∧ ∃ j r, j < i ∧ M.read (gridTime mjd0 deltaT j) = some r ∧ row.moonAlt = r.moonAlt ∧ row.moonPhase = r.moonPhase
          ∧ ∀ k, j < k → k < i → M.read (gridTime mjd0 deltaT k) = none) := by
  have ht := (C247_times M mjd0 deltaT years limit hT rows h i).1 row hr
  have hs : 0 < deltaT / 60 / 24 := by positivity
  have he : deltaT / 60 / 24 = deltaT / (60 * 24) := by rw [div_div]
  obtain ⟨hm, hrow⟩ := loop_spec M limit _ _ _ h
  obtain ⟨r, e, hc⟩ := hrow i row hr
  rw [ht] at e hc
  refine ⟨?_, ?_, ?_⟩
  · intro r' hr' hsun
    rcases hc with hc | ⟨hc, -⟩
    · rw [hr'] at hc
      cases hc
      rw [e]
      exact rowOf_dark M limit _ _ hsun
    · rw [hr'] at hc; cases hc
  · intro r' hr' hsun
    rcases hc with hc | ⟨hc, -⟩
    · rw [hr'] at hc
      cases hc
      rw [e]
      exact ⟨rowOf_blank M limit _ _ hsun, rfl, rfl, rfl, rfl⟩
    · rw [hr'] at hc; cases hc
  · intro hnone
    rcases hc with hc | ⟨-, h12, hlat⟩
    · rw [hnone] at hc; cases hc
    · rw [e]
      refine ⟨rowOf_blank M limit _ _ (by rw [h12]; exact hl), h12, rfl, ?_⟩
      rcases hlat with ⟨j, t, r0, hj, htj, hr0, e1, e2, hb⟩ | ⟨⟨r0, h0, -⟩, -⟩
      · obtain ⟨rfl, -⟩ := (arange_get _ _ _ hs j t).1 htj
        rw [he] at hr0
        refine ⟨j, r0, hj, hr0, e1.symm, e2.symm, ?_⟩
        intro k hk1 hk2
        have hil := (List.getElem?_eq_some_iff.1 hr).1
        have hk : k < rows.length := by omega
        have hkt := hb k hk1 hk2 (rows[k].mjd) (by rw [← hm, List.getElem?_map, List.getElem?_eq_getElem hk]; rfl)
        rw [(C247_times M mjd0 deltaT years limit hT rows h k).1 _ (List.getElem?_eq_getElem hk)] at hkt
        exact hkt
      · cases h0

/-- C247: there is a grid unless the model of the sky has no answer for the first time. -/
theorem C247_error (M : Models) (mjd0 deltaT years limit : ℚ) (hT : 0 < deltaT) :
    grid M mjd0 deltaT years limit = none ↔ 0 < years ∧ M.read mjd0 = none := by
  have hs : 0 < deltaT / 60 / 24 := by positivity
  unfold grid
  rw [loop_none, List.head?_eq_getElem?]
  constructor
  · rintro ⟨-, t, ht, hr⟩
    obtain ⟨rfl, hlt⟩ := (arange_get _ _ _ hs 0 t).1 ht
    simp only [Nat.cast_zero, zero_mul, add_zero] at hlt hr
    refine ⟨?_, hr⟩
    by_contra hy
    push Not at hy
    have : years * 365.25 ≤ 0 := mul_nonpos_of_nonpos_of_nonneg hy (by norm_num)
    linarith
  · rintro ⟨hy, hr⟩
    refine ⟨rfl, mjd0, (arange_get _ _ _ hs 0 mjd0).2 ⟨by simp, ?_⟩, hr⟩
    have : 0 < years * 365.25 := by positivity
    simpa using this

/-- C247: a time that is planned for a field from the grid, with a limit on the Sun as low as that of the grid or lower, is one for which the model of the sky has an answer,
with the Sun below the limit, and depth, sky and airmass are those of the field at that time; so is every time of the grid within the sequence. -/
theorem C247_planned (M : Models) (mjd0 deltaT years limit : ℚ) (hT : 0 < deltaT) (hl : limit < 12) (rows : List Dgr.Row)
    (h : grid M mjd0 deltaT years limit = some rows) (night : ℚ → ℤ) (k : ℕ) (c : Pre.Cfg) (hc : c.sunLimit ≤ limit)
    (res : Pre.Result) (ho : Pre.optimize c (rows.map (fieldRow night k)) = some res) (t : ℚ) (ht : t ∈ res.mjds) :
    ∃ i, t = gridTime mjd0 deltaT i ∧ ∀ j, i ≤ j → gridTime mjd0 deltaT j < mjd0 + years * 365.25 → gridTime mjd0 deltaT j ≤ t + c.sequenceTime / (24 * 60) ∨ j = i →
      ∃ r, M.read (gridTime mjd0 deltaT j) = some r ∧ r.sunAlt < c.sunLimit ∧ (∀ a, r.airmass[k]? = some (some a) → a < c.airmassLimit)
        ∧ (∀ a s, r.airmass[k]? = some a → r.mags[k]? = some s →
            (∃ d, M.depth s a = some d ∧ ∀ l, c.depthLimit = some l → l ≤ d) ∧ ∀ l, c.skyLimit = some l → ∃ x, s = some x ∧ l < x)
        ∧ (∀ l, c.moonLt = some l → r.moonPhase ≤ l) ∧ (∀ l, c.moonGt = some l → l ≤ r.moonPhase) := by
  have htime := C247_times M mjd0 deltaT years limit hT rows h
  have hget : ∀ (i : ℕ) b, (rows.map (fieldRow night k))[i]? = some b → ∃ row, rows[i]? = some row ∧ b = fieldRow night k row ∧ b.mjd = gridTime mjd0 deltaT i := by
    intro i b hb
    rw [List.getElem?_map, Option.map_eq_some_iff] at hb
    obtain ⟨row, hrow, rfl⟩ := hb
    exact ⟨row, hrow, rfl, (htime i).1 row hrow⟩
  have hgap : ∀ n : ℕ, gridTime mjd0 deltaT (n + 1) - gridTime mjd0 deltaT n = deltaT / (60 * 24) := by
    intro n
    unfold gridTime
    push_cast
    ring
  obtain ⟨i, a, hi, hat, hw, hall⟩ := C132_clear c _ res ho (deltaT / (60 * 24)) (by positivity)
    (by
      intro r0 r1 h0 h1
      obtain ⟨-, -, -, e0⟩ := hget 0 r0 h0
      obtain ⟨-, -, -, e1⟩ := hget 1 r1 h1
      rw [e0, e1]
      exact hgap 0)
    (by
      intro n a b ha hb
      obtain ⟨-, -, -, e0⟩ := hget n a ha
      obtain ⟨-, -, -, e1⟩ := hget _ b hb
      rw [e0, e1]
      exact (hgap n).ge) t ht
  obtain ⟨row0, hrow0, e0, et⟩ := hget i a hi
  refine ⟨i, by rw [← hat, et], ?_⟩
  intro j hij hend hle
  have hjl := (htime j).2.2 hend
  have hj : (rows.map (fieldRow night k))[j]? = some (fieldRow night k rows[j]) := by rw [List.getElem?_map, List.getElem?_eq_getElem hjl]; rfl
  have hjm : (fieldRow night k rows[j]).mjd = gridTime mjd0 deltaT j := (htime j).1 _ (List.getElem?_eq_getElem hjl)
  have hW : Within c (fieldRow night k rows[j]) := by
    rcases hle with hle | rfl
    · exact hall j _ hij hj (by rw [hjm]; exact hle)
    · rw [hi] at hj
      cases hj
      exact hw
  obtain ⟨h1, h2, h3⟩ := C247_rows_partial M mjd0 deltaT years limit hT hl rows h j rows[j] (List.getElem?_eq_getElem hjl)
  have hsun : rows[j].sunAlt < c.sunLimit := hW.sun
  cases hread : M.read (gridTime mjd0 deltaT j) with
  | none =>
    have := (h3 hread).2.1
    rw [this] at hsun
    linarith
  | some r =>
    have hdark : r.sunAlt ≤ limit := by
      by_contra hcon
      push Not at hcon
      have := (h2 r hread hcon).2.1
      rw [this] at hsun
      linarith
    obtain ⟨d1, d2, d3, d4, d5, d6, d7⟩ := h1 r hread hdark
    refine ⟨r, rfl, by rw [← d1]; exact hsun, ?_, ?_, ?_, ?_⟩
    · intro a ha
      exact hW.airmass a (by show (rows[j].airmass[k]?).getD none = some a; rw [d5, ha]; rfl)
    · intro a s ha hs
      have hm5 := d7 k a s ha hs
      obtain ⟨x, hx, hx'⟩ := hW.depth
      have hx : (rows[j].m5[k]?).getD none = some x := hx
      rw [hm5] at hx
      refine ⟨⟨x, hx, hx'⟩, ?_⟩
      intro l hl
      obtain ⟨y, hy, hy'⟩ := hW.sky l hl
      have hy : (rows[j].sky[k]?).getD none = some y := hy
      rw [d6, hs] at hy
      exact ⟨y, hy, hy'⟩
    · intro l hl
      have : rows[j].moonPhase ≤ l := hW.dark l hl
      rwa [d3] at this
    · intro l hl
      have : l ≤ rows[j].moonPhase := hW.bright l hl
      rwa [d3] at this

/-! ### Examples -/

/-- A model with an answer for the first hours only; the Moon grows with time. -/
def toyModels : Models :=
  ⟨fun t => if t < 1 / 2 ∨ 3 / 4 ≤ t then some ⟨if t < 1 / 4 then -1 else 1 / 10, t, 100 * t, [some 22], [some (3 / 2)]⟩ else none, fun _ => 1, fun s _ => s.map (· + 2)⟩

/-- C247 fails: at a time for which the sky model has no answer, the grid has the Moon of a time before. -/
theorem C247_moon_violated : (grid toyModels 0 360 (1 / 365.25) (-1 / 5)).map (fun rows => rows.map fun r => (r.mjd, r.sunAlt, r.moonPhase, r.sky)) =
    some [(0, -1, 0, [some 22]), (1 / 4, 1 / 10, 25, [some 0]), (1 / 2, 12, 25, [some 0]), (3 / 4, 1 / 10, 75, [some 0])] := by decide +kernel

/-- A model that always has an answer, with the first quarter of each day dark. -/
def darkModels : Models :=
  ⟨fun t => some ⟨if Int.fract t < 1 / 4 then -1 else 1 / 10, t, 0, [some (22 - Int.fract t)], [some (3 / 2)]⟩, fun _ => 1, fun s _ => s.map (· + 2)⟩

/-- Limits for a plan from the grid. -/
def toyGridCfg : Pre.Cfg := { ra := 0, sunLimit := -1 / 3, start := 0, offLength := 0, seq := 2, depthLimit := some 23, sequenceTime := 60 }

/-- A plan is made from such a grid, so the assumptions of C247 are met. -/
example : ((grid darkModels 0 60 (3 / 365.25) (-1 / 5)).bind fun rows => (Pre.optimize toyGridCfg (rows.map (fieldRow (fun t => ⌊t⌋) 0))).map (·.mjds)) = some [2]
    ∧ toyGridCfg.sunLimit ≤ -1 / 5 := by decide +kernel

/-- Without an answer for the first time there is no grid. -/
example : grid { toyModels with read := fun _ => none } 0 360 1 0 = none := by
  rw [C247_error _ _ _ _ _ (by norm_num)]
  exact ⟨by norm_num, rfl⟩

end Verif
