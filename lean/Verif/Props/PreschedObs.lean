import Verif.Props.PreschedTimes
import Verif.Spec.PreschedObs

/-!
# Scheduled visits of the deep drilling fields (C133)
-/

namespace Verif

open Pre

theorem collect_mem {α : Type} {l : List (Option α)} {r : List α} (h : collect l = some r) (x : α) : x ∈ r ↔ some x ∈ l := by
  rw [(collect_spec _ _).1 h]
  simp

/-- What the arrays are made of. -/
theorem generate_cases {o : Opts} {locs : String → Option (ℚ × ℚ)} {grid : String → List Row} {ws : List Want} {r : List Sv}
    (h : generate o locs grid ws = some r) :
    ∃ as : List (List (List Sv)), ws.map (rowArrays o locs grid) = as.map some ∧ r = as.flatten.flatten ∧ as.flatten ≠ [] := by
  unfold generate at h
  split at h
  · simp at h
  · next as ha =>
    split_ifs at h with hn
    simp only [Option.some.injEq] at h
    exact ⟨as, (collect_spec _ _).1 ha, h.symm, hn⟩

theorem rowArrays_cases {o : Opts} {locs : String → Option (ℚ × ℚ)} {grid : String → List Row} {w : Want} {a : List (List Sv)}
    (h : rowArrays o locs grid w = some a) :
    ∃ ts, rowTimes o locs grid w = some ts ∧ ts.flatMap (fun t => sixBands.map (bandVisits o locs w t)) = a.map some := by
  unfold rowArrays at h
  split at h
  · simp at h
  · next ts hts => exact ⟨ts, hts, (collect_spec _ _).1 h⟩

theorem bandVisits_asked {o : Opts} {locs : String → Option (ℚ × ℚ)} {w : Want} {t : ℚ} {b : String} {l : List Sv}
    (h : bandVisits o locs w t b = some l) {v : Sv} (hv : v ∈ l) :
    ∃ field, Asked o locs w t b field v ∧ (v.moonDist = o.moonDist ∨ Feat.isIn "EDFS" w.name = true ∧ field = w.name) := by
  unfold bandVisits at h
  split at h
  · simp at h
  · next p hp =>
    split_ifs at h with he
    · split at h
      · simp at h
      · next q hq =>
        simp only [Option.some.injEq] at h
        rw [← h, List.mem_append, List.mem_replicate, List.mem_replicate] at hv
        rcases hv with ⟨-, rfl⟩ | ⟨-, rfl⟩
        · exact ⟨w.name, ⟨.inl rfl, hp, rfl, rfl, rfl, rfl, rfl, rfl, ⟨by simp only [sv]; ring, rfl⟩, rfl, rfl, rfl, rfl, rfl⟩, .inr ⟨he, rfl⟩⟩
        · exact ⟨other w.name, ⟨.inr ⟨he, rfl⟩, hq, rfl, rfl, rfl, rfl, rfl, rfl, ⟨by simp only [sv]; ring, rfl⟩, rfl, rfl, rfl, rfl, rfl⟩, .inl rfl⟩
    · simp only [Option.some.injEq] at h
      rw [← h, List.mem_replicate] at hv
      obtain ⟨-, rfl⟩ := hv
      exact ⟨w.name, ⟨.inl rfl, hp, rfl, rfl, rfl, rfl, rfl, rfl, ⟨by simp only [sv]; ring, rfl⟩, rfl, rfl, rfl, rfl, rfl⟩, .inl rfl⟩

/-- C133. Every visit is one that a row of the table asks for at one of its times, with the limits given. -/
theorem C133_visits_partial (o : Opts) (locs : String → Option (ℚ × ℚ)) (grid : String → List Row) (ws : List Want) (r : List Sv)
    (h : generate o locs grid ws = some r) (v : Sv) (hv : v ∈ r) :
    ∃ w ∈ ws, ∃ ts, rowTimes o locs grid w = some ts ∧ ∃ t ∈ ts, ∃ b ∈ ["u", "g", "r", "i", "z", "y"], ∃ field,
      Asked o locs w t b field v ∧ (v.moonDist = o.moonDist ∨ Feat.isIn "EDFS" w.name = true ∧ field = w.name) := by
  obtain ⟨as, h1, rfl, -⟩ := generate_cases h
  obtain ⟨l, hl, hv⟩ := List.mem_flatten.1 hv
  obtain ⟨a, ha, hl⟩ := List.mem_flatten.1 hl
  have : some a ∈ ws.map (rowArrays o locs grid) := by rw [h1]; exact List.mem_map.2 ⟨a, ha, rfl⟩
  obtain ⟨w, hw, hwa⟩ := List.mem_map.1 this
  obtain ⟨ts, hts, hm⟩ := rowArrays_cases hwa
  have : some l ∈ ts.flatMap (fun t => sixBands.map (bandVisits o locs w t)) := by rw [hm]; exact List.mem_map.2 ⟨l, hl, rfl⟩
  obtain ⟨t, ht, hb⟩ := List.mem_flatMap.1 this
  obtain ⟨b, hb, hbl⟩ := List.mem_map.1 hb
  exact ⟨w, hw, ts, hts, t, ht, b, hb, bandVisits_asked hbl hv⟩

theorem bandVisits_count {o : Opts} {locs : String → Option (ℚ × ℚ)} {w : Want} {t : ℚ} {b : String} {l : List Sv}
    (h : bandVisits o locs w t b = some l) (c : String) (x : ℚ) :
    l.countP (fun v => v.band = c ∧ v.mjd = x) = if b = c ∧ t = x then visitsOf w b else 0 := by
  have hr : ∀ (n : ℕ) f p m, (List.replicate n (sv o w t b f p m)).countP (fun v => v.band = c ∧ v.mjd = x) = if b = c ∧ t = x then n else 0 := by
    intro n f p m
    rw [List.countP_replicate]
    by_cases hh : b = c ∧ t = x <;> simp [sv, hh]
  unfold bandVisits at h
  unfold visitsOf
  split at h
  · simp at h
  · split_ifs at h with he
    · split at h
      · simp at h
      · simp only [Option.some.injEq] at h
        rw [← h, List.countP_append, hr, hr, if_pos he]
        split_ifs
        · omega
        · rfl
    · simp only [Option.some.injEq] at h
      rw [← h, hr, if_neg he]

theorem six_count (f : String → ℕ) (c : String) (hc : c ∈ sixBands) : (sixBands.map (fun b => if b = c then f b else 0)).sum = f c := by
  simp only [sixBands, List.mem_cons, List.not_mem_nil, or_false] at hc
  rcases hc with rfl | rfl | rfl | rfl | rfl | rfl <;> simp [sixBands]

/-- Counting over arrays that may fail. -/
theorem count_some {α : Type} (f : α → ℕ) : ∀ (l : List α) (g : α → Option (List Sv)) (q : Sv → Bool) (as : List (List Sv)),
    l.map g = as.map some → (∀ x ∈ l, ∀ a, g x = some a → a.countP q = f x) → as.flatten.countP q = (l.map f).sum := by
  intro l g q
  induction l with
  | nil => intro as h _; cases as with
    | nil => rfl
    | cons => simp at h
  | cons x l ih =>
    intro as h hx
    cases as with
    | nil => simp at h
    | cons a as =>
      simp only [List.map_cons, List.cons.injEq] at h
      rw [List.flatten_cons, List.countP_append, hx x List.mem_cons_self a h.1, ih as h.2 (fun y hy => hx y (List.mem_cons_of_mem _ hy))]
      rfl

theorem row_count {o : Opts} {locs : String → Option (ℚ × ℚ)} {w : Want} : ∀ {ts : List ℚ} {a : List (List Sv)},
    ts.flatMap (fun t => sixBands.map (bandVisits o locs w t)) = a.map some → ∀ (c : String) (x : ℚ), c ∈ sixBands →
    a.flatten.countP (fun v => v.band = c ∧ v.mjd = x) = ts.count x * visitsOf w c := by
  intro ts
  induction ts with
  | nil => intro a h c x _; cases a with
    | nil => simp
    | cons => simp at h
  | cons t ts ih =>
    intro a h c x hc
    rw [List.flatMap_cons] at h
    obtain ⟨a1, a2, rfl, e1, e2⟩ := List.map_eq_append_iff.1 h.symm
    rw [List.flatten_append, List.countP_append, ih e2.symm c x hc,
      count_some (fun b => if b = c ∧ t = x then visitsOf w b else 0) sixBands (bandVisits o locs w t) _ a1 e1.symm
        (fun b _ a hb => bandVisits_count hb c x), List.count_cons]
    by_cases h : t = x
    · simp only [h, and_true, beq_self_eq_true, if_true]
      rw [six_count _ _ hc]
      ring
    · have : sixBands.map (fun b => if b = c ∧ t = x then visitsOf w b else 0) = sixBands.map (fun _ => 0) := by
        apply List.map_congr_left
        intro b _
        rw [if_neg (fun hh => h hh.2)]
      rw [this]
      simp [h, sixBands]

/-- C133. In each band and at each time there are as many visits as the rows of the table with that time ask for; an odd
number for a pair of fields is made even. -/
theorem C133_count_partial (o : Opts) (locs : String → Option (ℚ × ℚ)) (grid : String → List Row) (ws : List Want) (r : List Sv)
    (h : generate o locs grid ws = some r) (times : Want → List ℚ) (ht : ∀ w ∈ ws, rowTimes o locs grid w = some (times w))
    (b : String) (hb : b ∈ ["u", "g", "r", "i", "z", "y"]) (t : ℚ) :
    r.countP (fun v => v.band = b ∧ v.mjd = t) = (ws.map (fun w => (times w).count t * visitsOf w b)).sum := by
  obtain ⟨as, h1, rfl, -⟩ := generate_cases h
  clear h
  induction ws generalizing as with
  | nil => cases as with
    | nil => rfl
    | cons => simp at h1
  | cons w ws ih =>
    cases as with
    | nil => simp at h1
    | cons a as =>
      simp only [List.map_cons, List.cons.injEq] at h1
      rw [List.flatten_cons, List.flatten_append, List.countP_append, ih (fun w hw => ht w (List.mem_cons_of_mem _ hw)) as h1.2]
      obtain ⟨ts, hts, hm⟩ := rowArrays_cases h1.1
      have := ht w List.mem_cons_self
      rw [hts] at this
      simp only [Option.some.injEq] at this
      subst this
      rw [row_count hm b t hb]
      rfl

/-- C133. Sequences are planned within the survey, at times at which the limits hold. -/
theorem C133_limits (o : Opts) (locs : String → Option (ℚ × ℚ)) (grid : String → List Row) (w : Want) (ts : List ℚ)
    (h : rowTimes o locs grid w = some ts) (t : ℚ) (ht : t ∈ ts) :
    ∃ a ∈ grid w.name, a.mjd = t ∧ o.start ≤ t ∧ t ≤ o.start + o.length * 365.25 ∧ a.sunAlt < -18 ∧
      (∀ x, a.airmass = some x → x < 2.5) ∧ (∃ x, a.m5 = some x ∧ w.depth ≤ x) ∧
      ((∀ b ∈ ["g", "r", "i", "z", "y"], w.visits b = 0) → a.moon ≤ o.illum) ∧
      ((∀ b ∈ ["u", "g", "r", "i", "z"], w.visits b = 0) → 0 < w.visits "y" → o.illum ≤ a.moon) := by
  unfold rowTimes at h
  split at h
  · simp at h
  · next p hp =>
    simp only [Option.map_eq_some_iff] at h
    obtain ⟨r, hr, rfl⟩ := h
    obtain ⟨n, hn, x, -, hb⟩ := time_of hr ht
    obtain ⟨i, a, y, h1, h2, -, -, rfl, -⟩ := best_spec hb
    have hw := ((growRows_spec _ n _ i).1 h2).2 i a le_rfl (Nat.le_add_right _ _) h1
    have hmem := List.mem_iff_getElem?.2 ⟨i, h1⟩
    unfold inSurvey at hmem
    simp only [List.mem_filter, Bool.and_eq_true, decide_eq_true_eq] at hmem
    refine ⟨a, hmem.1, rfl, hmem.2.1, hmem.2.2, hw.sun, hw.airmass, ?_, ?_, ?_⟩
    · obtain ⟨z, hz, hz'⟩ := hw.depth
      exact ⟨z, hz, hz' _ rfl⟩
    · intro h0
      apply hw.dark
      simp only [cfgOf, moonLimits]
      rw [if_pos]
      simp only [allVisits, sixBands, List.map_cons, List.map_nil, List.sum_cons, List.sum_nil, h0 "g" (by simp), h0 "r" (by simp), h0 "i" (by simp),
        h0 "z" (by simp), h0 "y" (by simp)]
      omega
    · intro h0 hy
      apply hw.bright
      simp only [cfgOf, moonLimits]
      have e : allVisits w = w.visits "y" := by
        simp only [allVisits, sixBands, List.map_cons, List.map_nil, List.sum_cons, List.sum_nil, h0 "g" (by simp), h0 "r" (by simp), h0 "i" (by simp),
          h0 "z" (by simp), h0 "u" (by simp)]
        omega
      rw [if_neg, if_pos e]
      rw [e, h0 "u" (by simp)]
      omega

/-- C133. A whole sequence fits: at every time of the grid from the start of a sequence to its end the limits hold. -/
theorem C133_whole (o : Opts) (locs : String → Option (ℚ × ℚ)) (grid : String → List Row) (w : Want) (ts : List ℚ)
    (h : rowTimes o locs grid w = some ts) (step : ℚ) (hpos : 0 < step)
    (hstep : ∀ r0 r1 : Row, (inSurvey o (grid w.name))[0]? = some r0 → (inSurvey o (grid w.name))[1]? = some r1 → r1.mjd - r0.mjd = step)
    (hgap : ∀ (k : ℕ) (a b : Row), (inSurvey o (grid w.name))[k]? = some a → (inSurvey o (grid w.name))[k + 1]? = some b → step ≤ b.mjd - a.mjd)
    (hord : (inSurvey o (grid w.name)).Pairwise (fun a b => a.mjd < b.mjd))
    (t : ℚ) (ht : t ∈ ts) (b : Row) (hb : b ∈ inSurvey o (grid w.name)) (h1 : t ≤ b.mjd)
    (h2 : b.mjd ≤ t + (["u", "g", "r", "i", "z", "y"].map (fun x => (o.expt x + o.overhead * o.snaps x) * w.visits x)).sum / (60 * 60 * 24)) :
    b.sunAlt < -18 ∧ (∀ x, b.airmass = some x → x < 2.5) ∧ (∃ x, b.m5 = some x ∧ w.depth ≤ x) := by
  unfold rowTimes at h
  split at h
  · simp at h
  · next p hp =>
    simp only [Option.map_eq_some_iff] at h
    obtain ⟨r, hr, rfl⟩ := h
    obtain ⟨i, a, hi, rfl, -, hall⟩ := C132_clear _ _ r hr step hpos hstep hgap t ht
    obtain ⟨j, hj⟩ := List.mem_iff_getElem?.1 hb
    have hij : i ≤ j := by
      by_contra hc
      obtain ⟨hi', rfl⟩ := List.getElem?_eq_some_iff.1 hi
      obtain ⟨hj', rfl⟩ := List.getElem?_eq_some_iff.1 hj
      have := List.pairwise_iff_getElem.1 hord j i hj' hi' (by omega)
      linarith
    have hw := hall j b hij hj (by
      refine le_trans h2 (le_of_eq ?_)
      simp only [cfgOf, seqSeconds]
      rw [show sixBands = ["u", "g", "r", "i", "z", "y"] from rfl]
      ring)
    obtain ⟨z, hz, hz'⟩ := hw.depth
    exact ⟨hw.sun, hw.airmass, z, hz, hz' _ rfl⟩

/-- C133. With known fields and a grid in order there is a result as soon as there is a time for some row. -/
theorem C133_returns_partial (o : Opts) (locs : String → Option (ℚ × ℚ)) (grid : String → List Row) (ws : List Want)
    (hloc : ∀ w ∈ ws, ∀ field, FieldOf w field → (locs field).isSome) (hseq : ∀ w ∈ ws, 0 ≤ w.seq)
    (hlen : ∀ w ∈ ws, 2 ≤ (inSurvey o (grid w.name)).length)
    (hord : ∀ w ∈ ws, (inSurvey o (grid w.name)).Pairwise (fun a b => a.mjd < b.mjd ∧ a.night ≤ b.night)) :
    (∀ w ∈ ws, (rowTimes o locs grid w).isSome) ∧
      ((generate o locs grid ws).isSome ↔ ∃ w ∈ ws, ∃ t ts, rowTimes o locs grid w = some (t :: ts)) := by
  have hrow : ∀ w ∈ ws, (rowTimes o locs grid w).isSome := by
    intro w hw
    unfold rowTimes
    obtain ⟨p, hp⟩ := Option.isSome_iff_exists.1 (hloc w hw w.name (.inl rfl))
    rw [hp]
    dsimp only
    rw [Option.isSome_map]
    have hl := hlen w hw
    have ho := hord w hw
    match hm : inSurvey o (grid w.name) with
    | [] => rw [hm] at hl; simp at hl
    | [_] => rw [hm] at hl; simp at hl
    | r0 :: r1 :: rest =>
      rw [hm] at ho
      refine C132_no_error_partial _ r0 r1 rest rfl (hseq w hw) ?_ ho ?_
      · simp only [cfgOf]
        split_ifs <;> norm_num
      · intro hc
        simp [cfgOf] at hc
  refine ⟨hrow, ?_⟩
  have hband : ∀ w ∈ ws, ∀ t b, (bandVisits o locs w t b).isSome := by
    intro w hw t b
    unfold bandVisits
    obtain ⟨p, hp⟩ := Option.isSome_iff_exists.1 (hloc w hw w.name (.inl rfl))
    rw [hp]
    dsimp only
    split_ifs with he
    · obtain ⟨q, hq⟩ := Option.isSome_iff_exists.1 (hloc w hw (other w.name) (.inr ⟨he, rfl⟩))
      rw [hq]; rfl
    · rfl
  have harr : ∀ w ∈ ws, (rowArrays o locs grid w).isSome := by
    intro w hw
    unfold rowArrays
    obtain ⟨ts, hts⟩ := Option.isSome_iff_exists.1 (hrow w hw)
    rw [hts]
    apply collect_isSome
    intro x hx
    obtain ⟨t, -, hx⟩ := List.mem_flatMap.1 hx
    obtain ⟨b, -, rfl⟩ := List.mem_map.1 hx
    exact Option.isSome_iff_ne_none.1 (hband w hw t b)
  have hall : (collect (ws.map (rowArrays o locs grid))).isSome := by
    apply collect_isSome
    intro x hx
    obtain ⟨w, hw, rfl⟩ := List.mem_map.1 hx
    exact Option.isSome_iff_ne_none.1 (harr w hw)
  obtain ⟨as, has⟩ := Option.isSome_iff_exists.1 hall
  have hnil : as.flatten = [] ↔ ¬ ∃ w ∈ ws, ∃ t ts, rowTimes o locs grid w = some (t :: ts) := by
    rw [List.flatten_eq_nil_iff]
    constructor
    · rintro h ⟨w, hw, t, ts, hts⟩
      obtain ⟨a, ha⟩ := Option.isSome_iff_exists.1 (harr w hw)
      have hmem := (collect_mem has a).2 (List.mem_map.2 ⟨w, hw, ha⟩)
      have h0 := h a hmem
      subst h0
      obtain ⟨ts', h1, h2⟩ := rowArrays_cases ha
      rw [hts] at h1
      simp only [Option.some.injEq] at h1
      subst h1
      simp [sixBands] at h2
    · intro h a ha
      obtain ⟨w, hw, hwa⟩ := List.mem_map.1 ((collect_mem has a).1 ha)
      obtain ⟨ts, h1, h2⟩ := rowArrays_cases hwa
      cases ts with
      | nil => cases a with
        | nil => rfl
        | cons => simp at h2
      | cons t ts => exact absurd ⟨w, hw, t, ts, h1⟩ h
  unfold generate
  rw [has]
  dsimp only
  split_ifs with hn
  · simp only [Option.isSome_none, Bool.false_eq_true, false_iff]
    exact hnil.1 hn
  · simp only [Option.isSome_some, true_iff]
    by_contra hc
    exact hn (hnil.2 hc)

/-! ### What does not hold -/

def ddfOpts : Opts := { expt := fun _ => 30, snaps := fun _ => 1, start := 60940 }

/-- A row asking for some visits in one band. -/
def wantOf (name eo : String) (seq : ℚ) (b : String) (n : ℕ) : Want :=
  { name := name, seasonLength := 219, seq := seq, flush := 2, visits := fun c => if c = b then n else 0, evenOdd := eo, depth := 23, season := 0 }

def ddfLocs (name : String) : Option (ℚ × ℚ) :=
  if name = "EDFS_a" then some (178.98403541421598, -49) else if name = "EDFS_b" then some (183, -47) else if name = "F" then some (178.98403541421598, 0) else none

def ddfGrid (_ : String) : List Row := nightRows 1 (3/10) true ++ nightRows 2 (1/2) true

/-- C133 fails: visits of the first field of a pair may be near the moon. -/
theorem C133_moon_violated : ¬ ∀ (o : Opts) locs grid ws r, generate o locs grid ws = some r → ∀ v ∈ r, v.moonDist = o.moonDist := by
  intro h
  have e : ∃ r, generate ddfOpts ddfLocs ddfGrid [wantOf "EDFS_a" "None" 2 "g" 2] = some r ∧ ∃ v ∈ r, v.moonDist = 0 := by
    have : (generate ddfOpts ddfLocs ddfGrid [wantOf "EDFS_a" "None" 2 "g" 2]).any (fun r => r.any (fun v => v.moonDist = 0)) = true := by
      decide +kernel
    rw [Option.any_eq_true] at this
    obtain ⟨r, hr, hv⟩ := this
    rw [List.any_eq_true] at hv
    obtain ⟨v, hv, hm⟩ := hv
    exact ⟨r, hr, v, hv, by simpa using hm⟩
  obtain ⟨r, hr, v, hv, hm⟩ := e
  have := h _ _ _ _ r hr v hv
  rw [hm] at this
  revert this
  decide +kernel

/-- C133 fails: nothing to schedule is an error. -/
theorem C133_empty_violated : generate ddfOpts ddfLocs ddfGrid [wantOf "F" "None" 0 "g" 2] = none ∧
    rowTimes ddfOpts ddfLocs ddfGrid (wantOf "F" "None" 0 "g" 2) = some [] := by
  constructor <;> decide +kernel

/-- C133 fails: three visits asked for of a pair of fields give four. -/
theorem C133_odd_violated : (generate ddfOpts ddfLocs ddfGrid [wantOf "EDFS_a" "None" 2 "g" 3]).map List.length = some 4 ∧
    (rowTimes ddfOpts ddfLocs ddfGrid (wantOf "EDFS_a" "None" 2 "g" 3)).map List.length = some 1 := by
  constructor <;> decide +kernel

/-- C133 fails: the sequences early and late in a season are also planned in the part of the season that is not asked for. -/
theorem C133_early_violated : ∃ t ∈ [(4879583 : ℚ) / 80], rowTimes ddfOpts ddfLocs
      (fun _ => nightRows 1 (1/10) true ++ nightRows 2 (3/20) true) (wantOf "F" "early" 2 "g" 2) = some [t] ∧
    OffSeason (cfgOf ddfOpts 178.98403541421598 (wantOf "F" "early" 2 "g" 2)) t := by
  refine ⟨_, List.mem_cons_self, ?_, ?_⟩
  · decide +kernel
  · decide +kernel

-- Two visits in one sequence.
example : (generate ddfOpts ddfLocs ddfGrid [wantOf "F" "None" 2 "g" 2]).map (fun r => r.map (fun v => (v.note, v.mjd, v.band, v.flushBy))) =
    some [("DD:F", 488981/8, "g", 488981/8 + 2), ("DD:F", 488981/8, "g", 488981/8 + 2)] := by
  decide +kernel

end Verif
