import Verif.Props.Season
import Verif.Props.Presched
import Verif.Props.PreschedSlopes
import Mathlib.Tactic.FieldSimp
import Mathlib.Tactic.Positivity

/-!
C132: times of deep drilling sequences.
-/

namespace Verif

open Pre

theorem rowOk_within (c : Cfg) (r : Row) : rowOk c r = true ↔ Within c r := by
  have hpar : parityOk c.evenOdd r.night = true ↔ ((c.evenOdd = some true → r.night % 2 = 1) ∧ (c.evenOdd = some false → r.night % 2 = 0)) := by
    unfold parityOk
    rcases c.evenOdd with _ | _ | _
    · simp
    · simp
    · simp only [Bool.not_eq_eq_eq_not, Bool.not_true, decide_eq_false_iff_not, Option.some.injEq, reduceCtorEq, false_implies, and_true]
      constructor
      · intro h _; omega
      · intro h; have := h trivial; omega
  have hair : airmassOk c.airmassLimit r.airmass = true ↔ ∀ a, r.airmass = some a → a < c.airmassLimit := by
    unfold airmassOk
    cases r.airmass <;> simp
  have hsky : skyOk c.skyLimit r.sky = true ↔ ∀ l, c.skyLimit = some l → ∃ x, r.sky = some x ∧ l < x := by
    unfold skyOk
    cases c.skyLimit <;> cases r.sky <;> simp
  have hdep : depthOk c.depthLimit r.m5 = true ↔ ∃ x, r.m5 = some x ∧ ∀ l, c.depthLimit = some l → l ≤ x := by
    unfold depthOk
    cases r.m5 <;> cases c.depthLimit <;> simp
  have hmoon : moonOk c.moonLt c.moonGt r.moon = true ↔ (∀ l, c.moonLt = some l → r.moon ≤ l) ∧ (∀ l, c.moonGt = some l → l ≤ r.moon) := by
    unfold moonOk
    cases c.moonLt <;> cases c.moonGt <;> simp
  unfold rowOk
  simp only [Bool.and_eq_true, hpar, hair, hsky, hdep, hmoon, Bool.not_eq_eq_eq_not, Bool.not_true, decide_eq_false_iff_not, not_le]
  constructor
  · rintro ⟨⟨⟨⟨⟨h1, h2⟩, h3⟩, h4⟩, h5⟩, h6⟩
    exact ⟨h1, h2, h3, h4, h5.1, h5.2, h6.1, h6.2⟩
  · rintro ⟨h1, h2, h3, h4, h5, h6, h7, h8⟩
    exact ⟨⟨⟨⟨⟨h1, h2⟩, h3⟩, h4⟩, h5, h6⟩, h7, h8⟩

theorem clear_fold (o : ℕ) (B : List ℕ) (m : List Bool) : (B.foldl (clearAt o) m).length = m.length ∧
    ∀ i, (B.foldl (clearAt o) m)[i]? = some true ↔ (m[i]? = some true ∧ ∀ b ∈ B, b ≠ i + o) := by
  induction B generalizing m with
  | nil => simp
  | cons b B ih =>
    rw [List.foldl_cons]
    obtain ⟨h1, h2⟩ := ih (clearAt o m b)
    have hl : (clearAt o m b).length = m.length := by unfold clearAt; split_ifs <;> simp
    refine ⟨by rw [h1, hl], ?_⟩
    intro i
    rw [h2 i]
    have hc : (clearAt o m b)[i]? = some true ↔ (m[i]? = some true ∧ b ≠ i + o) := by
      unfold clearAt
      split_ifs with h
      · rw [List.getElem?_set]
        split_ifs with h3 h4
        · constructor
          · intro h; simp at h
          · rintro ⟨-, h5⟩; exact absurd (by omega) h5
        · constructor
          · intro h; simp at h
          · rintro ⟨-, h5⟩; exact absurd (by omega) h5
        · constructor
          · intro h5; exact ⟨h5, by omega⟩
          · exact fun h5 => h5.1
      · constructor
        · intro h5; exact ⟨h5, by omega⟩
        · exact fun h5 => h5.1
    rw [hc]
    simp only [List.mem_cons, forall_eq_or_imp]
    tauto

theorem grow_spec (n : ℕ) (m : List Bool) : (grow n m).length = m.length ∧
    ∀ i, (grow n m)[i]? = some true ↔ (i < m.length ∧ ∀ j, i ≤ j → j ≤ i + n → j < m.length → m[j]? = some true) := by
  unfold grow
  generalize hB : (List.range m.length).filter (fun i => m.getD i true = false) = B
  have hB' : ∀ b, b ∈ B ↔ m[b]? = some false := by
    intro b
    rw [← hB, List.mem_filter, List.mem_range]
    constructor
    · rintro ⟨h1, h2⟩
      rw [List.getD_eq_getElem _ _ h1] at h2
      rw [List.getElem?_eq_getElem h1]
      simpa using h2
    · intro h
      obtain ⟨h1, h2⟩ := List.getElem?_eq_some_iff.1 h
      refine ⟨h1, ?_⟩
      rw [List.getD_eq_getElem _ _ h1, h2]; rfl
  have key : ∀ n, ((List.range n).foldl (fun m' k => B.foldl (clearAt (k + 1)) m') m).length = m.length ∧
      ∀ i, ((List.range n).foldl (fun m' k => B.foldl (clearAt (k + 1)) m') m)[i]? = some true ↔
        (m[i]? = some true ∧ ∀ k, k < n → m[i + (k + 1)]? ≠ some false) := by
    intro n
    induction n with
    | zero => simp
    | succ n ih =>
      rw [List.range_succ, List.foldl_append]
      simp only [List.foldl_cons, List.foldl_nil]
      obtain ⟨h1, h2⟩ := clear_fold (n + 1) B ((List.range n).foldl (fun m' k => B.foldl (clearAt (k + 1)) m') m)
      refine ⟨by rw [h1, ih.1], ?_⟩
      intro i
      rw [h2 i, ih.2 i]
      constructor
      · rintro ⟨⟨h3, h4⟩, h5⟩
        refine ⟨h3, ?_⟩
        intro k hk hf
        rcases Nat.lt_or_ge k n with h' | h'
        · exact h4 k h' hf
        · have : k = n := by omega
          subst this
          exact h5 _ ((hB' _).2 hf) rfl
      · rintro ⟨h3, h4⟩
        refine ⟨⟨h3, fun k hk => h4 k (by omega)⟩, ?_⟩
        rintro b hb rfl
        exact h4 n (by omega) ((hB' _).1 hb)
  refine ⟨(key n).1, ?_⟩
  intro i
  rw [(key n).2 i]
  constructor
  · rintro ⟨h1, h2⟩
    refine ⟨(List.getElem?_eq_some_iff.1 h1).1, ?_⟩
    intro j hij hj hl
    rcases Nat.lt_or_ge i j with h' | h'
    · have := h2 (j - i - 1) (by omega)
      rw [show i + (j - i - 1 + 1) = j by omega] at this
      rw [List.getElem?_eq_getElem hl] at this ⊢
      cases hb : m[j] <;> simp_all
    · have : j = i := by omega
      subst this; exact h1
  · rintro ⟨h1, h2⟩
    refine ⟨h2 i (le_refl _) (by omega) h1, ?_⟩
    intro k hk hf
    have hl := (List.getElem?_eq_some_iff.1 hf).1
    have := h2 _ (by omega) (by omega) hl
    rw [this] at hf
    simp at hf

theorem growRows_spec (c : Cfg) (n : ℕ) (rows : List Row) (i : ℕ) : (grow n (rows.map (rowOk c)))[i]? = some true ↔
    (i < rows.length ∧ ∀ j r, i ≤ j → j ≤ i + n → rows[j]? = some r → Within c r) := by
  rw [(grow_spec n (rows.map (rowOk c))).2 i]
  simp only [List.length_map]
  refine and_congr_right (fun _ => ?_)
  constructor
  · intro h j r h1 h2 h3
    have := h j h1 h2 (List.getElem?_eq_some_iff.1 h3).1
    rw [List.getElem?_map, h3] at this
    exact (rowOk_within c r).1 (by simpa using this)
  · intro h j h1 h2 h3
    rw [List.getElem?_map, List.getElem?_eq_getElem h3]
    simpa using (rowOk_within c _).2 (h j _ h1 h2 (List.getElem?_eq_getElem h3))

theorem best_spec {rows : List Row} {mask : List Bool} {n : ℤ} {t : ℚ} (h : bestTime rows mask n = some t) :
    ∃ (i : ℕ) (r : Row) (x : ℚ), rows[i]? = some r ∧ mask[i]? = some true ∧ r.night = n ∧ r.m5 = some x ∧ r.mjd = t ∧
      ∀ (j : ℕ) (r' : Row) (x' : ℚ), rows[j]? = some r' → mask[j]? = some true → r'.night = n → r'.m5 = some x' → x' ≤ x ∧ (x' = x → i ≤ j) := by
  unfold bestTime at h
  simp only [Option.map_eq_some_iff] at h
  obtain ⟨r, h1, rfl⟩ := h
  generalize hM : maxL ((usable rows mask n).map (fun r => r.m5.getD 0)) = M at h1
  have hmax : ∀ r' ∈ usable rows mask n, r'.m5.getD 0 ≤ M := by
    intro r' hr'
    have : r'.m5.getD 0 ∈ (usable rows mask n).map (fun r => r.m5.getD 0) := List.mem_map.2 ⟨r', hr', rfl⟩
    rw [← hM]
    exact (maxL_spec (List.ne_nil_of_mem this)).2 _ this
  rw [List.find?_eq_some_iff_append] at h1
  obtain ⟨hr, as, bs, hs, has⟩ := h1
  simp only [decide_eq_true_eq] at hr
  unfold usable at hs
  rw [List.map_eq_append_iff] at hs
  obtain ⟨l1, l2, e1, e2, e3⟩ := hs
  rw [List.map_eq_cons_iff] at e3
  obtain ⟨a, l3, rfl, ea, e4⟩ := e3
  rw [List.filter_eq_append_iff] at e1
  obtain ⟨k1, k2, f1, f2, f3⟩ := e1
  rw [List.filter_eq_cons_iff] at f3
  obtain ⟨k3, k4, rfl, g1, g2, g3⟩ := f3
  have hidx : (rows.zip mask)[(k1 ++ k3).length]? = some a := by
    rw [f1, ← List.append_assoc, List.getElem?_append_right (le_refl _)]
    simp
  rw [List.getElem?_zip_eq_some] at hidx
  simp only [Bool.and_eq_true, decide_eq_true_eq] at g2
  refine ⟨(k1 ++ k3).length, r, M, ?_, ?_, ?_, hr, rfl, ?_⟩
  · rw [← ea]; exact hidx.1
  · rw [hidx.2, g2.2]
  · rw [← ea]; exact g2.1.1
  · intro j r' x' h1 h2 h3 h4
    have hz : (rows.zip mask)[j]? = some (r', true) := List.getElem?_zip_eq_some.2 ⟨h1, h2⟩
    have hp : (decide ((r', true).1.night = n) && (r', true).1.m5.isSome && (r', true).2) = true := by simp [h3, h4]
    have hu : r' ∈ usable rows mask n := by
      unfold usable
      exact List.mem_map.2 ⟨(r', true), List.mem_filter.2 ⟨List.mem_iff_getElem?.2 ⟨j, hz⟩, hp⟩, rfl⟩
    have hle := hmax r' hu
    rw [h4] at hle
    refine ⟨hle, ?_⟩
    rintro rfl
    by_contra hc
    rw [not_le] at hc
    rw [f1, ← List.append_assoc, List.getElem?_append_left hc] at hz
    have hmem := List.mem_iff_getElem?.2 ⟨j, hz⟩
    rcases List.mem_append.1 hmem with hm | hm
    · have : (r', true) ∈ l1 := by rw [← f2]; exact List.mem_filter.2 ⟨hm, hp⟩
      have : r' ∈ as := by rw [← e2]; exact List.mem_map.2 ⟨_, this, rfl⟩
      have := has _ this
      simp [h4] at this
    · exact g1 _ hm hp

theorem collect_spec {α : Type} : ∀ (l : List (Option α)) (r : List α), collect l = some r ↔ l = r.map some := by
  intro l
  induction l with
  | nil => intro r; cases r <;> simp [collect]
  | cons o l ih =>
    intro r
    cases o with
    | none => cases r <;> simp [collect]
    | some a =>
      simp only [collect, Option.map_eq_some_iff]
      cases r with
      | nil => simp
      | cons b r =>
        simp only [List.cons.injEq, List.map_cons, Option.some.injEq]
        constructor
        · rintro ⟨r', h1, rfl, rfl⟩; exact ⟨rfl, (ih _).1 h1⟩
        · rintro ⟨rfl, h⟩; exact ⟨r, (ih r).2 h, rfl, rfl⟩

theorem kept_sorted (c : Cfg) (rows : List Row) : (keptNights c rows).Pairwise (fun a b => a.1 < b.1) := by
  have h : (nightSeasons c rows).Pairwise (fun a b => a.1 < b.1) := by
    unfold nightSeasons
    simp only
    rw [List.pairwise_map]
    exact uniqueZ_sorted _
  unfold keptNights
  split
  · exact h
  · exact h.filter _

theorem kept_only {c : Cfg} {rows : List Row} {s : ℤ} (hs : c.onlySeason = some s) {x : ℤ × ℚ × ℚ} (hx : x ∈ keptNights c rows) :
    x ∈ nightSeasons c rows ∧ ⌊x.2.2⌋ = s := by
  unfold keptNights at hx
  rw [hs] at hx
  simpa using hx

theorem kept_mem {c : Cfg} {rows : List Row} {x : ℤ × ℚ × ℚ} (hx : x ∈ keptNights c rows) : x ∈ nightSeasons c rows := by
  unfold keptNights at hx
  split at hx
  · exact hx
  · exact (List.mem_filter.1 hx).1

/-- What a successful call has done. -/
theorem optimize_cases {c : Cfg} {rows : List Row} {r : Result} (h : optimize c rows = some r) :
    ∃ n, growSteps c rows = some n ∧ (r = ⟨[], [], [], []⟩ ∨ ∃ sched,
      matchCum r.desired (some ((keptNights c rows).map (fun x =>
        (rows.zip (grow n (rows.map (rowOk c)))).any (fun y => y.2 && decide (y.1.night = x.1))))) true = some sched ∧
      (((keptNights c rows).zip sched).filter (fun y => y.2 = 1)).map (fun y => bestTime rows (grow n (rows.map (rowOk c))) y.1.1) = r.mjds.map some ∧
      r.sched = running 0 sched ∧ r.nightMjd = (keptNights c rows).map (·.2.1) ∧
      ∃ k, r.desired = scaleDown k (slopes c.seq 0 c.boost ((keptNights c rows).map (fun x => (⟨rate c x.2.2, x.2.2⟩ : Night))))) := by
  unfold optimize at h
  cases hn : growSteps c rows with
  | none => rw [hn] at h; simp at h
  | some n =>
    rw [hn] at h
    simp only at h
    refine ⟨n, rfl, ?_⟩
    split_ifs at h with hs
    · right
      generalize hd : scaleDown _ (slopes _ _ _ _) = d at h
      cases hm : matchCum d (some ((keptNights c rows).map (fun x =>
        (rows.zip (grow n (rows.map (rowOk c)))).any (fun y => y.2 && decide (y.1.night = x.1))))) true with
      | none => rw [hm] at h; simp at h
      | some sched =>
        rw [hm] at h
        simp only [Option.map_eq_some_iff] at h
        obtain ⟨ts, h1, rfl⟩ := h
        exact ⟨sched, hm, (collect_spec _ _).1 h1, rfl, rfl, _, hd.symm⟩
    · left
      simpa using h.symm

/-- Each time comes from its night. -/
theorem time_of {c : Cfg} {rows : List Row} {r : Result} (h : optimize c rows = some r) {t : ℚ} (ht : t ∈ r.mjds) :
    ∃ n, growSteps c rows = some n ∧ ∃ x ∈ keptNights c rows, bestTime rows (grow n (rows.map (rowOk c))) x.1 = some t := by
  obtain ⟨n, hn, h⟩ := optimize_cases h
  refine ⟨n, hn, ?_⟩
  rcases h with rfl | ⟨sched, -, h2, -⟩
  · simp at ht
  · have : some t ∈ r.mjds.map some := List.mem_map.2 ⟨t, ht, rfl⟩
    rw [← h2] at this
    obtain ⟨y, hy, e⟩ := List.mem_map.1 this
    exact ⟨y.1, (List.of_mem_zip (List.mem_filter.1 hy).1).1, e⟩

/-- C132. Each time returned is one of the grid, and all the limits are kept at every time of the grid from then to the
end of the sequence; the times of the grid are nowhere closer than the first two. -/
theorem C132_clear (c : Cfg) (rows : List Row) (r : Result) (h : optimize c rows = some r) (step : ℚ) (hpos : 0 < step)
    (hstep : ∀ r0 r1 : Row, rows[0]? = some r0 → rows[1]? = some r1 → r1.mjd - r0.mjd = step)
    (hgap : ∀ (k : ℕ) (a b : Row), rows[k]? = some a → rows[k + 1]? = some b → step ≤ b.mjd - a.mjd) (t : ℚ) (ht : t ∈ r.mjds) :
    ∃ (i : ℕ) (a : Row), rows[i]? = some a ∧ a.mjd = t ∧ Within c a ∧
      ∀ (j : ℕ) (b : Row), i ≤ j → rows[j]? = some b → b.mjd ≤ t + c.sequenceTime / (24 * 60) → Within c b := by
  obtain ⟨n, hn, x, -, hb⟩ := time_of h ht
  obtain ⟨i, a, y, h1, h2, -, -, rfl, -⟩ := best_spec hb
  have hw := ((growRows_spec c n rows i).1 h2).2
  refine ⟨i, a, h1, rfl, hw i a (le_refl _) (by omega) h1, ?_⟩
  intro j b hij hj hle
  have hfar : ∀ d : ℕ, ∀ b : Row, rows[i + d]? = some b → a.mjd + d * step ≤ b.mjd := by
    intro d
    induction d with
    | zero => intro b hb; rw [Nat.add_zero, h1] at hb; simp only [Option.some.injEq] at hb; subst hb; simp
    | succ d ih =>
      intro b hb
      have hl := (List.getElem?_eq_some_iff.1 hb).1
      have hp := List.getElem?_eq_getElem (show i + d < rows.length by omega)
      have := ih _ hp
      have := hgap _ _ _ hp hb
      push_cast
      linarith
  have hd := hfar (j - i) b (by rw [show i + (j - i) = j by omega]; exact hj)
  have hsteps : (j - i : ℕ) ≤ n := by
    unfold growSteps at hn
    split at hn
    · next r0 r1 l =>
      have hs := hstep r0 r1 rfl rfl
      rw [hs, if_neg (ne_of_gt hpos)] at hn
      simp only [Option.some.injEq] at hn
      rw [← hn]
      have h3 : ((j - i : ℕ) : ℚ) * step ≤ c.sequenceTime / 60 / 24 := by
        have : c.sequenceTime / (24 * 60) = c.sequenceTime / 60 / 24 := by ring
        linarith
      have h4 : ((j - i : ℕ) : ℚ) ≤ c.sequenceTime / 60 / 24 / step := by rwa [le_div_iff₀ hpos]
      have h5 := le_trans h4 (Int.le_ceil _)
      have h6 : ((j - i : ℕ) : ℤ) ≤ ⌈c.sequenceTime / 60 / 24 / step⌉ := by exact_mod_cast h5
      omega
    · simp at hn
  exact hw j b hij (by omega) hj

/-- C132. Among the times of its night from which a whole sequence keeps to the limits, the time returned is the one with
the best depth, and the first of those. -/
theorem C132_best (c : Cfg) (rows : List Row) (r : Result) (h : optimize c rows = some r) (t : ℚ) (ht : t ∈ r.mjds) :
    ∃ (i : ℕ) (a : Row) (x : ℚ) (n : ℕ), rows[i]? = some a ∧ a.mjd = t ∧ a.m5 = some x ∧ growSteps c rows = some n ∧
      ∀ (j : ℕ) (b : Row) (y : ℚ), rows[j]? = some b → b.night = a.night → b.m5 = some y →
        (∀ (k : ℕ) (d : Row), j ≤ k → k ≤ j + n → rows[k]? = some d → Within c d) → y ≤ x ∧ (y = x → i ≤ j) := by
  obtain ⟨n, hn, x, -, hb⟩ := time_of h ht
  obtain ⟨i, a, y, h1, h2, h3, h4, rfl, h5⟩ := best_spec hb
  refine ⟨i, a, y, n, h1, rfl, h4, hn, ?_⟩
  intro j b z hj hnight hz hw
  exact h5 j b z hj ((growRows_spec c n rows j).2 ⟨(List.getElem?_eq_some_iff.1 hj).1, hw⟩) (hnight.trans h3) hz

theorem nightSeasons_spec (c : Cfg) (rows : List Row) : ∃ lo : ℤ, ∀ x ∈ nightSeasons c rows,
    ∃ (i : ℕ) (a : Row), rows[i]? = some a ∧ a.night = x.1 ∧ (∀ (j : ℕ) (b : Row), j < i → rows[j]? = some b → b.night ≠ x.1) ∧
      x.2.1 = a.mjd ∧ x.2.2 = Season.calcSeason c.ra a.mjd c.start - lo := by
  refine ⟨⌊minL ((uniqueZ (rows.map (·.night))).map (fun n => Season.calcSeason c.ra (nightMjd rows n) c.start))⌋, ?_⟩
  intro x hx
  unfold nightSeasons at hx
  simp only at hx
  generalize hlo : ⌊minL ((uniqueZ (rows.map (·.night))).map (fun n => Season.calcSeason c.ra (nightMjd rows n) c.start))⌋ = lo at *
  obtain ⟨n, hn, rfl⟩ := List.mem_map.1 hx
  have hn' := (mem_uniqueZ _ _).1 hn
  obtain ⟨b, hb, rfl⟩ := List.mem_map.1 hn'
  have hsome : (rows.find? (fun r => r.night = b.night)).isSome := by
    rw [List.find?_isSome]; exact ⟨b, hb, by simp⟩
  obtain ⟨a, ha⟩ := Option.isSome_iff_exists.1 hsome
  have hm : nightMjd rows b.night = a.mjd := by unfold nightMjd; rw [ha]; rfl
  rw [List.find?_eq_some_iff_append] at ha
  obtain ⟨h1, as, bs, e, h2⟩ := ha
  refine ⟨as.length, a, by rw [e]; simp, by simpa using h1, ?_, hm, by rw [← hm]⟩
  intro j d hj hd
  rw [e, List.getElem?_append_left hj] at hd
  have := h2 d (List.mem_iff_getElem?.2 ⟨j, hd⟩)
  simpa using this

/-- C132. There is at most one sequence in a night, in the order of nights, and only in the season asked for. -/
theorem C132_nights (c : Cfg) (rows : List Row) (r : Result) (h : optimize c rows = some r) :
    ∃ ns : List ℤ, ns.Pairwise (· < ·) ∧
      List.Forall₂ (fun n t => (∃ a ∈ rows, a.night = n ∧ a.mjd = t) ∧
        ∀ s, c.onlySeason = some s → ∃ x ∈ nightSeasons c rows, x.1 = n ∧ ⌊x.2.2⌋ = s) ns r.mjds := by
  obtain ⟨n, hn, h⟩ := optimize_cases h
  rcases h with rfl | ⟨sched, -, h2, -⟩
  · exact ⟨[], List.Pairwise.nil, List.Forall₂.nil⟩
  · refine ⟨(((keptNights c rows).zip sched).filter (fun y => y.2 = 1)).map (·.1.1), ?_, ?_⟩
    · rw [List.pairwise_map]
      apply List.Pairwise.filter
      have := kept_sorted c rows
      rw [List.pairwise_iff_getElem] at this ⊢
      intro i j hi hj hij
      simp only [List.length_zip] at hi hj
      simp only [List.getElem_zip]
      exact this i j (by omega) (by omega) hij
    · have hlen := congrArg List.length h2
      simp only [List.length_map] at hlen
      rw [List.forall₂_iff_get]
      refine ⟨by simp [hlen], ?_⟩
      intro i h3 h4
      simp only [List.get_eq_getElem]
      have e : ((((keptNights c rows).zip sched).filter (fun y => y.2 = 1)).map (fun y => bestTime rows (grow n (rows.map (rowOk c))) y.1.1))[i]? =
          (r.mjds.map some)[i]? := by rw [h2]
      rw [List.length_map] at h3
      rw [List.getElem?_map, List.getElem?_map, List.getElem?_eq_getElem h3, List.getElem?_eq_getElem h4] at e
      simp only [Option.map_some, Option.some.injEq] at e
      rw [List.getElem_map]
      obtain ⟨k, a, x, g1, -, g3, -, g5, -⟩ := best_spec e
      refine ⟨⟨a, List.mem_iff_getElem?.2 ⟨k, g1⟩, g3, g5⟩, ?_⟩
      intro s hs
      have hmem := List.mem_filter.1 (List.getElem_mem h3)
      have hk := (List.of_mem_zip (a := _) (b := _) hmem.1).1
      exact ⟨_, (kept_only hs hk).1, rfl, (kept_only hs hk).2⟩

theorem countP_one_sum : ∀ (s : List ℕ), (∀ k ∈ s, k ≤ 1) → (s.filter (fun k => k = 1)).length = s.sum := by
  intro s
  induction s with
  | nil => intro _; rfl
  | cons a s ih =>
    intro h
    have h1 := h a List.mem_cons_self
    have h2 := ih (fun k hk => h k (List.mem_cons_of_mem _ hk))
    rw [List.sum_cons]
    by_cases ha : a = 1
    · rw [List.filter_cons_of_pos (by simpa using ha), List.length_cons, h2, ha]; omega
    · rw [List.filter_cons_of_neg (by simpa using ha), h2]; omega

theorem zip_filter_length : ∀ (a : List (ℤ × ℚ × ℚ)) (s : List ℕ), s.length = a.length →
    ((a.zip s).filter (fun y => y.2 = 1)).length = (s.filter (fun k => k = 1)).length := by
  intro a
  induction a with
  | nil => intro s h; have := List.eq_nil_of_length_eq_zero h; subst this; rfl
  | cons x a ih =>
    intro s h
    cases s with
    | nil => simp at h
    | cons k s =>
      have := ih s (by simpa using h)
      rw [List.zip_cons_cons]
      by_cases hk : k = 1
      · rw [List.filter_cons_of_pos (by simpa using hk), List.filter_cons_of_pos (by simpa using hk)]; simpa using this
      · rw [List.filter_cons_of_neg (by simpa using hk), List.filter_cons_of_neg (by simpa using hk)]; exact this

theorem wanted_length (seq ml : ℚ) (b : Option Boost) (ns : List Night) : (slopes seq ml b ns).length = ns.length := by
  unfold slopes
  have : ∀ (P : List ℤ) (out : List (Option ℚ)), out.length = ns.length →
      (P.foldl (fun out s => addSeason ns (goal seq ml b ns s) s out) out).length = ns.length := by
    intro P
    induction P with
    | nil => intro out h; exact h
    | cons s P ih =>
      intro out h
      rw [List.foldl_cons]
      apply ih
      unfold addSeason
      split_ifs
      · simp
      · exact h
  exact this _ _ (by simp)

theorem scaleDown_length (n : ℕ) (d : List (Option ℚ)) : (scaleDown n d).length = d.length := by
  unfold scaleDown
  split
  · rfl
  · split_ifs <;> simp

/-- C132. There are as many times as nights at which the rounded number wanted rises. -/
theorem C132_count_partial (c : Cfg) (rows : List Row) (r : Result) (h : optimize c rows = some r) :
    ∃ rs : List ℕ, rs.Nodup ∧ (∀ i, i ∈ rs ↔ RiseAt r.desired i) ∧ r.mjds.length = rs.length := by
  obtain ⟨n, hn, h⟩ := optimize_cases h
  rcases h with rfl | ⟨sched, h1, h2, -, -, k, hk⟩
  · refine ⟨[], List.nodup_nil, ?_, rfl⟩
    intro i
    simp [RiseAt]
  · obtain ⟨g1, -, g3, rs, g4, g5, g6⟩ := C130_allowed _ _ _ _ h1
    refine ⟨rs, g4, g5, ?_⟩
    have := congrArg List.length h2
    simp only [List.length_map] at this
    have hd : r.desired.length = (keptNights c rows).length := by rw [hk, scaleDown_length, wanted_length, List.length_map]
    rw [← this, zip_filter_length _ _ (by rw [g1, hd]), countP_one_sum _ (g3 rfl), g6]

theorem round_nat (n : ℕ) : roundHalfEven (n : ℚ) = n := by
  unfold roundHalfEven
  simp

/-- Rises of a number that is nothing outside a stretch of cells and never falls in it. -/
theorem rises_bound (d : List (Option ℚ)) (N : ℕ) (A : ℕ → Prop)
    (h1 : ∀ (i : ℕ) x, d[i]? = some (some x) → 0 ≤ x ∧ x ≤ N) (h2 : ∀ (i : ℕ) x, d[i]? = some (some x) → ¬ A i → x = 0)
    (h3 : ∀ (i j : ℕ) x y, i ≤ j → A i → A j → d[i]? = some (some x) → d[j]? = some (some y) → x ≤ y)
    (h4 : ∀ i j k, i ≤ j → j ≤ k → A i → A k → A j) : (rises d).length ≤ N := by
  have r0 : roundHalfEven 0 = 0 := by simpa using round_nat 0
  have hval : ∀ i ∈ rises d, ∃ x y, d[i - 1]? = some (some x) ∧ d[i]? = some (some y) ∧ 1 ≤ i ∧ roundHalfEven x < roundHalfEven y ∧
      0 ≤ roundHalfEven x ∧ roundHalfEven y ≤ N ∧ A i ∧ (roundHalfEven ((d.getD i none).getD 0)) = roundHalfEven y := by
    intro i hi
    obtain ⟨x, y, g1, g2, g3, g4⟩ := (mem_rises d i).1 hi
    have a1 : 0 ≤ roundHalfEven x := by rw [← r0]; exact roundHalfEven_mono (h1 _ _ g2).1
    have a2 : roundHalfEven y ≤ N := by rw [← round_nat N]; exact roundHalfEven_mono (h1 _ _ g3).2
    refine ⟨x, y, g2, g3, g1, g4, a1, a2, ?_, ?_⟩
    · by_contra hc
      have := h2 _ _ g3 hc
      rw [this, r0] at g4
      omega
    · rw [List.getD_eq_getElem?_getD, g3]; rfl
  have hp : ((rises d).map (fun i => (roundHalfEven ((d.getD i none).getD 0)).toNat)).Pairwise (· < ·) := by
    rw [List.pairwise_map]
    apply List.Pairwise.imp_of_mem ?_ (rises_sorted d)
    intro a b ha hb hab
    obtain ⟨x, y, a1, a2, a3, a4, a5, a6, a7, a8⟩ := hval a ha
    obtain ⟨x', y', b1, b2, b3, b4, b5, b6, b7, b8⟩ := hval b hb
    rw [a8, b8]
    have hA := h4 a (b - 1) b (by omega) (by omega) a7 b7
    have := roundHalfEven_mono (h3 a (b - 1) y x' (by omega) a7 hA a2 b1)
    omega
  have hsub : ((rises d).map (fun i => (roundHalfEven ((d.getD i none).getD 0)).toNat)) ⊆ List.range' 1 N := by
    intro k hk
    obtain ⟨i, hi, rfl⟩ := List.mem_map.1 hk
    obtain ⟨x, y, a1, a2, a3, a4, a5, a6, a7, a8⟩ := hval i hi
    rw [a8, List.mem_range'_1]
    omega
  have := (List.subperm_of_subset (hp.imp (fun h => Nat.ne_of_lt h)) hsub).length_le
  simpa using this

theorem allowed_length (m : List Bool) : (allowed m.length (some m)).length = m.countP (· = true) := by
  unfold allowed
  simp only
  rw [List.countP_eq_length_filter]
  have e : m = (List.range m.length).map (fun i => m.getD i false) := by
    apply List.ext_getElem
    · simp
    · intro i h1 h2
      simp [List.getElem?_eq_getElem h1]
  conv_rhs => rw [e, List.filter_map, List.length_map]
  congr 1
  apply List.filter_congr
  intro i _
  simp

theorem maxL_lengths_nonneg (ns : List Night) : 0 ≤ maxL ((seasonList ns).map (seasonLength ns)) := by
  by_cases h : (seasonList ns).map (seasonLength ns) = []
  · rw [h]; exact le_refl _
  · obtain ⟨h1, -⟩ := maxL_spec h
    obtain ⟨s, hs, e⟩ := List.mem_map.1 h1
    rw [← e]
    obtain ⟨a, ha, b, hb, h2, h3, h4, h5⟩ := span_exists ((mem_seasonList _ _).1 hs)
    rw [h5]
    have := (h4 b hb h3.1 h3.2).1
    linarith

theorem seasonLength_nonneg {ns : List Night} {s : ℤ} (h : Active ns s) : 0 ≤ seasonLength ns s := by
  obtain ⟨a, ha, b, hb, h2, h3, h4, h5⟩ := span_exists h
  rw [h5]
  have := (h4 b hb h3.1 h3.2).1
  linarith

/-- Without boosts either every goal is a number or none is. -/
theorem goal_cases (seq : ℚ) (hseq : 0 ≤ seq) (ns : List Night) :
    (∃ g : ℤ → ℚ, ∀ s, Active ns s → goal seq 0 none ns s = some (g s) ∧ 0 ≤ g s) ∨ (∀ s, Active ns s → goal seq 0 none ns s = none) := by
  have hM := maxL_lengths_nonneg ns
  rcases hM.lt_or_eq with h | h
  · left
    refine ⟨fun s => (roundHalfEven (seq * seasonLength ns s / maxL ((seasonList ns).map (seasonLength ns))) : ℚ), ?_⟩
    intro s hs
    have h0 := seasonLength_nonneg hs
    constructor
    · unfold goal boosted rawGoal
      simp only
      rw [if_neg (show ¬ seasonLength ns s < 0 / 365.25 by simpa using h0), if_neg (ne_of_gt h)]
      rfl
    · have : (0 : ℤ) ≤ roundHalfEven (seq * seasonLength ns s / maxL ((seasonList ns).map (seasonLength ns))) := by
        have r0 : roundHalfEven 0 = 0 := by simpa using round_nat 0
        rw [← r0]
        exact roundHalfEven_mono (by positivity)
      dsimp only
      exact_mod_cast this
  · right
    intro s hs
    have h0 := seasonLength_nonneg hs
    unfold goal boosted rawGoal
    simp only
    rw [if_neg (show ¬ seasonLength ns s < 0 / 365.25 by simpa using h0), if_pos h.symm]
    rfl

theorem slopes_nan (seq : ℚ) (ns : List Night) (h : ∀ s, Active ns s → goal seq 0 none ns s = none) :
    ∀ x ∈ slopes seq 0 none ns, x = none ∨ x = some 0 := by
  unfold slopes
  have : ∀ (P : List ℤ) (out : List (Option ℚ)), (∀ s ∈ P, Active ns s) → (∀ x ∈ out, x = none ∨ x = some 0) →
      ∀ x ∈ P.foldl (fun out s => addSeason ns (goal seq 0 none ns s) s out) out, x = none ∨ x = some 0 := by
    intro P
    induction P with
    | nil => intro out _ h; exact h
    | cons s P ih =>
      intro out hP ho
      rw [List.foldl_cons]
      apply ih _ (fun t ht => hP t (List.mem_cons_of_mem _ ht))
      rw [h s (hP s List.mem_cons_self)]
      intro x hx
      unfold addSeason at hx
      split_ifs at hx
      · obtain ⟨i, -, rfl⟩ := List.mem_map.1 hx
        split_ifs
        · left; rfl
        · rw [List.getD_eq_getElem?_getD]
          cases ho' : out[i]? with
          | none => left; rfl
          | some y => exact ho y (List.mem_iff_getElem?.2 ⟨i, ho'⟩)
      · exact ho x hx
  apply this _ _ (fun s hs => (mem_seasonList _ _).1 hs)
  intro x hx
  obtain ⟨n, -, rfl⟩ := List.mem_map.1 hx
  right; rfl

/-- The rises never outnumber the nights that can be used. -/
theorem rises_scaled (seq : ℚ) (hseq : 0 ≤ seq) (ns : List Night) (hr : ∀ n ∈ ns, 0 ≤ n.raw) (hgap : NoGap ns)
    (hord : ns.Pairwise (fun a b => a.season ≤ b.season)) (N : ℕ) :
    (rises (scaleDown N (slopes seq 0 none ns))).length ≤ N := by
  rcases goal_cases seq hseq ns with ⟨g, hg⟩ | hg
  · by_cases hne : ns = []
    · subst hne
      simp [slopes, seasonList, uniqueZ, scaleDown, maxO, maxL, rises]
    obtain ⟨l1, l2, l3⟩ := slopes_inv hne hr seq 0 none g (seasonList ns) (uniqueZ_sorted _)
      (fun s hs => ⟨(mem_seasonList _ _).1 hs, hg s ((mem_seasonList _ _).1 hs)⟩)
    change maxO (slopes seq 0 none ns) = _ at l3
    change (slopes seq 0 none ns).length = _ at l1
    change ∀ (i : ℕ) (n : Night), ns[i]? = some n → (slopes seq 0 none ns)[i]? = _ at l2
    set m := ((seasonList ns).map g).sum with hm
    have hm0 : 0 ≤ m := by
      apply List.sum_nonneg
      intro x hx
      obtain ⟨s, hs, rfl⟩ := List.mem_map.1 hx
      exact (hg s ((mem_seasonList _ _).1 hs)).2
    have hmono := C131_rising_partial seq 0 none ns hr g hg hord
    have hzero : ∀ (i : ℕ) (n : Night) x, ns[i]? = some n → (slopes seq 0 none ns)[i]? = some (some x) → ¬ Active ns ⌊n.season⌋ → x = 0 := by
      intro i n x hi hx hna
      rw [(C131_value seq 0 none ns hr g hg i n hi).2 hna] at hx
      simpa using hx.symm
    have hpos : ∀ (i : ℕ) x, (slopes seq 0 none ns)[i]? = some (some x) → 0 ≤ x ∧ x ≤ m := by
      intro i x hx
      refine ⟨?_, maxO_le l3 (List.mem_iff_getElem?.2 ⟨i, hx⟩)⟩
      have hi := (List.getElem?_eq_some_iff.1 hx).1
      rw [l1] at hi
      rw [l2 i _ (List.getElem?_eq_getElem hi)] at hx
      simp only [Option.some.injEq] at hx
      rw [← hx]
      unfold wantedAt
      split_ifs with hc
      · have a1 : 0 ≤ (((seasonList ns).filter (· < ⌊ns[i].season⌋)).map g).sum := by
          apply List.sum_nonneg
          intro y hy
          obtain ⟨s, hs, rfl⟩ := List.mem_map.1 hy
          exact (hg s ((mem_seasonList _ _).1 (List.mem_filter.1 hs).1)).2
        have a2 := (hg _ ((mem_seasonList _ _).1 hc)).2
        have a3 : 0 ≤ upTo ns ⌊ns[i].season⌋ i / rates ns ⌊ns[i].season⌋ :=
          div_nonneg (rates_nonneg (fun k hk => hr k (List.mem_of_mem_take hk)) _) (rates_nonneg hr _)
        have := mul_nonneg a2 a3
        linarith
      · exact le_refl _
    have hfac : ∃ k : ℚ, 0 ≤ k ∧ m * k ≤ N ∧ scaleDown N (slopes seq 0 none ns) = (slopes seq 0 none ns).map (fun x => x.map (fun y => y * k)) := by
      unfold scaleDown
      rw [l3]
      simp only
      split_ifs with hlt
      · have hmpos : 0 < m := lt_of_le_of_lt (by positivity) hlt
        refine ⟨(N : ℚ) / m, by positivity, ?_, ?_⟩
        · rw [mul_div_cancel₀ _ (ne_of_gt hmpos)]
        · apply List.map_congr_left
          intro x _
          congr 1
          funext y
          ring
      · refine ⟨1, by norm_num, by rw [mul_one]; exact not_lt.1 hlt, ?_⟩
        simp
    obtain ⟨k, k0, kN, ke⟩ := hfac
    rw [ke]
    have hget : ∀ (i : ℕ) x, ((slopes seq 0 none ns).map (fun x => x.map (fun y => y * k)))[i]? = some (some x) →
        ∃ y n, (slopes seq 0 none ns)[i]? = some (some y) ∧ x = y * k ∧ ns[i]? = some n := by
      intro i x hx
      rw [List.getElem?_map] at hx
      simp only [Option.map_eq_some_iff] at hx
      obtain ⟨o, ho, y, rfl, rfl⟩ := hx
      have hi := (List.getElem?_eq_some_iff.1 ho).1
      rw [l1] at hi
      exact ⟨y, _, ho, rfl, List.getElem?_eq_getElem hi⟩
    apply rises_bound _ N (fun i => ∃ n, ns[i]? = some n ∧ Active ns ⌊n.season⌋)
    · intro i x hx
      obtain ⟨y, n, hy, rfl, -⟩ := hget i x hx
      obtain ⟨p1, p2⟩ := hpos i y hy
      exact ⟨mul_nonneg p1 k0, le_trans (mul_le_mul_of_nonneg_right p2 k0) kN⟩
    · intro i x hx hna
      obtain ⟨y, n, hy, rfl, hn⟩ := hget i x hx
      rw [hzero i n y hn hy (fun ha => hna ⟨n, hn, ha⟩), zero_mul]
    · rintro i j x y hij ⟨a, ha, ha'⟩ ⟨b, hb, hb'⟩ hx hy
      obtain ⟨x', n, hx', rfl, -⟩ := hget i x hx
      obtain ⟨y', n', hy', rfl, -⟩ := hget j y hy
      obtain ⟨u, v, hu, hv, huv⟩ := hmono i j a b ha hb hij ha' hb'
      rw [hx'] at hu
      rw [hy'] at hv
      simp only [Option.some.injEq] at hu hv
      subst hu hv
      exact mul_le_mul_of_nonneg_right huv k0
    · rintro i j l hij hjl ⟨a, ha, ha'⟩ ⟨b, hb, hb'⟩
      have hll := (List.getElem?_eq_some_iff.1 hb).1
      have hj := List.getElem?_eq_getElem (show j < ns.length by omega)
      refine ⟨_, hj, ?_⟩
      have le_of : ∀ (p q : ℕ) (x y : Night), p ≤ q → ns[p]? = some x → ns[q]? = some y → x.season ≤ y.season := by
        intro p q x y hpq hx hy
        obtain ⟨p1, rfl⟩ := List.getElem?_eq_some_iff.1 hx
        obtain ⟨q1, rfl⟩ := List.getElem?_eq_some_iff.1 hy
        rcases Nat.lt_or_ge p q with h' | h'
        · exact List.pairwise_iff_getElem.1 hord p q p1 q1 h'
        · have : p = q := by omega
          subst this; exact le_refl _
      exact hgap _ (List.mem_iff_getElem?.2 ⟨j, hj⟩) _ _ ha' hb' (Int.floor_le_floor (le_of i j _ _ hij ha hj))
        (Int.floor_le_floor (le_of j l _ _ hjl hj hb))
  · have hz := slopes_nan seq ns hg
    have e : scaleDown N (slopes seq 0 none ns) = slopes seq 0 none ns := by
      unfold scaleDown
      split
      · rfl
      · next m hm =>
        rw [if_neg]
        rw [not_lt]
        unfold maxO at hm
        split_ifs at hm
        simp only [Option.some.injEq] at hm
        rw [← hm]
        by_cases hn : (slopes seq 0 none ns).map (·.getD 0) = []
        · rw [hn]; exact Nat.cast_nonneg N
        · obtain ⟨q, -⟩ := maxL_spec hn
          obtain ⟨y, hy, e⟩ := List.mem_map.1 q
          rw [← e]
          rcases hz y hy with rfl | rfl <;> exact Nat.cast_nonneg N
    rw [e]
    have : rises (slopes seq 0 none ns) = [] := by
      rw [List.eq_nil_iff_forall_not_mem]
      intro i hi
      obtain ⟨x, y, -, g2, g3, g4⟩ := (mem_rises _ i).1 hi
      rcases hz _ (List.mem_iff_getElem?.2 ⟨_, g2⟩) with h | h
      · simp at h
      · rcases hz _ (List.mem_iff_getElem?.2 ⟨_, g3⟩) with h' | h'
        · simp at h'
        · simp only [Option.some.injEq] at h h'
          rw [h, h'] at g4
          omega
    rw [this]; simp


theorem collect_isSome {α : Type} : ∀ (l : List (Option α)), (∀ x ∈ l, x ≠ none) → (collect l).isSome := by
  intro l
  induction l with
  | nil => intro _; rfl
  | cons o l ih =>
    intro h
    cases o with
    | none => exact absurd rfl (h none List.mem_cons_self)
    | some a =>
      obtain ⟨r, hr⟩ := Option.isSome_iff_exists.1 (ih (fun x hx => h x (List.mem_cons_of_mem _ hx)))
      have : collect (some a :: l) = some (a :: r) := (collect_spec _ _).2 (by rw [(collect_spec _ _).1 hr]; rfl)
      rw [this]; rfl

theorem best_exists {rows : List Row} {mask : List Bool} {n : ℤ} (h : usable rows mask n ≠ []) : bestTime rows mask n ≠ none := by
  unfold bestTime
  intro hc
  rw [Option.map_eq_none_iff, List.find?_eq_none] at hc
  obtain ⟨q, -⟩ := maxL_spec (l := (usable rows mask n).map (fun r => r.m5.getD 0)) (by simpa using h)
  obtain ⟨r, hr, e⟩ := List.mem_map.1 q
  apply hc r hr
  rw [← e]
  unfold usable at hr
  obtain ⟨y, hy, rfl⟩ := List.mem_map.1 hr
  simp only [List.mem_filter, Bool.and_eq_true] at hy
  obtain ⟨m, hm⟩ := Option.isSome_iff_exists.1 hy.2.1.2
  simp [hm]

theorem seasons_in_order {c : Cfg} {rows : List Row} (hord : rows.Pairwise (fun a b => a.mjd < b.mjd ∧ a.night ≤ b.night)) :
    (keptNights c rows).Pairwise (fun a b => a.2.2 ≤ b.2.2) := by
  obtain ⟨lo, hlo⟩ := nightSeasons_spec c rows
  apply List.Pairwise.imp_of_mem ?_ (kept_sorted c rows)
  intro a b ha hb hab
  obtain ⟨i, x, hi, hx, -, -, h1⟩ := hlo a (kept_mem ha)
  obtain ⟨j, y, hj, hy, -, -, h2⟩ := hlo b (kept_mem hb)
  obtain ⟨hi', rfl⟩ := List.getElem?_eq_some_iff.1 hi
  obtain ⟨hj', rfl⟩ := List.getElem?_eq_some_iff.1 hj
  rw [h1, h2]
  have hij : i < j := by
    by_contra hc
    rcases Nat.lt_or_ge j i with h | h
    · have := (List.pairwise_iff_getElem.1 hord j i hj' hi' h).2
      omega
    · have : i = j := by omega
      subst this
      omega
  have := (C49_sky_season c.ra c.start).1 _ _ (List.pairwise_iff_getElem.1 hord i j hi' hj' hij).1
  linarith

/-- The nights with their rates and seasons. -/
def ratedNights (c : Cfg) (rows : List Row) : List Night := (keptNights c rows).map (fun x => (⟨rate c x.2.2, x.2.2⟩ : Night))

/-- C132. A plan is always made from times in order, unless a season without nights to use lies between two with some. -/
theorem C132_no_error_partial (c : Cfg) (r0 r1 : Row) (rest : List Row) (hb : c.boost = none) (hseq : 0 ≤ c.seq) (hlow : 0 ≤ c.lowRate)
    (hord : (r0 :: r1 :: rest).Pairwise (fun a b => a.mjd < b.mjd ∧ a.night ≤ b.night))
    (hgap : c.onlySeason = none → NoGap (ratedNights c (r0 :: r1 :: rest))) : (optimize c (r0 :: r1 :: rest)).isSome := by
  have h01 : ¬ r1.mjd - r0.mjd = 0 := by
    have := (List.rel_of_pairwise_cons hord (List.mem_cons_self (a := r1) (l := rest))).1
    linarith
  generalize hrows : r0 :: r1 :: rest = rows at *
  have hn : ∃ n, growSteps c rows = some n := by
    rw [← hrows]
    unfold growSteps
    simp only
    rw [if_neg h01]
    exact ⟨_, rfl⟩
  obtain ⟨n, hn⟩ := hn
  have hraw : ∀ x ∈ ratedNights c rows, 0 ≤ x.raw := by
    intro x hx
    obtain ⟨y, -, rfl⟩ := List.mem_map.1 hx
    dsimp only
    unfold rate
    dsimp only
    split_ifs
    · exact hlow
    all_goals norm_num
  have hno : NoGap (ratedNights c rows) := by
    cases ho : c.onlySeason with
    | none => exact hgap ho
    | some s =>
      intro x hx p q hp hq h1 h2
      have one : ∀ t, Active (ratedNights c rows) t → t = s := by
        intro t ht
        obtain ⟨y, hy, -, e⟩ := ht
        obtain ⟨z, hz, rfl⟩ := List.mem_map.1 hy
        rw [← e]
        exact (kept_only ho hz).2
      have e1 := one p hp
      have e2 := one q hq
      have : ⌊x.season⌋ = p := by omega
      rw [this]; exact hp
  have hso : (ratedNights c rows).Pairwise (fun a b => a.season ≤ b.season) := by
    unfold ratedNights
    rw [List.pairwise_map]
    exact seasons_in_order hord
  unfold optimize
  rw [hn]
  dsimp only
  split_ifs with hsum
  · generalize hnm : (keptNights c rows).map (fun x => (rows.zip (grow n (rows.map (rowOk c)))).any (fun y => y.2 && decide (y.1.night = x.1))) = nm
    have hr := rises_scaled c.seq hseq (ratedNights c rows) hraw hno hso (nm.countP (· = true))
    rw [hb]
    change (match matchCum (scaleDown (nm.countP (· = true)) (slopes c.seq 0 none (ratedNights c rows))) (some nm) true with
      | none => none
      | some sched => _).isSome = true
    generalize hd : scaleDown (nm.countP (· = true)) (slopes c.seq 0 none (ratedNights c rows)) = d at *
    have hl : d.length = nm.length := by
      rw [← hd, scaleDown_length, wanted_length, ← hnm]
      unfold ratedNights
      simp
    have hsome : (matchCum d (some nm) true).isSome := by
      rw [C130_returns d (some nm) true (allowed d.length (some nm)) (rises d)
        ((allowed_sorted _ _).imp (fun h => Nat.ne_of_lt h)) (fun i => allowed_mem _ _ i)
        ((rises_sorted d).imp (fun h => Nat.ne_of_lt h)) (fun i => mem_rises d i), if_pos rfl, hl, allowed_length]
      exact hr
    obtain ⟨sched, hs⟩ := Option.isSome_iff_exists.1 hsome
    rw [hs]
    dsimp only
    rw [Option.isSome_map]
    obtain ⟨g1, g2, -, -⟩ := C130_allowed _ _ _ _ hs
    apply collect_isSome
    intro o ho
    obtain ⟨y, hy, rfl⟩ := List.mem_map.1 ho
    obtain ⟨hy1, hy2⟩ := List.mem_filter.1 hy
    obtain ⟨i, hi⟩ := List.mem_iff_getElem?.1 hy1
    rw [List.getElem?_zip_eq_some] at hi
    obtain ⟨hi1, hi2⟩ := hi
    have hy2' : y.2 = 1 := by simpa using hy2
    have := g2 i y.2 hi2 (by omega) nm rfl
    rw [← hnm, List.getElem?_map, hi1] at this
    simp only [Option.map_some, Option.some.injEq, List.any_eq_true, Bool.and_eq_true, decide_eq_true_eq] at this
    obtain ⟨z, hz, hz1, hz2⟩ := this
    apply best_exists
    have : z.1 ∈ usable rows (grow n (rows.map (rowOk c))) y.1.1 := by
      unfold usable
      refine List.mem_map.2 ⟨z, List.mem_filter.2 ⟨hz, ?_⟩, rfl⟩
      obtain ⟨k, hk⟩ := List.mem_iff_getElem?.1 hz
      rw [List.getElem?_zip_eq_some] at hk
      rw [hz1] at hk
      obtain ⟨m, hm, -⟩ := (((growRows_spec c n rows k).1 hk.2).2 k z.1 le_rfl (Nat.le_add_right _ _) hk.1).depth
      simp [hz1, hz2, hm]
    exact List.ne_nil_of_mem this
  · rfl

/-! ### What does not hold -/

/-- A row of a field seen well, at a part of the season. -/
def goodRow (night : ℤ) (f : ℚ) (ok : Bool) : Row :=
  { mjd := 60940 + 365.25 * f, night := night, sunAlt := if ok then -20 else -10, airmass := some 1, sky := some 22, m5 := some 24, moon := 0 }

def preCfg (seq : ℚ) : Cfg := { ra := 178.98403541421598, sunLimit := -18, start := 60940, seq := seq }


def nightRows (n : ℤ) (f : ℚ) (ok : Bool) : List Row := [goodRow n f ok, goodRow n (f + 1 / 8766) ok]

instance (c : Cfg) (t : ℚ) : Decidable (OffSeason c t) := by unfold OffSeason; infer_instance

/-- C132 fails: a share of low rate larger than the part of the season not to be used makes sequences at times not to be used. -/
theorem C132_offseason_violated : ¬ ∀ (c : Cfg) (rows : List Row) (r : Result), optimize c rows = some r → ∀ t ∈ r.mjds, ¬ OffSeason c t := by
  intro h
  have := h { preCfg 2 with lowFrac := 0.4 } (nightRows 1 (1/10) true ++ nightRows 2 (3/20) true ++ nightRows 3 (3/5) true)
    ⟨[4879583/80, 1223183/20], [2439061/40, 4879583/80, 1223183/20], [some (3/8), some (3/4), some 2], [0, 1, 2]⟩ (by decide +kernel)
    (4879583/80) (by simp)
  exact this (by decide +kernel)

/-- C132 fails: with no part of low rate at all, a night that cannot be used sends its sequence to a time not to be used. -/
theorem C132_pushed_violated : ¬ ∀ (c : Cfg) (rows : List Row) (r : Result), c.lowFrac = 0 → c.earlyLate = false →
    optimize c rows = some r → ∀ t ∈ r.mjds, ¬ OffSeason c t := by
  intro h
  have := h (preCfg 2) (nightRows 1 (3/10) true ++ nightRows 2 (1/2) false ++ nightRows 3 (9/10) true)
    ⟨[2450749/40], [2441983/40, 488981/8, 2450749/40], [some 1, some 2, some 2], [0, 0, 1]⟩ rfl rfl (by decide +kernel)
    (2450749/40) (by simp)
  exact this (by decide +kernel)

/-- C132 fails: the number of sequences is not the number wanted in the end; two nights, both of which can be used
and two sequences wanted after them, give one. -/
theorem C132_lost_violated : ¬ ∀ (c : Cfg) (rows : List Row) (r : Result) (x : ℚ), optimize c rows = some r →
    r.desired.getLast? = some (some x) → (r.mjds.length : ℤ) = roundHalfEven x := by
  intro h
  have := h (preCfg 4) (nightRows 1 (3/10) true ++ nightRows 2 (1/2) true)
    ⟨[488981/8], [2441983/40, 488981/8], [some 1, some 2], [0, 1]⟩ 2 (by decide +kernel) rfl
  revert this
  decide +kernel

-- Four nights that can be used, three sequences asked for.
example : ∃ r, optimize (preCfg 3) (nightRows 1 (3/10) true ++ nightRows 2 (2/5) true ++ nightRows 3 (1/2) true ++ nightRows 4 (3/5) true) = some r ∧
    r.mjds = [610861/10, 1223183/20] :=
  ⟨⟨[610861/10, 1223183/20], [2441983/40, 610861/10, 488981/8, 1223183/20], [some (3/4), some (3/2), some (9/4), some 3], [0, 1, 1, 2]⟩,
    by decide +kernel, rfl⟩

-- The hypotheses of the theorem about errors hold of it.
example : (optimize (preCfg 3) (nightRows 1 (3/10) true ++ nightRows 2 (2/5) true ++ nightRows 3 (1/2) true ++ nightRows 4 (3/5) true)).isSome := by
  apply C132_no_error_partial (preCfg 3) _ _ _ rfl (by decide +kernel) (by decide +kernel) (by decide +kernel)
  intro _ n hn s t hs ht h1 h2
  have one : ∀ s, Active (ratedNights (preCfg 3) (nightRows 1 (3/10) true ++ nightRows 2 (2/5) true ++ nightRows 3 (1/2) true ++ nightRows 4 (3/5) true)) s → s = 0 := by
    intro s hs
    rw [← mem_seasonList] at hs
    have e : seasonList (ratedNights (preCfg 3) (nightRows 1 (3/10) true ++ nightRows 2 (2/5) true ++ nightRows 3 (1/2) true ++ nightRows 4 (3/5) true)) = [0] := by
      decide +kernel
    rw [e] at hs
    simpa using hs
  have := one s hs
  have := one t ht
  have e : ⌊n.season⌋ = s := by omega
  rw [e]; exact hs

end Verif
