import Verif.Lemmas.Jerk
import Mathlib.Tactic.IntervalCases

/-!
Property C30: motion times.
-/

namespace Verif

open Jerk

/-! ### Which profile -/

theorem caseOf_situation {d v a j : ℝ} (hj : 0 < j) : Situation d v a j (caseOf d v a j) := by
  have e1 : a * a / j = a ^ 2 / j := by ring
  have e2 : 2 * a * a * a / (j * j) = 2 * a ^ 3 / j ^ 2 := by ring
  have e3 : v * j < a * a ↔ v < a ^ 2 / j := by rw [lt_div_iff₀ hj, pow_two]
  unfold caseOf
  simp only [e1, e2, e3, ge_iff_le, gt_iff_lt]
  by_cases h1 : v < a ^ 2 / j
  · have h1' : ¬ a ^ 2 / j ≤ v := not_le.2 h1
    by_cases h2 : d < 2 * a ^ 3 / j ^ 2
    · have h2' : ¬ 2 * a ^ 3 / j ^ 2 ≤ d := not_le.2 h2
      by_cases h3 : d < v * 2 * √(v / j)
      · have h3' : ¬ v * 2 * √(v / j) ≤ d := not_le.2 h3
        simp only [h1, h1', h2, h2', h3, h3', if_true, and_true, and_false, if_false, true_and, false_and, and_self]
        exact ⟨h1, h2, by rw [mul_comm 2 v]; exact h3⟩
      · have h3' : v * 2 * √(v / j) ≤ d := not_lt.1 h3
        simp only [h1, h1', h2, h2', h3, h3', if_true, and_true, and_false, if_false, true_and, false_and, and_self]
        exact ⟨h1, h2, by rw [mul_comm 2 v]; exact h3'⟩
    · have h2' : 2 * a ^ 3 / j ^ 2 ≤ d := not_lt.1 h2
      simp only [h1, h1', h2, h2', if_true, and_true, and_false, if_false, true_and, false_and, and_self]
      exact ⟨h1, h2'⟩
  · have h1' : a ^ 2 / j ≤ v := not_lt.1 h1
    by_cases h2 : d < 2 * a ^ 3 / j ^ 2
    · have h2' : ¬ 2 * a ^ 3 / j ^ 2 ≤ d := not_le.2 h2
      simp only [h1, h1', h2, h2', if_true, and_true, and_false, if_false, true_and, false_and, and_self]
      exact ⟨h1', h2⟩
    · have h2' : 2 * a ^ 3 / j ^ 2 ≤ d := not_lt.1 h2
      by_cases h3 : d < v * (v / a + a / j)
      · have h3' : ¬ v * (v / a + a / j) ≤ d := not_le.2 h3
        simp only [h1, h1', h2, h2', h3, h3', if_true, and_true, and_false, if_false, true_and, false_and, and_self]
        exact ⟨h1', h2', h3⟩
      · have h3' : v * (v / a + a / j) ≤ d := not_lt.1 h3
        simp only [h1, h1', h2, h2', h3, h3', if_true, and_true, and_false, if_false, true_and, false_and, and_self]
        exact ⟨h1', h2', h3'⟩

theorem situation_range {d v a j : ℝ} {c : ℕ} (h : Situation d v a j c) : 1 ≤ c ∧ c ≤ 6 := by
  match c, h with
  | 1, _ | 2, _ | 3, _ | 4, _ | 5, _ | 6, _ => omega

theorem situation_unique {d v a j : ℝ} {c c' : ℕ} (h : Situation d v a j c) (h' : Situation d v a j c') : c = c' := by
  have r := situation_range h
  have r' := situation_range h'
  obtain ⟨r1, r2⟩ := r
  obtain ⟨r1', r2'⟩ := r'
  interval_cases c <;> interval_cases c' <;> simp only [Situation] at h h' <;> first | rfl | (exfalso; linarith [h.1, h.2, h'.1, h'.2]) | (exfalso; linarith [h.1, h'.1]) | (exfalso; linarith [h.2.1, h'.2.1]) | (exfalso; linarith [h.2.2, h'.2.2]) | (exfalso; linarith [h.2.1, h'.2]) | (exfalso; linarith [h.2, h'.2.1])

/-- C30: for every distance and positive limits exactly one of the six situations applies,
and it is the one the code selects. -/
theorem C30_one_profile (d v a j : ℝ) (hj : 0 < j) :
    (∃! c, Situation d v a j c) ∧ Situation d v a j (caseOf d v a j) :=
  ⟨⟨_, caseOf_situation hj, fun _ h => situation_unique h (caseOf_situation hj)⟩, caseOf_situation hj⟩

/-! ### One distance -/

theorem rpow_third {x : ℝ} (hx : 0 ≤ x) : (x ^ ((1 : ℝ) / 3)) ^ 3 = x := by
  rw [← Real.rpow_natCast, ← Real.rpow_mul hx]; norm_num

theorem times_spec {d v a j : ℝ} (hd : 0 ≤ d) (hv : 0 < v) (ha : 0 < a) (hj : 0 < j) :
    ∃ x y z, times d v a j (caseOf d v a j) = some (x, y, z) ∧ Reaches d v a j x y z ∧
      ∀ x' y' z', Reaches d v a j x' y' z' → x + y + z ≤ x' + y' + z' := by
  have hA : 0 < a / j := div_pos ha hj
  have hV : 0 < v / j := div_pos hv hj
  have hq : 0 < √(v / j) := Real.sqrt_pos.2 hV
  have hq2 : v / j = √(v / j) ^ 2 := (Real.sq_sqrt hV.le).symm
  have hD : 0 ≤ d / j := div_nonneg hd hj.le
  simp only [reaches_iff hj]
  have s1 : v < a ^ 2 / j ↔ v / j < (a / j) ^ 2 := by
    rw [div_pow, pow_two j, ← div_div]; exact (div_lt_div_iff_of_pos_right hj).symm
  have s2 : d < 2 * a ^ 3 / j ^ 2 ↔ d / j < 2 * (a / j) ^ 3 := by
    have : 2 * (a / j) ^ 3 = (2 * a ^ 3 / j ^ 2) / j := by field_simp
    rw [this]; exact (div_lt_div_iff_of_pos_right hj).symm
  have s3 : d < 2 * v * √(v / j) ↔ d / j < 2 * √(v / j) ^ 3 := by
    have : 2 * √(v / j) ^ 3 = (2 * v * √(v / j)) / j := by
      have : √(v / j) ^ 3 = √(v / j) ^ 2 * √(v / j) := by ring
      rw [this, ← hq2]; ring
    rw [this]; exact (div_lt_div_iff_of_pos_right hj).symm
  have s4 : d < v * (v / a + a / j) ↔ d / j < v / j * (v / j / (a / j) + a / j) := by
    have : v / j * (v / j / (a / j) + a / j) = v * (v / a + a / j) / j := by field_simp
    rw [this]; exact (div_lt_div_iff_of_pos_right hj).symm
  have hdv : d / v = (d / j) / (v / j) := by field_simp
  have hva : v / a = (v / j) / (a / j) := by field_simp
  have hs := caseOf_situation (d := d) (v := v) (a := a) hj
  obtain ⟨c1, c2⟩ := situation_range hs
  -- speed limit reached, full acceleration not
  have cruise : √(v / j) < a / j → 2 * √(v / j) ^ 3 ≤ d / j →
      Feas (a / j) (v / j) (d / j) √(v / j) √(v / j) (d / v) ∧
      ∀ x' y' z', Feas (a / j) (v / j) (d / j) x' y' z' → √(v / j) + √(v / j) + d / v ≤ x' + y' + z' := by
    intro h1 h2
    refine ⟨⟨hq.le, le_rfl, ?_, h1.le, ?_, ?_⟩, fun x' y' z' h => ?_⟩
    · rw [hdv, le_div_iff₀ hV]
      calc (√(v / j) + √(v / j)) * (v / j) = (√(v / j) + √(v / j)) * √(v / j) ^ 2 := by rw [← hq2]
        _ = 2 * √(v / j) ^ 3 := by ring
        _ ≤ _ := h2
    · rw [← pow_two]; exact hq2.ge
    · rw [← pow_two, ← hq2]; field_simp
    · have := h.opt2 hq hq2 h2
      rw [hdv]; linarith
  have short : ∀ r, 0 ≤ r → 2 * r ^ 3 = d / j → r ≤ a / j → r ^ 2 ≤ v / j →
      Feas (a / j) (v / j) (d / j) r r (2 * r) ∧
      ∀ x' y' z', Feas (a / j) (v / j) (d / j) x' y' z' → r + r + 2 * r ≤ x' + y' + z' := by
    intro r hr h1 h2 h3
    refine ⟨⟨hr, le_rfl, by linarith, h2, by rw [← pow_two]; exact h3, by rw [← h1]; ring⟩, fun x' y' z' h => ?_⟩
    have := h.opt1 h1
    linarith
  have hr0 : 0 ≤ (d / (2 * j)) ^ ((1 : ℝ) / 3) := Real.rpow_nonneg (by positivity) _
  have hr3 : 2 * ((d / (2 * j)) ^ ((1 : ℝ) / 3)) ^ 3 = d / j := by
    rw [rpow_third (by positivity)]; field_simp
  have cube_le : ∀ r s : ℝ, 0 ≤ s → 2 * r ^ 3 < 2 * s ^ 3 → r ≤ s := by
    intro r s hs h
    by_contra hc
    rw [not_le] at hc
    have := pow_le_pow_left₀ hs hc.le 3
    linarith
  have hsq : v / j < (a / j) ^ 2 → √(v / j) < a / j := fun h => by
    rw [Real.sqrt_lt' hA]; exact h
  generalize hc : caseOf d v a j = c at hs c1 c2 ⊢
  interval_cases c
  · -- 1
    obtain ⟨h1, h2⟩ := hs
    rw [s1] at h1
    rw [← not_lt, s2, not_lt] at h2
    refine ⟨_, _, _, by simp only [times, true_or, if_true], cruise (hsq h1) (le_trans ?_ h2)⟩
    have := pow_le_pow_left₀ hq.le (hsq h1).le 3
    linarith
  · -- 2
    obtain ⟨h1, h2⟩ := hs
    rw [← not_lt, s1, not_lt] at h1
    rw [s2] at h2
    have hle : (d / (2 * j)) ^ ((1 : ℝ) / 3) ≤ a / j := cube_le _ _ hA.le (by rw [hr3]; exact h2)
    refine ⟨_, _, _, by simp [times], short _ hr0 hr3 hle ?_⟩
    exact (pow_le_pow_left₀ hr0 hle 2).trans h1
  · -- 3
    obtain ⟨h1, h2, h3⟩ := hs
    rw [s1] at h1
    rw [← not_lt, s3, not_lt] at h3
    exact ⟨_, _, _, by simp [times], cruise (hsq h1) h3⟩
  · -- 4
    obtain ⟨h1, h2, h3⟩ := hs
    rw [s1] at h1
    rw [s3] at h3
    have hle : (d / (2 * j)) ^ ((1 : ℝ) / 3) ≤ √(v / j) := cube_le _ _ hq.le (by rw [hr3]; exact h3)
    refine ⟨_, _, _, by simp [times], short _ hr0 hr3 (hle.trans (hsq h1).le) ?_⟩
    rw [hq2]; exact pow_le_pow_left₀ hr0 hle 2
  · -- 5
    obtain ⟨h1, h2, h3⟩ := hs
    rw [← not_lt, s1, not_lt] at h1
    rw [← not_lt, s4, not_lt] at h3
    have hAV : a / j ≤ v / j / (a / j) := by rw [le_div_iff₀ hA, ← pow_two]; exact h1
    refine ⟨a / j, v / a, d / v, by simp [times], ⟨hA.le, by rw [hva]; exact hAV, ?_, le_rfl, ?_, ?_⟩, fun x' y' z' h => ?_⟩
    · rw [hdv, hva, le_div_iff₀ hV]; linarith
    · rw [hva]; exact (mul_div_cancel₀ _ hA.ne').le
    · field_simp
    · have := h.opt5 hA h1 h3
      rw [hdv, hva]; linarith
  · -- 6
    obtain ⟨h1, h2, h3⟩ := hs
    rw [← not_lt, s1, not_lt] at h1
    rw [← not_lt, s2, not_lt] at h2
    rw [s4] at h3
    set A := a / j with hAdef
    set w := √((4 * d * j * j + a * a * a) / (a * j * j)) with hw
    have hw2 : w ^ 2 = 4 * (d / j) / A + A ^ 2 := by
      rw [hw, Real.sq_sqrt (by positivity), hAdef]; field_simp
    have hw0 : 0 ≤ w := Real.sqrt_nonneg _
    have hw3 : 3 * A ≤ w := by
      apply le_of_sq_le_sq _ hw0
      rw [hw2]
      have : 8 * A ^ 2 ≤ 4 * (d / j) / A := by rw [le_div_iff₀ hA]; nlinarith
      nlinarith
    have htD : A * (1 / 2 * (w - A)) * (1 / 2 * (w - A) + A) = d / j := by
      have e : A * (1 / 2 * (w - A)) * (1 / 2 * (w - A) + A) = A * (w ^ 2 - A ^ 2) / 4 := by ring
      rw [e, hw2]; field_simp; ring
    have ht0 : A ≤ 1 / 2 * (w - A) := by linarith
    refine ⟨A, 1 / 2 * (w - A), 1 / 2 * (w - A) + A, by simp [times, hw, hAdef],
      ⟨hA.le, ht0, by linarith, le_rfl, ?_, by rw [← htD]⟩, fun x' y' z' h => ?_⟩
    · by_contra hc
      rw [not_le] at hc
      have e1 : v / j / A < 1 / 2 * (w - A) := by rw [div_lt_iff₀ hA]; linarith
      have e2 : v / j * (v / j / A + A) < A * (1 / 2 * (w - A)) * (1 / 2 * (w - A) + A) :=
        mul_lt_mul'' hc (by linarith) hV.le (by positivity)
      linarith
    · have := h.opt6 hA h2 (by linarith) htD
      linarith

theorem acc_spec {d v a : ℝ} (hd : 0 ≤ d) (hv : 0 < v) (ha : 0 < a) :
    (∃ ta tv, AccReaches d v a ta tv ∧ accTime d v a = ta + tv) ∧
      ∀ ta tv, AccReaches d v a ta tv → accTime d v a ≤ ta + tv := by
  unfold accTime
  dsimp only
  split
  · rename_i h
    have hs := Real.sq_sqrt (show 0 ≤ d / a by positivity)
    have hs0 := Real.sqrt_nonneg (d / a)
    rw [lt_div_iff₀ ha] at h
    refine ⟨⟨√(d / a), √(d / a), ⟨hs0, le_rfl, ?_, ?_⟩, by ring⟩, fun ta tv ⟨h1, h2, h3, h4⟩ => ?_⟩
    · apply le_of_sq_le_sq _ hv.le
      rw [mul_pow, hs]
      have : a ^ 2 * (d / a) = d * a := by field_simp
      rw [this]; exact h.le
    · rw [mul_assoc, ← pow_two, hs]; field_simp
    · apply le_of_sq_le_sq _ (by linarith)
      have e : (2 * √(d / a)) ^ 2 = 4 * (d / a) := by rw [mul_pow, hs]; norm_num
      have e2 : d / a = ta * tv := by rw [← h4]; field_simp
      rw [e, e2]; nlinarith [sq_nonneg (ta - tv)]
  · rename_i h
    rw [not_lt, div_le_iff₀ ha] at h
    have e : 2 * v / a + (d - v ^ 2 / a) / v = v / a + d / v := by field_simp; ring
    rw [e]
    refine ⟨⟨v / a, d / v, ⟨by positivity, ?_, ?_, ?_⟩, rfl⟩, fun ta tv ⟨h1, h2, h3, h4⟩ => ?_⟩
    · rw [div_le_div_iff₀ ha hv]; nlinarith
    · exact (mul_div_cancel₀ _ ha.ne').le
    · field_simp
    · have hd0 : 0 < d := by
        by_contra hc
        have : d = 0 := le_antisymm (not_lt.1 hc) hd
        rw [this] at h; nlinarith
      have hta : 0 < ta := by
        rcases h1.lt_or_eq with h' | h'
        · exact h'
        · rw [← h'] at h4; simp at h4; linarith
      have e2 : ta + tv - (v / a + d / v) = (v - a * ta) * (tv * a - v) / (a * v) := by
        rw [← h4]; field_simp; ring
      have e3 : 0 ≤ (v - a * ta) * (tv * a - v) / (a * v) := by
        apply div_nonneg _ (by positivity)
        apply mul_nonneg (by linarith)
        by_contra hc
        have : tv * a < v := by linarith
        have h5 : a * ta * (a * tv) < v * v := mul_lt_mul'' (by nlinarith) (by linarith) (by positivity) (by nlinarith)
        nlinarith
      linarith

/-! ### Arrays -/

theorem mapM_eq_some {β γ : Type} (f : β → Option γ) (g : β → γ) (l : List β) (h : ∀ x ∈ l, f x = some (g x)) :
    l.mapM f = some (l.map g) := by
  induction l with
  | nil => rfl
  | cons x l ih =>
    rw [List.mapM_cons, h x (by simp), ih (fun y hy => h y (by simp [hy]))]; rfl

/-- The time for one distance. -/
noncomputable def oneTime (v a j d : ℝ) : ℝ := (total d v a j (caseOf d v a j)).getD 0

theorem total_some {d v a j : ℝ} (hj : 0 < j) : total d v a j (caseOf d v a j) = some (oneTime v a j d) := by
  obtain ⟨c1, c2⟩ := situation_range (caseOf_situation (d := d) (v := v) (a := a) hj)
  unfold oneTime
  generalize caseOf d v a j = c at c1 c2 ⊢
  interval_cases c <;> simp [total, times]

theorem fill_eq {v a j : ℝ} (hj : 0 < j) (ds : List ℝ) (g : ℝ → ℝ) (c : ℕ) :
    fill v a j ds (ds.map g) c = some (ds.map (fun d => if caseOf d v a j = c then oneTime v a j d else g d)) := by
  unfold fill
  have e : List.zip ds (ds.map g) = ds.map (fun d => (d, g d)) := by
    induction ds with
    | nil => rfl
    | cons d ds ih => simp [ih]
  rw [e, mapM_eq_some _ (fun p => if caseOf p.1 v a j = c then oneTime v a j p.1 else p.2), List.map_map]
  · rfl
  · intro p _
    split
    · rename_i h; rw [← h, total_some hj]
    · rfl

theorem fold_fill {v a j : ℝ} (hj : 0 < j) (ds : List ℝ) (u : List ℕ) : ∀ g : ℝ → ℝ,
    u.foldlM (fill v a j ds) (ds.map g) =
      some (ds.map (fun d => if caseOf d v a j ∈ u then oneTime v a j d else g d)) := by
  induction u with
  | nil => intro g; simp
  | cons c u ih =>
    intro g
    rw [List.foldlM_cons, fill_eq hj]
    simp only [Option.bind_eq_bind, Option.bind_some]
    rw [ih]
    congr 2
    funext d
    by_cases h1 : caseOf d v a j ∈ u
    · simp [h1]
    · by_cases h2 : caseOf d v a j = c
      · simp [h2]
      · simp [h1, h2]

theorem jerkTimes_eq {v a j : ℝ} (hj : 0 < j) (ds : List ℝ) :
    jerkTimes ds v a (some j) = some (ds.map (oneTime v a j)) := by
  unfold jerkTimes
  dsimp only
  split
  · rename_i c hc
    apply mapM_eq_some
    intro d hd
    have : caseOf d v a j ∈ (ds.map (fun d => caseOf d v a j)).dedup := by
      rw [List.mem_dedup]; exact List.mem_map_of_mem hd
    rw [hc, List.mem_singleton] at this
    rw [← this, total_some hj]
  · rw [fold_fill hj]
    congr 1
    apply List.map_congr_left
    intro d hd
    rw [if_pos]
    rw [List.mem_dedup]; exact List.mem_map_of_mem hd

/-! ### C30 -/

/-- C30, arrays: with positive limits the times of an array of distances are the times of the
single distances; the call never raises. `j = none` stands for no jerk limit. -/
theorem C30_elementwise (ds : List ℝ) (v a : ℝ) (j : Option ℝ) (hj : ∀ x ∈ j, 0 < x) :
    ∃ ts, jerkTimes ds v a j = some ts ∧ List.Forall₂ (fun d t => jerkTimes [d] v a j = some [t]) ds ts := by
  cases j with
  | none =>
    refine ⟨_, rfl, ?_⟩
    rw [List.forall₂_map_right_iff, List.forall₂_same]
    intro d _; rfl
  | some j =>
    have hj := hj j rfl
    refine ⟨_, jerkTimes_eq hj ds, ?_⟩
    rw [List.forall₂_map_right_iff, List.forall₂_same]
    intro d _
    rw [jerkTimes_eq hj]; rfl

/-- C30: the time is that of a move within the limits from rest to rest over this distance,
and no move of this kind (ramp, hold, ramp, cruise, and back) is shorter. -/
theorem C30_shortest_move (d v a j : ℝ) (hd : 0 ≤ d) (hv : 0 < v) (ha : 0 < a) (hj : 0 < j) :
    ∃ t, jerkTimes [d] v a (some j) = some [t] ∧
      (∃ tj ta tv, Reaches d v a j tj ta tv ∧ Plan.time (profile j tj ta tv) = t) ∧
      (∀ tj ta tv, Reaches d v a j tj ta tv → t ≤ Plan.time (profile j tj ta tv)) := by
  obtain ⟨x, y, z, h1, h2, h3⟩ := times_spec hd hv ha hj
  have e : oneTime v a j d = x + y + z := by
    unfold oneTime total; rw [h1]; simp only [Option.map_some, Option.getD_some]; ring
  refine ⟨_, jerkTimes_eq hj [d], ⟨x, y, z, h2, ?_⟩, fun x' y' z' h => ?_⟩
  · rw [profile_time, e]
  · rw [profile_time, e]; exact h3 _ _ _ h

/-- The same without a jerk limit. -/
theorem C30_shortest_acc (d v a : ℝ) (hd : 0 ≤ d) (hv : 0 < v) (ha : 0 < a) :
    ∃ t, jerkTimes [d] v a none = some [t] ∧ (∃ ta tv, AccReaches d v a ta tv ∧ ta + tv = t) ∧
      (∀ ta tv, AccReaches d v a ta tv → t ≤ ta + tv) := by
  obtain ⟨⟨ta, tv, h1, h2⟩, h3⟩ := acc_spec hd hv ha
  exact ⟨_, rfl, ⟨ta, tv, h1, h2.symm⟩, h3⟩

/-- A move over a distance can be shrunk to a shorter distance. -/
theorem reaches_shrink {d d' v a j x y z : ℝ} (hj : 0 < j) (h : Reaches d v a j x y z) (h0 : 0 ≤ d') (hd : d' ≤ d) :
    ∃ x' y' z', Reaches d' v a j x' y' z' ∧ x' + y' + z' ≤ x + y + z := by
  rw [reaches_iff hj] at h
  simp only [reaches_iff hj]
  obtain ⟨a1, a2, a3, a4, a5, a6⟩ := h
  rcases h0.lt_or_eq with h0 | h0
  · have hd0 : 0 < d := h0.trans_le hd
    set l := (d' / d) ^ ((1 : ℝ) / 3) with hl
    have l3 : l ^ 3 = d' / d := rpow_third (by positivity)
    have l0 : 0 ≤ l := Real.rpow_nonneg (by positivity) _
    have l1 : l ≤ 1 := Real.rpow_le_one (by positivity) ((div_le_one hd0).2 hd) (by norm_num)
    have hx : l * x ≤ x := mul_le_of_le_one_left a1 l1
    have hy : l * y ≤ y := mul_le_of_le_one_left (a1.trans a2) l1
    have hz : l * z ≤ z := mul_le_of_le_one_left (by linarith) l1
    refine ⟨l * x, l * y, l * z, ⟨mul_nonneg l0 a1, mul_le_mul_of_nonneg_left a2 l0, ?_, by linarith, ?_, ?_⟩, by linarith⟩
    · rw [← mul_add]; exact mul_le_mul_of_nonneg_left a3 l0
    · exact (mul_le_mul hx hy (mul_nonneg l0 (a1.trans a2)) a1).trans a5
    · have e : l * x * (l * y) * (l * z) = l ^ 3 * (x * y * z) := by ring
      rw [e, a6, l3]; field_simp
  · have hx : 0 ≤ y := a1.trans a2
    refine ⟨0, 0, 0, ⟨le_rfl, le_rfl, by simp, a1.trans a4, ?_, by rw [← h0]; simp⟩, by linarith⟩
    simp only [mul_zero]; exact (mul_nonneg a1 hx).trans a5

/-- C30: the time is zero for no distance, is never negative or less than distance over
maximum speed, and does not decrease when the distance grows, also across the change from
one motion profile to another. -/
theorem C30_time_laws (v a : ℝ) (j : Option ℝ) (hv : 0 < v) (ha : 0 < a) (hj : ∀ x ∈ j, 0 < x) (d t : ℝ)
    (hd : 0 ≤ d) (ht : jerkTimes [d] v a j = some [t]) :
    0 ≤ t ∧ d / v ≤ t ∧ (d = 0 → t = 0) ∧
    ∀ d' t', d ≤ d' → jerkTimes [d'] v a j = some [t'] → t ≤ t' := by
  cases j with
  | none =>
    simp only [jerkTimes, List.map_cons, List.map_nil, Option.some.injEq, List.cons.injEq, and_true] at ht ⊢
    subst ht
    obtain ⟨⟨ta, tv, ⟨h1, h2, h3, h4⟩, h5⟩, h6⟩ := acc_spec hd hv ha
    have hle : d / v ≤ tv := by
      rw [div_le_iff₀ hv, ← h4, mul_comm tv]; exact mul_le_mul_of_nonneg_right h3 (h1.trans h2)
    refine ⟨by linarith, by linarith, ?_, ?_⟩
    · rintro rfl
      have := h6 0 0 ⟨le_rfl, le_rfl, by simpa using hv.le, by simp⟩
      linarith
    · rintro d' t' hd' rfl
      obtain ⟨⟨ta', tv', ⟨k1, k2, k3, k4⟩, k5⟩, -⟩ := acc_spec (hd.trans hd') hv ha
      rw [k5]
      rcases hd.lt_or_eq with h0 | h0
      · have hd0 : 0 < d' := h0.trans_le hd'
        set l := √(d / d') with hl
        have l2 : l ^ 2 = d / d' := Real.sq_sqrt (by positivity)
        have l0 : 0 ≤ l := Real.sqrt_nonneg _
        have l1 : l ≤ 1 := Real.sqrt_le_one.2 ((div_le_one hd0).2 hd')
        have hx : l * ta' ≤ ta' := mul_le_of_le_one_left k1 l1
        have hy : l * tv' ≤ tv' := mul_le_of_le_one_left (k1.trans k2) l1
        have := h6 (l * ta') (l * tv') ⟨mul_nonneg l0 k1, mul_le_mul_of_nonneg_left k2 l0, ?_, ?_⟩
        · linarith
        · exact (mul_le_mul_of_nonneg_left hx ha.le).trans k3
        · have e : a * (l * ta') * (l * tv') = l ^ 2 * (a * ta' * tv') := by ring
          rw [e, k4, l2]; field_simp
      · have := h6 0 0 ⟨le_rfl, le_rfl, by simpa using hv.le, by simp [← h0]⟩
        linarith
  | some j =>
    have hj := hj j rfl
    obtain ⟨t1, e1, ⟨x, y, z, hr, htime⟩, hmin⟩ := C30_shortest_move d v a j hd hv ha hj
    rw [e1] at ht
    simp only [Option.some.injEq, List.cons.injEq, and_true] at ht
    subst ht
    rw [profile_time] at htime
    have hf := (reaches_iff hj).1 hr
    have hx := hf.x0
    have hy := hf.xy
    have hz := hf.xyz
    have hle : d / v ≤ z := by
      have e : d = j * (x * y * z) := by rw [hf.D]; field_simp
      have e2 : j * (x * y) ≤ v := by
        have := hf.xyV
        rw [le_div_iff₀ hj] at this; linarith
      rw [div_le_iff₀ hv, e, mul_comm z, ← mul_assoc]
      exact mul_le_mul_of_nonneg_right e2 (by linarith)
    refine ⟨by linarith, by linarith, ?_, ?_⟩
    · rintro rfl
      obtain ⟨x', y', z', h1, h2⟩ : ∃ x' y' z', Reaches 0 v a j x' y' z' ∧ x' + y' + z' = 0 :=
        ⟨0, 0, 0, (reaches_iff hj).2 ⟨le_rfl, le_rfl, by simp, by positivity, by simp; positivity, by simp⟩, by simp⟩
      have := hmin _ _ _ h1
      rw [profile_time, h2] at this
      linarith
    · intro d' t' hd' h'
      obtain ⟨t2, e2, ⟨x', y', z', hr', htime'⟩, -⟩ := C30_shortest_move d' v a j (hd.trans hd') hv ha hj
      rw [e2] at h'
      simp only [Option.some.injEq, List.cons.injEq, and_true] at h'
      subst h'
      obtain ⟨x3, y3, z3, h3, h4⟩ := reaches_shrink hj hr' hd hd'
      have := hmin _ _ _ h3
      rw [profile_time] at this htime'
      linarith

/-- A concrete move: speed, acceleration and jerk limit 1, distance 4 takes 1 + 1 + 4 s. -/
example : jerkTimes [4] 1 1 (some 1) = some [6] ∧ Reaches 4 1 1 1 1 1 4 := by
  constructor
  · have h : Situation 4 1 1 1 5 := by norm_num [Situation]
    have hc : caseOf 4 1 1 1 = 5 := situation_unique (caseOf_situation one_pos) h
    rw [jerkTimes_eq one_pos]
    simp only [List.map_cons, List.map_nil, oneTime, hc, total, times]
    norm_num
  · rw [reaches_iff one_pos]
    constructor <;> norm_num

end Verif
