import Verif.Lemmas.IntRounded

/-!
Properties C15, C16: the tolerant comparison class.
-/

namespace Verif

/-! ### C15: single values -/

/-- C15 (a): `a ≤ b` always compares as `<=`. -/
theorem C15_le_of_le (t : Tol) (a b : ℚ) (h : a ≤ b) : leS t a b = true :=
  (leS_iff t a b).mpr (scalarPair_mono t h)

/-- C15 (b): a strict `<` is only reported when it is really smaller. -/
theorem C15_lt_sound (t : Tol) (a b : ℚ) (h : ltS t a b = true) : a < b := by
  by_contra hc
  have := scalarPair_anti t (not_lt.mp hc)
  have h' := (ltS_iff t a b).mp h
  exact absurd h' (not_lt.mpr this)

/-- C15 (c): exactly one of `<`, `==`, `>` holds, and `<=` / `>=` are the matching unions. -/
theorem C15_trichotomy (t : Tol) (a b : ℚ) :
    ((ltS t a b = true ∧ eqS t a b = false ∧ gtS t a b = false) ∨
     (ltS t a b = false ∧ eqS t a b = true ∧ gtS t a b = false) ∨
     (ltS t a b = false ∧ eqS t a b = false ∧ gtS t a b = true)) ∧
    (leS t a b = (ltS t a b || eqS t a b)) ∧ (geS t a b = (gtS t a b || eqS t a b)) := by
  have h1 := ltS_iff t a b
  have h2 := eqS_iff t a b
  have h3 := gtS_iff t a b
  have h4 := leS_iff t a b
  have h5 := geS_iff t a b
  rcases lt_trichotomy (scalarPair t a b).1 (scalarPair t a b).2 with h | h | h
  · have e1 : ltS t a b = true := h1.mpr h
    have e2 : eqS t a b = false := by rw [← Bool.not_eq_true, h2]; exact ne_of_lt h
    have e3 : gtS t a b = false := by rw [← Bool.not_eq_true, h3]; exact not_lt.mpr h.le
    have e4 : leS t a b = true := h4.mpr h.le
    have e5 : geS t a b = false := by rw [← Bool.not_eq_true, h5]; exact not_le.mpr h
    simp [e1, e2, e3, e4, e5]
  · have e1 : ltS t a b = false := by rw [← Bool.not_eq_true, h1]; exact not_lt.mpr h.ge
    have e2 : eqS t a b = true := h2.mpr h
    have e3 : gtS t a b = false := by rw [← Bool.not_eq_true, h3]; exact not_lt.mpr h.le
    have e4 : leS t a b = true := h4.mpr h.le
    have e5 : geS t a b = true := h5.mpr h.ge
    simp [e1, e2, e3, e4, e5]
  · have e1 : ltS t a b = false := by rw [← Bool.not_eq_true, h1]; exact not_lt.mpr h.le
    have e2 : eqS t a b = false := by rw [← Bool.not_eq_true, h2]; exact ne_of_gt h
    have e3 : gtS t a b = true := h3.mpr h
    have e4 : leS t a b = false := by rw [← Bool.not_eq_true, h4]; exact not_le.mpr h
    have e5 : geS t a b = true := h5.mpr h.le
    simp [e1, e2, e3, e4, e5]

/-- C15 (d): values further apart than the relative tolerance compare as exact numbers. -/
theorem C15_exact_when_far (t : Tol) (ht : 0 ≤ t.limit) (a b : ℚ)
    (hfar : t.limit * min |a| |b| < |a - b|) :
    (ltS t a b = true ↔ a < b) ∧ (leS t a b = true ↔ a ≤ b) ∧ (eqS t a b = true ↔ a = b) ∧
    (gtS t a b = true ↔ b < a) ∧ (geS t a b = true ↔ b ≤ a) := by
  simp [ltS_iff, leS_iff, eqS_iff, gtS_iff, geS_iff, scalarPair_far t ht hfar]

/-- The hypothesis of `C15_exact_when_far` is met by ordinary different values. -/
example : Tol.default.limit * min |(60000.1 : ℚ)| |60000.2| < |60000.1 - 60000.2| := by
  decide +kernel

/-- C15 (e): swapping the operands swaps the comparison. -/
theorem C15_swap (t : Tol) (a b : ℚ) :
    gtS t a b = ltS t b a ∧ geS t a b = leS t b a ∧ eqS t a b = eqS t b a := by
  have hsw : scalarPair t b a = ((scalarPair t a b).2, (scalarPair t a b).1) := by
    unfold scalarPair
    simp only [or_comm (a := b = 0), min_comm (orderOfMag b), abs_sub_comm (b / _), min_comm b a]
    split_ifs <;> rfl
  refine ⟨?_, ?_, ?_⟩ <;> rw [Bool.eq_iff_iff]
  · rw [gtS_iff, ltS_iff, hsw]
  · rw [geS_iff, leS_iff, hsw]
  · rw [eqS_iff, eqS_iff, hsw]; exact eq_comm

/-- The class promises to hide machine-precision differences ("compare on scaled up
integers").  Because line 218 does not parenthesise `v1 - floor`, the comparison rounds to
whole numbers, and two values `10^-12` apart that straddle a half-integer still compare as
different. -/
theorem C15_close_values_can_differ :
    ltS Tol.default (1 / 2) (1 / 2 + 1 / 1000000000000) = true ∧
    eqS Tol.default (1 / 2) (1 / 2 + 1 / 1000000000000) = false := by
  decide +kernel

/-! ### C16: arrays -/

/-- C16 fails for the code: if one pair of the arrays is close, *all* pairs are compared as
rounded integers. `[1.2, 5] < [1.4, 5]` is False in its first element, although
`1.2 < 1.4` compares True alone. -/
theorem C16_violated :
    ltA Tol.default [(1.2, 1.4), (5, 5)] = [false, false] ∧ ltS Tol.default 1.2 1.4 = true := by
  decide +kernel

/-- C16, full statement, refuted. -/
theorem C16_not_elementwise :
    ¬ ∀ ps : List (ℚ × ℚ), ltA Tol.default ps = ps.map (fun p => ltS Tol.default p.1 p.2) := by
  intro h
  have := h [(1.2, 1.4), (5, 5)]
  revert this
  decide +kernel

/-- C16, what holds: if every pair is further apart than the tolerance (relative to its
smaller absolute value) and no entry is zero, then each comparison is element-wise, and
exact.  Missing for the full property: arrays with at least one close pair. -/
theorem C16_elementwise_partial (t : Tol) (ht : 0 ≤ t.limit) (ps : List (ℚ × ℚ))
    (hnz : ∀ p ∈ ps, p.1 ≠ 0 ∧ p.2 ≠ 0)
    (hfar : ∀ p ∈ ps, t.limit * min |p.1| |p.2| < |p.1 - p.2|) :
    (ltA t ps = ps.map (fun p => ltS t p.1 p.2) ∧ ltA t ps = ps.map (fun p => decide (p.1 < p.2))) ∧
    (leA t ps = ps.map (fun p => leS t p.1 p.2) ∧ leA t ps = ps.map (fun p => decide (p.1 ≤ p.2))) := by
  have hc : checkLimit t ps = ps := checkLimit_far t ht ps hfar (by
    intro om _ p hp h0
    have := hnz p hp
    rcases h0 with h0 | h0
    · exact absurd h0 this.1
    · exact absurd h0 this.2)
  have hlt : ltA t ps = ps.map (fun p => decide (p.1 < p.2)) := by simp [ltA, hc]
  have hle : leA t ps = ps.map (fun p => decide (p.1 ≤ p.2)) := by simp [leA, hc]
  refine ⟨⟨?_, hlt⟩, ⟨?_, hle⟩⟩
  · rw [hlt]
    apply List.map_congr_left
    intro p hp
    have := (C15_exact_when_far t ht p.1 p.2 (hfar p hp)).1
    rw [Bool.eq_iff_iff, this]; simp
  · rw [hle]
    apply List.map_congr_left
    intro p hp
    have := (C15_exact_when_far t ht p.1 p.2 (hfar p hp)).2.1
    rw [Bool.eq_iff_iff, this]; simp

example : (∀ p ∈ [((1.2 : ℚ), (1.4 : ℚ)), (5, 6)], p.1 ≠ 0 ∧ p.2 ≠ 0) ∧
    (∀ p ∈ [((1.2 : ℚ), (1.4 : ℚ)), (5, 6)], Tol.default.limit * min |p.1| |p.2| < |p.1 - p.2|) := by
  decide +kernel

/-- Whatever the arrays, element-wise order is never inverted: where the left element is
not larger, `<=` is True. -/
theorem C16_le_complete (t : Tol) (ps : List (ℚ × ℚ)) (i : Nat) (hi : i < ps.length)
    (h : ps[i].1 ≤ ps[i].2) : (leA t ps)[i]? = some true := by
  unfold leA checkLimit
  split
  · simp [hi, h]
  · simp only
    split
    · simp only [List.map_map, List.getElem?_map, List.getElem?_eq_getElem hi, Option.map_some,
        Function.comp, Int.cast_le, Option.some.injEq, decide_eq_true_eq]
      exact roundHalfEven_mono (by linarith)
    · simp [hi, h]

end Verif
