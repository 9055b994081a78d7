import Verif.Model.Footprint
import Verif.Lemmas.Angles
import Mathlib.Algebra.BigOperators.Group.Finset.Basic
import Mathlib.Algebra.Order.BigOperators.Group.Finset
import Mathlib.Algebra.Order.Floor.Semiring
import Mathlib.Algebra.Order.Archimedean.Basic
import Mathlib.Data.List.GetD
import Mathlib.Data.Rat.Floor
import Mathlib.Tactic.Linarith
import Mathlib.Tactic.FieldSimp
import Mathlib.Tactic.Ring
import Mathlib.Tactic.NormNum

/-!
C54, the evolution of footprints: flat in the first half of each season, rising linearly in the second.
-/

namespace Verif

open Fp

variable {K : Type} [Field K] [LinearOrder K] [IsStrictOrderedRing K] [FloorRing K]

/-- What is wanted of a pixel after `k` seasons and the part `x` of the next one, when season number `i` (from 0) adds
`rise i`: nothing new in the first half of the season. -/
def desired (rise : ℕ → K) (k : ℕ) (x : K) : K := ∑ i ∈ Finset.range k, rise i + max 0 (2 * x - 1) * rise k

omit [FloorRing K] in
theorem desired_bounds {rise : ℕ → K} {k : ℕ} {x : K} (h : 0 ≤ rise k) (h0 : 0 ≤ x) (h1 : x ≤ 1) :
    ∑ i ∈ Finset.range k, rise i ≤ desired rise k x ∧ desired rise k x ≤ ∑ i ∈ Finset.range (k + 1), rise i := by
  rw [Finset.sum_range_succ]
  unfold desired
  have m0 : 0 ≤ max 0 (2 * x - 1) := le_max_left _ _
  have m1 : max 0 (2 * x - 1) ≤ 1 := max_le zero_le_one (by linarith)
  have := mul_nonneg m0 h
  have := mul_le_of_le_one_left h m1
  constructor <;> linarith

omit [FloorRing K] in
theorem desired_mono {rise : ℕ → K} {n : ℕ} (h : ∀ i < n, 0 ≤ rise i) {k k' : ℕ} {x x' : K} (hk : k' < n) (h0 : 0 ≤ x) (h1 : x < 1)
    (h0' : 0 ≤ x') (h1' : x' < 1) (hle : (k : K) + x ≤ k' + x') : desired rise k x ≤ desired rise k' x' := by
  have hkk : k ≤ k' := by
    by_contra hc
    have : (k' : K) + 1 ≤ k := by exact_mod_cast Nat.lt_of_not_le hc
    linarith
  rcases Nat.eq_or_lt_of_le hkk with rfl | hlt
  · unfold desired
    have : max 0 (2 * x - 1) ≤ max 0 (2 * x' - 1) := max_le_max le_rfl (by linarith)
    have := mul_le_mul_of_nonneg_right this (h k hk)
    linarith
  · have a := (desired_bounds (h k (lt_trans hlt hk)) h0 h1.le).2
    have b := (desired_bounds (h k' hk) h0' h1'.le).1
    have c : ∑ i ∈ Finset.range (k + 1), rise i ≤ ∑ i ∈ Finset.range k', rise i :=
      Finset.sum_le_sum_of_subset_of_nonneg (Finset.range_mono hlt)
        (fun i hi _ => h i (lt_trans (Finset.mem_range.mp hi) hk))
    linarith

/-- Every time that is not negative is in one season. -/
theorem season_split {P t : K} (hP : 0 < P) (ht : 0 ≤ t) : ∃ (k : ℕ) (x : K), 0 ≤ x ∧ x < 1 ∧ t = (k + x) * P := by
  have hf : (0 : ℤ) ≤ ⌊t / P⌋ := Int.floor_nonneg.mpr (div_nonneg ht hP.le)
  refine ⟨⌊t / P⌋.toNat, t / P - ⌊t / P⌋, ?_, ?_, ?_⟩
  · linarith [Int.floor_le (t / P)]
  · linarith [Int.lt_floor_add_one (t / P)]
  · have : ((⌊t / P⌋.toNat : ℕ) : K) = (⌊t / P⌋ : K) := by
      have := Int.toNat_of_nonneg hf
      exact_mod_cast congrArg (fun z : ℤ => (z : K)) this
    rw [this]; field_simp; ring

theorem season_floor {P : K} (hP : 0 < P) {k : ℕ} {x : K} (h0 : 0 ≤ x) (h1 : x < 1) :
    ⌊((k : K) + x) * P / P⌋ = (k : ℤ) ∧ Ang.md P (((k : K) + x) * P) = x * P := by
  have e : ((k : K) + x) * P / P = k + x := by field_simp
  have f : ⌊((k : K) + x) * P / P⌋ = (k : ℤ) := by
    rw [e, Int.floor_eq_iff]; push_cast; exact ⟨by linarith, by linarith⟩
  refine ⟨f, ?_⟩
  unfold Ang.md; rw [f]; push_cast; ring

omit [FloorRing K] in
theorem ramp_eq {P x r b : K} (hP : 0 < P) :
    (if P / 2 < x * P then b + (x * P - P / 2) * r / (1 / 2 * P) else b) = b + max 0 (2 * x - 1) * r := by
  split_ifs with h
  · have : 0 ≤ 2 * x - 1 := by
      by_contra hc
      have : x * P < 1 / 2 * P := mul_lt_mul_of_pos_right (by linarith) hP
      linarith
    rw [max_eq_right this]; field_simp
  · have : 2 * x - 1 ≤ 0 := by
      by_contra hc
      have : 1 / 2 * P < x * P := mul_lt_mul_of_pos_right (by linarith) hP
      exact h (by linarith)
    rw [max_eq_left this]; ring

/-- **C54** (shape with one rise): after `k` seasons and the part `x` of the next. -/
theorem C54_line {P rise start mjd ph x : K} {k : ℕ} (hP : 0 < P) (h0 : 0 ≤ x) (h1 : x < 1)
    (ht : mjd + ph - start = (k + x) * P) : stepLine P rise start mjd ph = desired (fun _ => rise) k x := by
  have hf := season_floor hP (k := k) h0 h1
  have hn : ¬ ((k : K) + x) * P < 0 := not_lt.mpr (mul_nonneg (add_nonneg (Nat.cast_nonneg k) h0) hP.le)
  unfold stepLine
  simp only [ht, hf.1, hf.2, if_neg hn, Int.cast_natCast]
  rw [ramp_eq hP]
  unfold desired
  simp [Finset.sum_const, nsmul_eq_mul]

example : stepLine (4 : ℚ) 2 0 9 2 = desired (fun _ => 2) 2 (3 / 4) :=
  C54_line (by norm_num) (by norm_num) (by norm_num) (by norm_num)

example : stepLine (4 : ℚ) 2 0 9 2 = 5 := by decide +kernel

omit [IsStrictOrderedRing K] in
theorem stepLine_before {P rise start mjd ph : K} (h : mjd + ph - start < 0) : stepLine P rise start mjd ph = 0 := by
  unfold stepLine; simp only [if_pos h]

theorem stepLine_nonneg {P rise start mjd ph : K} (hP : 0 < P) (hr : 0 ≤ rise) : 0 ≤ stepLine P rise start mjd ph := by
  by_cases hs : mjd + ph - start < 0
  · rw [stepLine_before hs]
  obtain ⟨k, x, a, b, c⟩ := season_split hP (not_lt.mp hs)
  rw [C54_line hP a b c]
  exact le_trans (Finset.sum_nonneg (fun _ _ => hr)) (desired_bounds hr a b.le).1

/-- **C54** (one rise): what is wanted never decreases with time. -/
theorem C54_line_monotone {P rise start mjd mjd' ph : K} (hP : 0 < P) (hr : 0 ≤ rise) (h : mjd ≤ mjd') :
    stepLine P rise start mjd ph ≤ stepLine P rise start mjd' ph := by
  by_cases hs : mjd + ph - start < 0
  · rw [stepLine_before hs]; exact stepLine_nonneg hP hr
  have hs' : 0 ≤ mjd' + ph - start := by linarith [not_lt.mp hs]
  obtain ⟨k, x, a, b, c⟩ := season_split hP (not_lt.mp hs)
  obtain ⟨k', x', a', b', c'⟩ := season_split hP hs'
  rw [C54_line hP a b c, C54_line hP a' b' c']
  refine desired_mono (n := k' + 1) (fun _ _ => hr) (Nat.lt_succ_self _) a b a' b' ?_
  have : ((k : K) + x) * P ≤ (k' + x') * P := by linarith
  exact le_of_mul_le_mul_right this hP

example : stepLine (4 : ℚ) 2 0 9 2 ≤ stepLine (4 : ℚ) 2 0 10 2 := C54_line_monotone (by norm_num) (by norm_num) (by norm_num)

/-! ### Several rises -/

theorem pyAt_nat {V : Type} (l : List V) (k : ℕ) : pyAt l (k : ℤ) = l[k]? := by
  unfold pyAt; simp

omit [LinearOrder K] [IsStrictOrderedRing K] [FloorRing K] in
theorem plateau_eq (steps : List K) {k : ℕ} (h : k < steps.length) :
    (plateaus steps)[k]? = some (∑ i ∈ Finset.range k, steps.getD (i + 1) 0) := by
  unfold plateaus
  rw [List.getElem?_map, List.getElem?_range h, Option.map_some]
  congr 1
  induction k with
  | zero => cases steps with
    | nil => simp
    | cons a l => simp
  | succ k ih =>
    have := ih (by omega)
    rw [Finset.sum_range_succ, ← this, List.sum_take_succ _ _ h]
    rw [List.getD_eq_getElem _ _ h]; ring

/-- **C54** (shape with a rise for each season): season `k` of the list adds the rise number `k + 1`, and the last season for
which a rise is known is the last one that can be asked for. -/
theorem C54_slopes {P start mjd ph x : K} {steps : List K} {k : ℕ} (hP : 0 < P) (h0 : 0 ≤ x) (h1 : x < 1)
    (ht : mjd + ph - start = (k + x) * P) :
    stepSlopes false P start steps mjd ph
      = if k + 1 < steps.length then some (desired (fun i => steps.getD (i + 1) 0) k x) else none := by
  have hf := season_floor hP (k := k) h0 h1
  have hn : ¬ ((k : K) + x) * P < 0 := not_lt.mpr (mul_nonneg (add_nonneg (Nat.cast_nonneg k) h0) hP.le)
  unfold stepSlopes
  simp only [ht, hf.1, hf.2, if_neg hn]
  have e : ((k : ℤ) + 1) = ((k + 1 : ℕ) : ℤ) := by push_cast; rfl
  rw [e, pyAt_nat, pyAt_nat]
  by_cases hk : k + 1 < steps.length
  · rw [if_pos hk, plateau_eq steps (by omega), List.getElem?_eq_getElem hk]
    simp only [store, Bool.false_eq_true, if_false]
    rw [ramp_eq hP]
    unfold desired
    dsimp only
    rw [List.getD_eq_getElem _ _ hk]
  · rw [if_neg hk, List.getElem?_eq_none (not_lt.mp hk)]
    cases (plateaus steps)[k]? <;> rfl

example : stepSlopes false (4 : ℚ) 0 [7, 1, 2, 8] 9 2 = some 7 := by decide +kernel
example : stepSlopes false (4 : ℚ) 0 [7, 1, 2, 8] 11 2 = none := by decide +kernel

theorem stepSlopes_before {P start mjd ph : K} {steps : List K} {b : Bool} (h : mjd + ph - start < 0) :
    stepSlopes b P start steps mjd ph = none ∨ stepSlopes b P start steps mjd ph = some 0 := by
  unfold stepSlopes
  simp only [if_pos h]
  split <;> simp

theorem pyAt_neg {V : Type} (l : List V) {i : ℤ} (h0 : i < 0) (h1 : -(l.length : ℤ) ≤ i) : ∃ v, pyAt l i = some v := by
  unfold pyAt
  rw [if_neg (not_le.mpr h0), if_pos h1]
  exact ⟨_, List.getElem?_eq_getElem (by omega)⟩

theorem pyAt_far {V : Type} (l : List V) {i : ℤ} (h0 : i < 0) (h1 : i < -(l.length : ℤ)) : pyAt l i = none := by
  unfold pyAt
  rw [if_neg (not_le.mpr h0), if_neg (not_le.mpr h1)]

/-- **C54** (a rise for each season): before the start nothing is wanted, but only for as many seasons as there are rises: before that the call raises. -/
theorem C54_slopes_before {P start mjd ph : K} {steps : List K} {b : Bool} (hP : 0 < P) (h : mjd + ph - start < 0) :
    stepSlopes b P start steps mjd ph = if -(steps.length : K) * P ≤ mjd + ph - start then some 0 else none := by
  have hneg : ⌊(mjd + ph - start) / P⌋ < 0 := Int.floor_lt.2 (by simpa using div_neg_of_neg_of_pos h hP)
  have hlen : (plateaus steps).length = steps.length := by unfold plateaus; simp
  have hiff : -(steps.length : K) * P ≤ mjd + ph - start ↔ -(steps.length : ℤ) ≤ ⌊(mjd + ph - start) / P⌋ := by
    rw [Int.le_floor, le_div_iff₀ hP]
    push_cast
    rfl
  unfold stepSlopes
  simp only [if_pos h]
  by_cases hin : -(steps.length : K) * P ≤ mjd + ph - start
  · rw [if_pos hin]
    have hfl := hiff.1 hin
    obtain ⟨v, hv⟩ := pyAt_neg (plateaus steps) hneg (by rw [hlen]; exact hfl)
    rw [hv]
    have hw : ∃ u, pyAt steps (⌊(mjd + ph - start) / P⌋ + 1) = some u := by
      rcases lt_or_ge (⌊(mjd + ph - start) / P⌋ + 1) 0 with h1 | h1
      · exact pyAt_neg steps h1 (by omega)
      · have e : ⌊(mjd + ph - start) / P⌋ + 1 = ((0 : ℕ) : ℤ) := by push_cast; omega
        rw [e, pyAt_nat]
        exact ⟨_, List.getElem?_eq_getElem (by omega)⟩
    obtain ⟨u, hu⟩ := hw
    rw [hu]
  · rw [if_neg hin]
    have hfl : ⌊(mjd + ph - start) / P⌋ < -(steps.length : ℤ) := not_le.1 (fun e => hin (hiff.2 e))
    rw [pyAt_far (plateaus steps) hneg (by rw [hlen]; exact hfl)]

example : stepSlopes false (4 : ℚ) 10 [7, 1, 2] 3 2 = some 0 ∧ stepSlopes false (4 : ℚ) 10 [7, 1, 2] (-4) 1 = none := by decide +kernel

/-- **C54** (a rise for each season): what is wanted never decreases with time. The first rise has no effect. -/
theorem C54_slopes_monotone {P start mjd mjd' ph a b : K} {steps : List K} (hP : 0 < P)
    (hr : ∀ r ∈ steps.tail, 0 ≤ r) (h : mjd ≤ mjd') (ha : stepSlopes false P start steps mjd ph = some a)
    (hb : stepSlopes false P start steps mjd' ph = some b) : a ≤ b := by
  have hr' : ∀ i, 0 ≤ steps.getD (i + 1) 0 := by
    intro i
    by_cases hi : i + 1 < steps.length
    · rw [List.getD_eq_getElem _ _ hi]
      apply hr
      have : steps.tail[i]'(by simp; omega) = steps[i + 1] := by simp
      rw [← this]; exact List.getElem_mem _
    · rw [List.getD_eq_default _ _ (not_lt.mp hi)]
  have hb0 : 0 ≤ mjd' + ph - start → 0 ≤ b := by
    intro hs
    obtain ⟨k', x', a', b', c'⟩ := season_split hP hs
    rw [C54_slopes hP a' b' c'] at hb
    split_ifs at hb
    simp only [Option.some.injEq] at hb
    rw [← hb]
    exact le_trans (Finset.sum_nonneg (fun i _ => hr' i)) (desired_bounds (rise := fun i => steps.getD (i + 1) 0) (hr' _) a' b'.le).1
  by_cases hs : mjd + ph - start < 0
  · have ha0 : a = 0 := by
      rcases stepSlopes_before (steps := steps) (b := false) (P := P) hs with e | e <;> rw [e] at ha <;> simp at ha; exact ha.symm
    by_cases hs' : mjd' + ph - start < 0
    · have : b = 0 := by
        rcases stepSlopes_before (steps := steps) (b := false) (P := P) hs' with e | e <;> rw [e] at hb <;> simp at hb; exact hb.symm
      rw [ha0, this]
    · rw [ha0]; exact hb0 (not_lt.mp hs')
  have hs' : 0 ≤ mjd' + ph - start := by linarith [not_lt.mp hs]
  obtain ⟨k, x, p, q, c⟩ := season_split hP (not_lt.mp hs)
  obtain ⟨k', x', p', q', c'⟩ := season_split hP hs'
  rw [C54_slopes hP p q c] at ha
  rw [C54_slopes hP p' q' c'] at hb
  split_ifs at ha hb
  simp only [Option.some.injEq] at ha hb
  rw [← ha, ← hb]
  refine desired_mono (n := k' + 1) (fun i _ => hr' i) (Nat.lt_succ_self _) p q p' q' ?_
  have : ((k : K) + x) * P ≤ (k' + x') * P := by linarith
  exact le_of_mul_le_mul_right this hP

example : stepSlopes false (4 : ℚ) 0 [-7, 1, 2, 8] 3 2 = some 1 ∧ stepSlopes false (4 : ℚ) 0 [-7, 1, 2, 8] 9 2 = some 7 ∧
    (∀ r ∈ ([-7, 1, 2, 8] : List ℚ).tail, 0 ≤ r) := by decide +kernel

omit [IsStrictOrderedRing K] in
theorem store_mono [IsStrictOrderedRing K] {x y : K} (h : x ≤ y) : store true x ≤ store true y := by
  unfold store
  rw [if_pos rfl, if_pos rfl]
  split_ifs with h1 h2
  · exact_mod_cast Int.ceil_mono h
  · have a : ⌈x⌉ ≤ 0 := Int.ceil_le.2 (by simpa using h1.le)
    have b : 0 ≤ ⌊y⌋ := Int.floor_nonneg.2 (not_lt.1 h2)
    exact_mod_cast le_trans a b
  · exact absurd (lt_of_le_of_lt h (by assumption)) h1
  · exact_mod_cast Int.floor_mono h

theorem store_int (z : ℤ) : store true (z : K) = z := by
  unfold store
  rw [if_pos rfl]
  split_ifs <;> simp

theorem whole_sum (l : List K) (h : ∀ r ∈ l, ∃ z : ℤ, r = z) : ∃ z : ℤ, l.sum = z := by
  induction l with
  | nil => exact ⟨0, by simp⟩
  | cons a l ih =>
    obtain ⟨z, hz⟩ := h a (by simp)
    obtain ⟨w, hw⟩ := ih (fun r hr => h r (by simp [hr]))
    exact ⟨z + w, by rw [List.sum_cons, hz, hw]; push_cast; rfl⟩

theorem pyAt_mem {V : Type} {l : List V} {i : ℤ} {v : V} (h : pyAt l i = some v) : v ∈ l := by
  unfold pyAt at h
  split_ifs at h <;> exact List.mem_of_getElem? h

theorem stepSlopes_whole (P start mjd ph : K) (steps : List K) (hi : ∀ r ∈ steps, ∃ z : ℤ, r = z) :
    stepSlopes true P start steps mjd ph = (stepSlopes false P start steps mjd ph).map (store true) := by
  unfold stepSlopes
  dsimp only
  cases hp : pyAt (plateaus steps) ⌊(mjd + ph - start) / P⌋ with
  | none => rfl
  | some result =>
    cases pyAt steps (⌊(mjd + ph - start) / P⌋ + 1) with
    | none => rfl
    | some step =>
      dsimp only
      rw [Option.map_some]
      have hr : ∃ z : ℤ, result = z := by
        have := pyAt_mem hp
        unfold plateaus at this
        obtain ⟨k, hk, e⟩ := List.mem_map.1 this
        obtain ⟨z, hz⟩ := whole_sum (steps.take (k + 1)) (fun r hr => hi r (List.mem_of_mem_take hr))
        obtain ⟨w, hw⟩ : ∃ w : ℤ, steps.headD 0 = w := by
          cases steps with
          | nil => exact ⟨0, by simp⟩
          | cons a l => exact hi a (by simp)
        exact ⟨z - w, by rw [← e, hz, hw]; push_cast; rfl⟩
      obtain ⟨z, rfl⟩ := hr
      congr 1
      split_ifs
      · exact (by simpa using (store_int (K := K) 0).symm)
      · simp [store]
      · exact (store_int z).symm

/-- **C54** (rises given as whole numbers): what is wanted never decreases with time. -/
theorem C54_whole_monotone {P start mjd mjd' ph a b : K} {steps : List K} (hP : 0 < P)
    (hr : ∀ r ∈ steps.tail, 0 ≤ r) (hi : ∀ r ∈ steps, ∃ z : ℤ, r = z) (h : mjd ≤ mjd')
    (ha : stepSlopes true P start steps mjd ph = some a) (hb : stepSlopes true P start steps mjd' ph = some b) : a ≤ b := by
  rw [stepSlopes_whole _ _ _ _ _ hi] at ha hb
  obtain ⟨x, hx, rfl⟩ := Option.map_eq_some_iff.1 ha
  obtain ⟨y, hy, rfl⟩ := Option.map_eq_some_iff.1 hb
  exact store_mono (C54_slopes_monotone hP hr h hx hy)

example : stepSlopes true (4 : ℚ) 0 [-7, 1, 2, 8] 3 2 = some 1 ∧ stepSlopes true (4 : ℚ) 0 [-7, 1, 2, 8] 7 0 = some 2 ∧
    stepSlopes false (4 : ℚ) 0 [-7, 1, 2, 8] 7 0 = some 2 := by decide +kernel

/-- The statement of the shape without the condition on the type of the numbers given. -/
def SlopesShape (K : Type) [Field K] [LinearOrder K] [IsStrictOrderedRing K] [FloorRing K] : Prop :=
  ∀ (ints : Bool) (P start mjd ph x : K) (steps : List K) (k : ℕ), 0 < P → 0 ≤ x → x < 1 → mjd + ph - start = (k + x) * P →
    k + 1 < steps.length → (ints = true → ∀ r ∈ steps, ∃ z : ℤ, r = z) →
    stepSlopes ints P start steps mjd ph = some (desired (fun i => steps.getD (i + 1) 0) k x)

/-- **C54** fails for rises given as whole numbers: the rise within a season is cut away. -/
theorem C54_whole_violated : ¬ SlopesShape ℚ := by
  intro h
  have := h true 4 0 3 0 (3 / 4) [1, 1, 1] 0 (by norm_num) (by norm_num) (by norm_num) (by norm_num) (by decide)
    (by intro _ r hr; simp at hr; exact ⟨1, by simp [hr]⟩)
  revert this
  unfold desired
  simp only [Finset.range_zero, Finset.sum_empty]
  decide +kernel

end Verif
