import Mathlib.Algebra.Group.ForwardDiff
import Mathlib.Algebra.Polynomial.Div
import Mathlib.Algebra.Polynomial.BigOperators
import Mathlib.Analysis.SpecialFunctions.Integrals.Basic
import Mathlib.Tactic.FieldSimp
import Mathlib.Tactic.Ring
import Mathlib.Tactic.Linarith

/-! The algebra of the radial Zernike polynomials: alternating sums of binomial coefficients,
the value at the rim, and the integrals of products. -/

namespace Verif

open Finset Polynomial

/-- The alternating sum of the first values of a function, weighted with binomial coefficients. -/
def altSum (p : ℕ) (f : ℕ → ℝ) : ℝ := ∑ k ∈ range (p + 1), (-1) ^ k * (p.choose k : ℝ) * f k

theorem altSum_diff (p : ℕ) (f : ℕ → ℝ) : altSum p f = (-1) ^ p * (fwdDiff 1)^[p] f 0 := by
  rw [fwdDiff_iter_eq_sum_shift, Finset.mul_sum]
  apply Finset.sum_congr rfl
  intro k hk
  have hk' : k ≤ p := by simpa [Nat.lt_succ_iff] using hk
  obtain ⟨d, rfl⟩ := Nat.exists_eq_add_of_le hk'
  have : (-1 : ℝ) ^ (k + d) * (-1) ^ d = (-1) ^ k := by
    rw [pow_add, mul_assoc, ← pow_add, ← two_mul, pow_mul]; simp
  simp only [Nat.add_sub_cancel_left, zsmul_eq_mul, Int.cast_mul, Int.cast_pow, Int.cast_neg,
    Int.cast_one, Int.cast_natCast, smul_eq_mul, mul_one, zero_add]
  rw [← this]; ring

theorem altSum_succ (p : ℕ) (f : ℕ → ℝ) :
    altSum (p + 1) f = altSum p f - altSum p (fun k => f (k + 1)) := by
  have h : (fwdDiff 1)^[p] (fun k => f (k + 1)) 0 - (fwdDiff 1)^[p] f 0 = (fwdDiff 1)^[p + 1] f 0 := by
    rw [Function.iterate_succ_apply', fwdDiff, fwdDiff_iter_comp_add]
  rw [altSum_diff, altSum_diff, altSum_diff, ← h]; ring

theorem altSum_congr {p : ℕ} {f g : ℕ → ℝ} (h : ∀ k ≤ p, f k = g k) : altSum p f = altSum p g :=
  Finset.sum_congr rfl fun k hk => by rw [h k (by simpa [Nat.lt_succ_iff] using hk)]

theorem altSum_add (p : ℕ) (f g : ℕ → ℝ) : altSum p (fun k => f k + g k) = altSum p f + altSum p g := by
  unfold altSum; rw [← Finset.sum_add_distrib]
  exact Finset.sum_congr rfl fun k _ => by ring

theorem altSum_smul (p : ℕ) (c : ℝ) (f : ℕ → ℝ) : altSum p (fun k => c * f k) = c * altSum p f := by
  unfold altSum; rw [Finset.mul_sum]
  exact Finset.sum_congr rfl fun k _ => by ring

/-- The alternating sum of a polynomial of lower degree is nothing. -/
theorem altSum_poly {p : ℕ} {P : ℝ[X]} (h : P.natDegree < p) : altSum p (fun k => P.eval (k : ℝ)) = 0 := by
  have h0 := congrFun (Polynomial.fwdDiff_iter_eq_zero_of_degree_lt h) 0
  have h1 : (-1 : ℝ) ^ p * (fwdDiff 1)^[p] P.eval 0 = altSum p (fun k => P.eval (k : ℝ)) := by
    rw [altSum_diff]
    congr 1
    rw [fwdDiff_iter_eq_sum_shift, fwdDiff_iter_eq_sum_shift]
    exact Finset.sum_congr rfl fun k _ => by simp
  rw [← h1, h0]; simp

/-- The alternating sum of inverses. -/
theorem altSum_inv (p M : ℕ) :
    altSum p (fun k => 1 / ((M : ℝ) + p + 1 - k)) = (-1) ^ p * (p.factorial * M.factorial) / (M + p + 1).factorial := by
  induction p generalizing M with
  | zero =>
    have : (M.factorial : ℝ) ≠ 0 := by exact_mod_cast M.factorial_ne_zero
    have : (M : ℝ) + 1 ≠ 0 := by positivity
    simp [altSum, Nat.factorial_succ]
    field_simp
  | succ p ih =>
    rw [altSum_succ]
    have h1 : altSum p (fun k => 1 / ((M : ℝ) + (p + 1 : ℕ) + 1 - k)) = altSum p (fun k => 1 / (((M + 1 : ℕ) : ℝ) + p + 1 - k)) :=
      altSum_congr fun k _ => by push_cast; congr 1; ring
    have h2 : altSum p (fun k => 1 / ((M : ℝ) + (p + 1 : ℕ) + 1 - ((k + 1 : ℕ) : ℝ))) = altSum p (fun k => 1 / ((M : ℝ) + p + 1 - k)) :=
      altSum_congr fun k _ => by push_cast; congr 1; ring
    rw [h1, h2, ih, ih]
    have e1 : M + 1 + p + 1 = (M + p + 1) + 1 := by ring
    have e2 : M + (p + 1) + 1 = (M + p + 1) + 1 := by ring
    rw [e1, e2, Nat.factorial_succ (M + p + 1), Nat.factorial_succ M, Nat.factorial_succ p]
    have : ((M + p + 1).factorial : ℝ) ≠ 0 := by exact_mod_cast Nat.factorial_ne_zero _
    have : (M : ℝ) + p + 1 + 1 ≠ 0 := by positivity
    push_cast
    rw [pow_succ]
    field_simp
    ring

/-- The polynomial whose values are products of consecutive numbers. -/
theorem rising_choose (a p : ℕ) : (((a + p).choose p : ℕ) : ℝ) * p.factorial = ∏ i ∈ range p, ((a : ℝ) + 1 + i) := by
  induction p with
  | zero => simp
  | succ p ih =>
    rw [Finset.prod_range_succ, ← ih]
    have h := Nat.add_one_mul_choose_eq (a + p) p
    have h' : ((a + p + 1 : ℕ) : ℝ) * ((a + p).choose p : ℝ) = ((a + p + 1).choose (p + 1) : ℝ) * ((p + 1 : ℕ) : ℝ) := by
      exact_mod_cast h
    rw [show a + (p + 1) = a + p + 1 from rfl, Nat.factorial_succ]
    push_cast at h' ⊢
    linear_combination -(p.factorial : ℝ) * h'

/-- The coefficients of the radial polynomials. -/
def radialC (p m k : ℕ) : ℝ := (-1) ^ k * (p.choose k : ℝ) * ((m + 2 * p - k).choose p : ℝ)

theorem choose_prod {p m k : ℕ} (hk : k ≤ p) :
    (((m + 2 * p - k).choose p : ℕ) : ℝ) * p.factorial = ∏ i ∈ range p, ((m : ℝ) + p + 1 + i - k) := by
  have e : m + 2 * p - k = (m + (p - k)) + p := by omega
  rw [e, rising_choose]
  apply Finset.prod_congr rfl
  intro i _
  rw [Nat.cast_add, Nat.cast_sub hk]; ring

theorem natDegree_sub_X (c : ℝ) : (C c - X : ℝ[X]).natDegree ≤ 1 := by
  refine (natDegree_sub_le _ _).trans ?_
  simp

theorem radial_rim (p m : ℕ) : ∑ k ∈ range (p + 1), radialC p m k = 1 := by
  have h := fwdDiff_iter_choose 0 p
  have h1 : altSum p (fun k => ((m + p + k).choose p : ℝ)) = (-1) ^ p := by
    rw [altSum_diff]
    have h2 : (fwdDiff 1)^[p] (fun k : ℕ => ((m + p + k).choose p : ℝ)) 0 = 1 := by
      have h3 := congrFun h (m + p)
      rw [fwdDiff_iter_eq_sum_shift] at h3 ⊢
      have h4 := congrArg (Int.cast : ℤ → ℝ) h3
      push_cast at h4
      simp only [smul_eq_mul, mul_one, zero_add, add_zero, Nat.choose_zero_right, Nat.cast_one, zsmul_eq_mul] at h4 ⊢
      push_cast
      refine Eq.trans ?_ h4
      exact Finset.sum_congr rfl fun k _ => by push_cast; rfl
    rw [h2, mul_one]
  have h5 : ∑ k ∈ range (p + 1), radialC p m k = (-1) ^ p * altSum p (fun k => ((m + p + k).choose p : ℝ)) := by
    rw [← Finset.sum_range_reflect, altSum, Finset.mul_sum]
    apply Finset.sum_congr rfl
    intro k hk
    have hk' : k ≤ p := by simpa [Nat.lt_succ_iff] using hk
    obtain ⟨d, rfl⟩ := Nat.exists_eq_add_of_le hk'
    unfold radialC
    have e1 : k + d + 1 - 1 - k = d := by omega
    have e2 : m + 2 * (k + d) - d = m + (k + d) + k := by omega
    have e3 : (k + d).choose d = (k + d).choose k := by
      rw [Nat.choose_symm_of_eq_add]; omega
    have e4 : (-1 : ℝ) ^ (k + d) * (-1) ^ k = (-1) ^ d := by
      rw [add_comm, pow_add, mul_assoc, ← pow_add, ← two_mul, pow_mul]; simp
    rw [e1, e2, e3, ← e4]; ring
  rw [h5, h1, ← pow_add, ← two_mul, pow_mul]; simp

/-- The moments of a radial polynomial below its degree vanish. -/
theorem radial_moment {p m j : ℕ} (hj : j < p) :
    ∑ k ∈ range (p + 1), radialC p m k / ((m : ℝ) + p - k + j + 1) = 0 := by
  have hf : (p.factorial : ℝ) ≠ 0 := by exact_mod_cast p.factorial_ne_zero
  let P : ℝ[X] := ∏ i ∈ (range p).erase j, (C ((m : ℝ) + p + 1 + i) - X)
  have hP : P.natDegree < p := by
    refine lt_of_le_of_lt (natDegree_prod_le _ _) ?_
    refine lt_of_le_of_lt (Finset.sum_le_card_nsmul _ _ 1 fun i _ => natDegree_sub_X _) ?_
    rw [Finset.card_erase_of_mem (by simpa using hj)]
    simp; omega
  have h := altSum_poly hP
  have h2 : ∑ k ∈ range (p + 1), radialC p m k / ((m : ℝ) + p - k + j + 1)
      = (1 / (p.factorial : ℝ)) * altSum p (fun k => P.eval (k : ℝ)) := by
    rw [altSum, Finset.mul_sum]
    apply Finset.sum_congr rfl
    intro k hk
    have hk' : k ≤ p := by simpa [Nat.lt_succ_iff] using hk
    have hkr : (k : ℝ) ≤ p := by exact_mod_cast hk'
    have hc := choose_prod (m := m) hk'
    have hpe : P.eval (k : ℝ) = ∏ i ∈ (range p).erase j, ((m : ℝ) + p + 1 + i - k) := by
      simp only [P, eval_prod, eval_sub, eval_C, eval_X]
    rw [← Finset.mul_prod_erase _ _ (show j ∈ range p by simpa using hj), ← hpe] at hc
    have hpos : (m : ℝ) + p - k + j + 1 ≠ 0 := by
      have : (0 : ℝ) < (m : ℝ) + p - k + j + 1 := by
        have := Nat.cast_nonneg (α := ℝ) m
        have := Nat.cast_nonneg (α := ℝ) j
        linarith
      exact this.ne'
    unfold radialC
    field_simp
    rw [show (m : ℝ) + p + 1 + j - k = m + p - k + j + 1 by ring] at hc
    linear_combination (p.choose k : ℝ) * hc
  rw [h2, h, mul_zero]

/-- The moment of a radial polynomial at its own degree. -/
theorem radial_moment_top (p m : ℕ) :
    ∑ k ∈ range (p + 1), radialC p m k / ((m : ℝ) + p - k + p + 1)
      = (p.factorial * (m + p).factorial : ℝ) / (m + 2 * p + 1).factorial := by
  have hf : (p.factorial : ℝ) ≠ 0 := by exact_mod_cast p.factorial_ne_zero
  let Q : ℝ[X] := ∏ i ∈ range p, (X - C ((i : ℝ) + 1))
  have hQd : Q.natDegree = p := by
    simp only [Q]
    rw [natDegree_prod _ _ fun i _ => X_sub_C_ne_zero _, Finset.sum_congr rfl fun i _ => natDegree_X_sub_C _]
    simp
  have hQ0 : Q.coeff 0 = (-1) ^ p * p.factorial := by
    rw [coeff_zero_eq_eval_zero]
    simp only [Q, eval_prod, eval_sub, eval_X, eval_C, zero_sub]
    rw [Finset.prod_neg, ← Finset.prod_range_add_one_eq_factorial]
    push_cast
    simp
  have hev : ∀ k ≤ p, Q.eval ((m : ℝ) + 2 * p + 1 - k) = (((m + 2 * p - k).choose p : ℕ) : ℝ) * p.factorial := by
    intro k hk
    rw [choose_prod hk]
    simp only [Q, eval_prod, eval_sub, eval_X, eval_C]
    rw [← Finset.prod_range_reflect]
    apply Finset.prod_congr rfl
    intro i hi
    have hi' : i < p := by simpa using hi
    have : ((p - 1 - i : ℕ) : ℝ) = p - 1 - i := by
      rw [Nat.cast_sub (by omega), Nat.cast_sub (by omega)]; simp
    rw [this]; ring
  have hsum : ∑ k ∈ range (p + 1), radialC p m k / ((m : ℝ) + p - k + p + 1)
      = (1 / (p.factorial : ℝ)) * altSum p (fun k => Q.divX.eval ((m : ℝ) + 2 * p + 1 - k) + Q.coeff 0 * (1 / (((m + p : ℕ) : ℝ) + p + 1 - k))) := by
    rw [altSum, Finset.mul_sum]
    apply Finset.sum_congr rfl
    intro k hk
    have hk' : k ≤ p := by simpa [Nat.lt_succ_iff] using hk
    have hkr : (k : ℝ) ≤ p := by exact_mod_cast hk'
    have h1 := hev k hk'
    rw [← divX_mul_X_add Q] at h1
    simp only [eval_add, eval_mul, eval_X, eval_C] at h1
    have hpos : (m : ℝ) + p - k + p + 1 ≠ 0 := by
      have : (0 : ℝ) < (m : ℝ) + p - k + p + 1 := by
        have := Nat.cast_nonneg (α := ℝ) m
        have := Nat.cast_nonneg (α := ℝ) p
        linarith
      exact this.ne'
    have hpos' : ((m + p : ℕ) : ℝ) + p + 1 - k = (m : ℝ) + p - k + p + 1 := by push_cast; ring
    have hpos'' : (m : ℝ) + 2 * p + 1 - k = (m : ℝ) + p - k + p + 1 := by ring
    rw [hpos'] 
    rw [hpos''] at h1 ⊢
    unfold radialC
    field_simp
    linear_combination -(p.choose k : ℝ) * h1
  rw [hsum, altSum_add, altSum_smul, altSum_inv, hQ0]
  have hz : altSum p (fun k => Q.divX.eval ((m : ℝ) + 2 * p + 1 - k)) = 0 := by
    rcases Nat.eq_zero_or_pos p with rfl | hp
    · have : Q = 1 := by simp [Q]
      rw [this]
      simp [altSum]
    · let P : ℝ[X] := Q.divX.comp (C ((m : ℝ) + 2 * p + 1) - X)
      have hP : P.natDegree < p := by
        refine lt_of_le_of_lt natDegree_comp_le ?_
        rw [natDegree_divX_eq_natDegree_tsub_one, hQd]
        calc (p - 1) * (C ((m : ℝ) + 2 * p + 1) - X : ℝ[X]).natDegree ≤ (p - 1) * 1 :=
              Nat.mul_le_mul_left _ (natDegree_sub_X _)
          _ < p := by omega
      have := altSum_poly hP
      simpa [P, eval_comp] using this
  rw [hz, zero_add, show m + p + p + 1 = m + 2 * p + 1 by ring]
  have h1 : ((-1 : ℝ) ^ p) * (-1) ^ p = 1 := by rw [← pow_add, ← two_mul, pow_mul]; simp
  have hfa : ((m + 2 * p + 1).factorial : ℝ) ≠ 0 := by exact_mod_cast Nat.factorial_ne_zero _
  field_simp
  linear_combination h1

end Verif
