import Verif.Model.IntRounded
import Mathlib.Tactic.Linarith
import Mathlib.Tactic.SplitIfs
import Mathlib.Tactic.Positivity
import Mathlib.Tactic.FieldSimp

namespace Verif

theorem roundHalfEven_near (x : ℚ) : |(roundHalfEven x : ℚ) - x| ≤ 1 / 2 := by
  have h1 := Int.floor_le x
  have h2 := Int.lt_floor_add_one x
  unfold roundHalfEven
  simp only
  rw [abs_le]
  split_ifs <;> push_cast <;> constructor <;> linarith

theorem roundHalfEven_mono {x y : ℚ} (h : x ≤ y) : roundHalfEven x ≤ roundHalfEven y := by
  have hf : ⌊x⌋ ≤ ⌊y⌋ := Int.floor_mono h
  have hb := Int.lt_floor_add_one x
  rcases lt_or_eq_of_le hf with hlt | heq
  · have h1 : roundHalfEven x ≤ ⌊x⌋ + 1 := by unfold roundHalfEven; simp only; split_ifs <;> omega
    have h2 : ⌊y⌋ ≤ roundHalfEven y := by unfold roundHalfEven; simp only; split_ifs <;> omega
    omega
  · unfold roundHalfEven
    simp only [← heq]
    split_ifs <;> first | omega | (exfalso; linarith)

theorem roundHalfEven_int (n : ℤ) : roundHalfEven (n : ℚ) = n := by
  unfold roundHalfEven; simp

/-- The pair of values actually compared for two scalars. -/
def scalarPair (t : Tol) (a b : ℚ) : ℚ × ℚ :=
  if a = 0 ∨ b = 0 then (a, b)
  else
    let sf : ℚ := (10 : ℚ) ^ (min (orderOfMag a) (orderOfMag b))
    if |a / sf - b / sf| ≤ t.limit then
      ((roundHalfEven (a - ⌊min a b⌋ * t.scale) : ℚ), (roundHalfEven (b - ⌊min a b⌋ * t.scale) : ℚ))
    else (a, b)

theorem checkLimit_scalar (t : Tol) (a b : ℚ) : checkLimit t [(a, b)] = [scalarPair t a b] := by
  unfold checkLimit minOrderOfMag scalarPair
  by_cases ha : a = 0 <;> by_cases hb : b = 0 <;> simp [ha, hb]
  split_ifs <;> simp

theorem ltS_iff (t : Tol) (a b : ℚ) : ltS t a b = true ↔ (scalarPair t a b).1 < (scalarPair t a b).2 := by
  simp [ltS, ltA, checkLimit_scalar]
theorem leS_iff (t : Tol) (a b : ℚ) : leS t a b = true ↔ (scalarPair t a b).1 ≤ (scalarPair t a b).2 := by
  simp [leS, leA, checkLimit_scalar]
theorem eqS_iff (t : Tol) (a b : ℚ) : eqS t a b = true ↔ (scalarPair t a b).1 = (scalarPair t a b).2 := by
  simp [eqS, eqA, checkLimit_scalar]
theorem gtS_iff (t : Tol) (a b : ℚ) : gtS t a b = true ↔ (scalarPair t a b).2 < (scalarPair t a b).1 := by
  simp [gtS, gtA, checkLimit_scalar]
theorem geS_iff (t : Tol) (a b : ℚ) : geS t a b = true ↔ (scalarPair t a b).2 ≤ (scalarPair t a b).1 := by
  simp [geS, geA, checkLimit_scalar]

theorem scalarPair_mono (t : Tol) {a b : ℚ} (h : a ≤ b) : (scalarPair t a b).1 ≤ (scalarPair t a b).2 := by
  unfold scalarPair
  simp only
  split_ifs
  · exact h
  · simp only [Int.cast_le]
    exact roundHalfEven_mono (by linarith)
  · exact h

theorem scalarPair_anti (t : Tol) {a b : ℚ} (h : b ≤ a) : (scalarPair t a b).2 ≤ (scalarPair t a b).1 := by
  unfold scalarPair
  simp only
  split_ifs
  · exact h
  · simp only [Int.cast_le]
    exact roundHalfEven_mono (by linarith)
  · exact h

theorem zpow_orderOfMag_le {a : ℚ} (ha : a ≠ 0) : (10 : ℚ) ^ orderOfMag a ≤ |a| := by
  have := Int.zpow_log_le_self (b := 10) (r := |a|) (by norm_num) (abs_pos.mpr ha)
  simpa [orderOfMag] using this

theorem zpow10_mono {m n : ℤ} (h : m ≤ n) : (10 : ℚ) ^ m ≤ 10 ^ n :=
  zpow_le_zpow_right₀ (by norm_num) h

theorem foldl_min_le (l : List ℚ) (m : ℤ) :
    l.foldl (fun m x => min m (orderOfMag x)) m ≤ m := by
  induction l generalizing m with
  | nil => simp
  | cons x xs ih => exact le_trans (ih _) (min_le_left _ _)

theorem foldl_min_le_of_mem (l : List ℚ) (m : ℤ) {x : ℚ} (hx : x ∈ l) :
    l.foldl (fun m x => min m (orderOfMag x)) m ≤ orderOfMag x := by
  induction l generalizing m with
  | nil => simp at hx
  | cons y ys ih =>
    rcases List.mem_cons.mp hx with rfl | h
    · exact le_trans (foldl_min_le ys (min m (orderOfMag x))) (min_le_right _ _)
    · exact ih _ h

/-- The array-wide scale is at most the scale of any non-zero entry. -/
theorem minOrderOfMag_le {ps : List (ℚ × ℚ)} {om : ℤ} (h : minOrderOfMag ps = some om)
    {p : ℚ × ℚ} (hp : p ∈ ps) :
    (p.1 ≠ 0 → om ≤ orderOfMag p.1) ∧ (p.2 ≠ 0 → om ≤ orderOfMag p.2) := by
  unfold minOrderOfMag at h
  split at h
  · rename_i a as b bs h1 h2
    simp only [Option.some.injEq] at h
    subst h
    constructor
    · intro hne
      have : p.1 ∈ a :: as := by
        rw [← h1]; simp only [List.mem_filter, List.mem_map]; exact ⟨⟨p, hp, rfl⟩, by simpa using hne⟩
      rcases List.mem_cons.mp this with h | h
      · rw [h]; exact foldl_min_le _ _
      · exact foldl_min_le_of_mem _ _ (by simp [h])
    · intro hne
      have : p.2 ∈ b :: bs := by
        rw [← h2]; simp only [List.mem_filter, List.mem_map]; exact ⟨⟨p, hp, rfl⟩, by simpa using hne⟩
      exact foldl_min_le_of_mem _ _ (by simp only [List.mem_append]; exact Or.inr this)
  · simp at h

/-- If every pair is further apart than `limit` times its smaller absolute value (and not
equal), no rounding takes place. -/
theorem checkLimit_far (t : Tol) (ht : 0 ≤ t.limit) (ps : List (ℚ × ℚ))
    (hfar : ∀ p ∈ ps, t.limit * min |p.1| |p.2| < |p.1 - p.2|)
    (hscale : ∀ om, minOrderOfMag ps = some om → ∀ p ∈ ps, (p.1 = 0 ∨ p.2 = 0) →
      t.limit * (10 : ℚ) ^ om < |p.1 - p.2|) :
    checkLimit t ps = ps := by
  unfold checkLimit
  split
  · rfl
  · rename_i om hom
    simp only
    rw [if_neg]
    simp only [List.any_eq_true, decide_eq_true_eq, not_exists, not_and, not_le]
    intro p hp
    have hpos : (0 : ℚ) < 10 ^ om := zpow_pos (by norm_num) om
    rw [← sub_div, abs_div, abs_of_pos hpos, lt_div_iff₀ hpos]
    by_cases h0 : p.1 = 0 ∨ p.2 = 0
    · exact hscale om hom p hp h0
    · push Not at h0
      have hb := minOrderOfMag_le hom hp
      have h1 := le_trans (zpow10_mono (hb.1 h0.1)) (zpow_orderOfMag_le h0.1)
      have h2 := le_trans (zpow10_mono (hb.2 h0.2)) (zpow_orderOfMag_le h0.2)
      have := mul_le_mul_of_nonneg_left (le_min h1 h2) ht
      exact lt_of_le_of_lt this (hfar p hp)

theorem scalarPair_far (t : Tol) (ht : 0 ≤ t.limit) {a b : ℚ}
    (hfar : t.limit * min |a| |b| < |a - b|) : scalarPair t a b = (a, b) := by
  have h := checkLimit_scalar t a b
  rw [checkLimit_far t ht] at h
  · exact (List.cons.inj h).1.symm
  · intro p hp
    simp only [List.mem_singleton] at hp
    subst hp; exact hfar
  · intro om hom p hp h0
    simp only [List.mem_singleton] at hp
    subst hp
    unfold minOrderOfMag at hom
    rcases h0 with h0 | h0 <;> simp only at h0 <;> simp [h0] at hom

end Verif
