import Verif.Model.Clip
import Mathlib.Tactic.Linarith
import Mathlib.Algebra.Order.Floor.Ring

/-!
Property C265: `inrange`.
-/

namespace Verif

open Clp

/-- The number of an array's entry that `inrange` should give: not less than `lo`, not more than `hi`, and as near to the entry as can be. No number stays no number. -/
def Nearest (lo hi : ℚ) : XReal → XReal → Prop
  | .nan, y => y = .nan
  | .ninf, y => y = .fin lo
  | .pinf, y => y = .fin hi
  | .fin x, y => ∃ q, y = .fin q ∧ lo ≤ q ∧ q ≤ hi ∧ ∀ r, lo ≤ r → r ≤ hi → |x - q| ≤ |x - r|

theorem nearest_of {lo hi x q : ℚ} (h : lo ≤ hi) (hq : q = if x < lo then lo else if hi < x then hi else x) : Nearest lo hi (.fin x) (.fin q) := by
  refine ⟨q, rfl, ?_⟩
  subst hq
  split_ifs with h1 h2
  · refine ⟨le_refl _, h, fun r hr _ => ?_⟩
    rw [abs_of_nonpos (by linarith), abs_of_nonpos (by linarith)]
    linarith
  · refine ⟨h, le_refl _, fun r _ hr => ?_⟩
    rw [abs_of_nonneg (by linarith), abs_of_nonneg (by linarith)]
    linarith
  · refine ⟨not_lt.1 h1, not_lt.1 h2, fun r _ _ => ?_⟩
    rw [sub_self, abs_zero]
    exact abs_nonneg _

theorem number_fin {lo hi : ℚ} (h : lo ≤ hi) (x : ℚ) : number lo hi (.fin x) = .fin (if x < lo then lo else if hi < x then hi else x) := by
  unfold number
  by_cases h1 : x < lo
  · have h2 : ¬ hi < lo := not_lt.2 h
    simp [XReal.ltB, h1, h2]
  · by_cases h2 : hi < x <;> simp [XReal.ltB, h1, h2]

theorem number_nearest {lo hi : ℚ} (h : lo ≤ hi) (x : XReal) : Nearest lo hi x (number lo hi x) := by
  have h2 : ¬ hi < lo := not_lt.2 h
  cases x with
  | nan => rfl
  | ninf => simp [Nearest, number, XReal.ltB, h2]
  | pinf => simp [Nearest, number, XReal.ltB]
  | fin x =>
    rw [number_fin h]
    exact nearest_of h rfl

/-- C265 for arrays of numbers: each entry is put to the nearest number within the limits, so entries within them stay, and entries that are no number stay no number. -/
theorem C265_numbers {lo hi : ℚ} (h : lo ≤ hi) (l : List XReal) : List.Forall₂ (Nearest lo hi) l (inrange lo hi (.numbers l)).values := by
  show List.Forall₂ _ l (l.map (number lo hi))
  rw [List.forall₂_map_right_iff, List.forall₂_same]
  exact fun x _ => number_nearest h x

/-- C265: a second call changes nothing. -/
theorem C265_again {lo hi : ℚ} (h : lo ≤ hi) (l : List XReal) : inrange lo hi (inrange lo hi (.numbers l)) = inrange lo hi (.numbers l) := by
  show Arr.numbers ((l.map (number lo hi)).map (number lo hi)) = .numbers (l.map (number lo hi))
  rw [List.map_map]
  congr 1
  apply List.map_congr_left
  intro x _
  have h2 : ¬ hi < lo := not_lt.2 h
  cases x with
  | nan => rfl
  | ninf => simp [number, XReal.ltB, h2]
  | pinf => simp [number, XReal.ltB, h2]
  | fin x =>
    show number lo hi (number lo hi (.fin x)) = _
    rw [number_fin h, number_fin h]
    split_ifs <;> first | rfl | (exfalso; linarith)

theorem trunc_int (z : ℤ) : trunc z = z := by
  unfold trunc
  split_ifs
  · exact Int.floor_intCast z
  · exact Int.ceil_intCast z

/-- **C265 (partial)** for arrays of integers and limits that are integers: as for numbers. Missing: other limits (`C265_fraction_violated`). -/
theorem C265_integers_partial {lo hi : ℤ} (h : lo ≤ hi) (l : List ℤ) :
    List.Forall₂ (Nearest lo hi) (Arr.integers l).values (inrange lo hi (.integers l)).values := by
  show List.Forall₂ _ (l.map fun z : ℤ => XReal.fin (z : ℚ)) ((l.map (integer lo hi)).map fun z : ℤ => XReal.fin (z : ℚ))
  rw [List.map_map, List.forall₂_map_right_iff, List.forall₂_map_left_iff, List.forall₂_same]
  intro x _
  have hq : (lo : ℚ) ≤ hi := by exact_mod_cast h
  apply nearest_of hq
  unfold integer
  rw [trunc_int, trunc_int]
  dsimp only
  by_cases h1 : (x : ℚ) < lo
  · rw [if_pos h1, if_pos h1, if_neg (not_lt.2 hq)]
  · rw [if_neg h1, if_neg h1]
    by_cases h2 : (hi : ℚ) < x
    · rw [if_pos h2, if_pos h2]
    · rw [if_neg h2, if_neg h2]

theorem trunc_up {q : ℚ} (h : q ≤ 0) : q ≤ (trunc q : ℚ) ∧ trunc q ≤ 0 := by
  unfold trunc
  split_ifs with h0
  · have e : q = 0 := le_antisymm h h0
    subst e
    simp
  · exact ⟨Int.le_ceil q, Int.ceil_le.2 (by simpa using h)⟩

theorem trunc_down {q : ℚ} (h : 0 ≤ q) : (trunc q : ℚ) ≤ q ∧ 0 ≤ trunc q := by
  unfold trunc
  rw [if_pos h]
  exact ⟨Int.floor_le q, Int.floor_nonneg.2 h⟩

/-- **C265 (partial)** for arrays of integers and limits on both sides of zero, as the default ones are: the entries are within the limits, and those that were stay. -/
theorem C265_around_zero_partial {lo hi : ℚ} (hl : lo ≤ 0) (hh : 0 ≤ hi) (l : List ℤ) :
    List.Forall₂ (fun x y : ℤ => lo ≤ y ∧ y ≤ hi ∧ (lo ≤ x → x ≤ hi → y = x)) l (l.map (integer lo hi)) ∧ inrange lo hi (.integers l) = .integers (l.map (integer lo hi)) := by
  refine ⟨?_, rfl⟩
  rw [List.forall₂_map_right_iff, List.forall₂_same]
  intro x _
  obtain ⟨u1, u2⟩ := trunc_up hl
  obtain ⟨d1, d2⟩ := trunc_down hh
  have u2' : (trunc lo : ℚ) ≤ 0 := by exact_mod_cast u2
  have d2' : (0 : ℚ) ≤ trunc hi := by exact_mod_cast d2
  unfold integer
  dsimp only
  by_cases h1 : (x : ℚ) < lo
  · rw [if_pos h1, if_neg (by linarith)]
    exact ⟨u1, by linarith, fun h => absurd h (not_le.2 h1)⟩
  · rw [if_neg h1]
    by_cases h2 : hi < (x : ℚ)
    · rw [if_pos h2]
      exact ⟨by linarith, d1, fun _ h => absurd h (not_le.2 h2)⟩
    · rw [if_neg h2]
      exact ⟨not_lt.1 h1, not_lt.1 h2, fun _ _ => rfl⟩

/-- C265 is violated for arrays of integers: a limit that is no integer is cut off towards zero when it is stored (utils.py 865, 867), and the entry is outside the limits. -/
theorem C265_fraction_violated : inrange (1 / 2) 5 (.integers [0, 3, 9]) = .integers [0, 3, 5] ∧ inrange (-5) (-1 / 2) (.integers [3]) = .integers [0] := by
  decide +kernel

example : inrange (-1) 1 (.numbers [.fin (-3 / 2), .fin (1 / 2), .nan, .pinf, .ninf, .fin 7]) = .numbers [.fin (-1), .fin (1 / 2), .nan, .fin 1, .fin (-1), .fin 1]
    ∧ inrange (-3 / 2) (3 / 2) (.integers [-4, 0, 4]) = .integers [-1, 0, 1] ∧ inrange (-2) 3 (.integers [-4, 0, 4]) = .integers [-2, 0, 3] := by
  decide +kernel

end Verif
