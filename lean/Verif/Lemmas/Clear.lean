import Verif.Lemmas.IntRounded
import Verif.Spec.Features

/-! Tolerant comparison of an array with one limit, when all entries are clear of it. -/

namespace Verif

open Feat

/-- No entry is within the tolerance of the limit (of a limit of zero, any entry may be). -/
def ClearOf (g : ℚ) (xs : List ℚ) : Prop := g = 0 ∨ ∀ x ∈ xs, Clear g x

theorem checkLimit_clear (xs : List ℚ) (g : ℚ) (h : ClearOf g xs) :
    checkLimit Tol.default (xs.map (fun x => (x, g))) = xs.map (fun x => (x, g)) := by
  rcases h with rfl | h
  · unfold checkLimit minOrderOfMag
    have : ((xs.map (fun x => (x, (0 : ℚ)))).map Prod.snd).filter (· ≠ 0) = [] := by
      rw [List.filter_eq_nil_iff]
      intro a ha
      simp at ha
      simp [ha.2]
    rw [this]
    split
    · rfl
    · rename_i om hom
      rcases hx : ((xs.map (fun x => (x, (0 : ℚ)))).map Prod.fst).filter (· ≠ 0) with _ | ⟨a, as⟩ <;> rw [hx] at hom <;> simp at hom
  · apply checkLimit_far Tol.default (by decide +kernel)
    · intro p hp
      obtain ⟨x, hx, rfl⟩ := List.mem_map.1 hp
      have hc := h x hx
      unfold Clear at hc
      exact lt_of_le_of_lt (mul_le_mul_of_nonneg_left (min_le_right _ _) (by decide +kernel)) hc
    · intro om hom p hp h0
      obtain ⟨x, hx, rfl⟩ := List.mem_map.1 hp
      have hc := h x hx
      unfold Clear at hc
      dsimp only at h0 ⊢
      by_cases hg : g = 0
      · exfalso
        subst hg
        unfold minOrderOfMag at hom
        have : ((xs.map (fun x => (x, (0 : ℚ)))).map Prod.snd).filter (· ≠ 0) = [] := by
          rw [List.filter_eq_nil_iff]
          intro a ha
          simp at ha
          simp [ha.2]
        rw [this] at hom
        rcases hx : ((xs.map (fun x => (x, (0 : ℚ)))).map Prod.fst).filter (· ≠ 0) with _ | ⟨a, as⟩ <;> rw [hx] at hom <;> simp at hom
      · have hb := (minOrderOfMag_le hom hp).2 hg
        have h2 := le_trans (zpow10_mono hb) (zpow_orderOfMag_le hg)
        have := mul_le_mul_of_nonneg_left h2 (show (0 : ℚ) ≤ Tol.default.limit by decide +kernel)
        exact lt_of_le_of_lt this hc

/-- All four comparisons are then exact. -/
theorem cmp_clear (xs : List ℚ) (g : ℚ) (h : ClearOf g xs) :
    ltA Tol.default (xs.map (fun x => (x, g))) = xs.map (fun x => decide (x < g)) ∧
    leA Tol.default (xs.map (fun x => (x, g))) = xs.map (fun x => decide (x ≤ g)) ∧
    gtA Tol.default (xs.map (fun x => (x, g))) = xs.map (fun x => decide (g < x)) ∧
    geA Tol.default (xs.map (fun x => (x, g))) = xs.map (fun x => decide (g ≤ x)) := by
  unfold ltA leA gtA geA
  rw [checkLimit_clear xs g h]
  simp only [List.map_map]
  exact ⟨rfl, rfl, rfl, rfl⟩

end Verif
