import Verif.Model.Units
import Mathlib.Tactic.FieldSimp
import Mathlib.Tactic.Ring
import Mathlib.Tactic.NormNum

/-!
Property C266: conversions of angles to and from arcseconds.
-/

namespace Verif

open Unt

/-- `v` in a unit of which a full turn has `n` and `w` in one of which it has `m` are the same angle, or both are missing. -/
def SameAngle (n m : ℝ) : Option ℝ → Option ℝ → Prop
  | none, w => w = none
  | some v, w => ∃ x, w = some x ∧ v / n = x / m

/-- C266: the four conversions keep the angle; a full turn has 2π radians, 360 degrees and 1296000 arcseconds. A missing value stays missing. -/
theorem C266_angle (v : Option ℝ) :
    SameAngle (2 * Real.pi) 1296000 v (arcsecFromRadians v) ∧ SameAngle 1296000 (2 * Real.pi) v (radiansFromArcsec v)
      ∧ SameAngle 360 1296000 v (arcsecFromDegrees v) ∧ SameAngle 1296000 360 v (degreesFromArcsec v) := by
  have hp := Real.pi_ne_zero
  cases v with
  | none => exact ⟨rfl, rfl, rfl, rfl⟩
  | some v =>
    refine ⟨⟨_, rfl, ?_⟩, ⟨_, rfl, ?_⟩, ⟨_, rfl, ?_⟩, ⟨_, rfl, ?_⟩⟩
    · unfold degrees
      field_simp
      ring
    · unfold radians
      field_simp
      ring
    · ring
    · ring

/-- C266: there and back is the same value. -/
theorem C266_back (v : Option ℝ) :
    radiansFromArcsec (arcsecFromRadians v) = v ∧ arcsecFromRadians (radiansFromArcsec v) = v ∧ degreesFromArcsec (arcsecFromDegrees v) = v ∧ arcsecFromDegrees (degreesFromArcsec v) = v := by
  have hp := Real.pi_ne_zero
  cases v with
  | none => exact ⟨rfl, rfl, rfl, rfl⟩
  | some v =>
    refine ⟨congrArg some ?_, congrArg some ?_, congrArg some ?_, congrArg some ?_⟩
    · unfold radians degrees
      field_simp
    · unfold radians degrees
      field_simp
    · ring
    · ring

/-- Half a turn. -/
example : arcsecFromRadians (some Real.pi) = some 648000 ∧ arcsecFromDegrees (some 180) = some 648000 ∧ degreesFromArcsec (some 648000) = some 180 := by
  have hp := Real.pi_ne_zero
  refine ⟨congrArg some ?_, congrArg some ?_, congrArg some ?_⟩
  · unfold degrees
    field_simp
    norm_num
  · norm_num
  · norm_num

end Verif
