import Mathlib.Analysis.SpecialFunctions.Trigonometric.Basic

/-!
Model of the conversions of angles to and from arcseconds (`/repo/rubin_scheduler/utils/coordinate_transformations.py` 568-612). Numbers are real; `none` is Python's `None`.
-/

namespace Verif.Unt

/-- `np.degrees` -/
noncomputable def degrees (x : ℝ) : ℝ := x * (180 / Real.pi)

/-- `np.radians` -/
noncomputable def radians (x : ℝ) : ℝ := x * (Real.pi / 180)

/-- `arcsec_from_radians` (coordinate_transformations.py 568-577). -/
noncomputable def arcsecFromRadians : Option ℝ → Option ℝ
  | none => none
  | some v => some (3600 * degrees v)

/-- `radians_from_arcsec` (coordinate_transformations.py 580-589). -/
noncomputable def radiansFromArcsec : Option ℝ → Option ℝ
  | none => none
  | some v => some (radians (v / 3600))

/-- `arcsec_from_degrees` (coordinate_transformations.py 592-601). -/
noncomputable def arcsecFromDegrees : Option ℝ → Option ℝ
  | none => none
  | some v => some (3600 * v)

/-- `degrees_from_arcsec` (coordinate_transformations.py 604-613). -/
noncomputable def degreesFromArcsec : Option ℝ → Option ℝ
  | none => none
  | some v => some (v / 3600)

end Verif.Unt
