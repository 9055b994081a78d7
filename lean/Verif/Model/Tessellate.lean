import Mathlib.Analysis.SpecialFunctions.Trigonometric.Bounds

/-!
Model of `comcam_tessellate` (`/repo/rubin_scheduler/scheduler/utils/comcam_tessellate.py` 6-65) over the real numbers.
The running rotation of the stripes (38, 45), which divides by the cosine of the declination and so at the pole by a number
that is zero but for rounding, is given as any number for each stripe.
-/

namespace Verif.Tess

open Real

/-- `np.linspace(a, b, n)`; one point is `a`, since here division by zero gives zero. -/
noncomputable def linspace (a b : ℝ) (n : ℕ) : List ℝ := (List.range n).map fun i : ℕ => a + i * ((b - a) / (n - 1))

/-- A field: right ascension and declination, in radians. -/
structure Field where
  ra : ℝ
  dec : ℝ

/-- `x % (2 π)`. -/
noncomputable def wrap (x : ℝ) : ℝ := x - 2 * π * ⌊x / (2 * π)⌋

/-- The number of declinations (32). -/
noncomputable def decSteps (step : ℝ) : ℕ := ⌈π / 2 / step⌉.toNat

/-- The longest circle a stripe has to cover (39, 42). -/
noncomputable def circum (step dec : ℝ) : ℝ :=
  max (max (2 * π * cos (-step + dec)) (2 * π * cos (0 + dec))) (2 * π * cos (step + dec))

/-- The number of fields of a stripe (43). -/
noncomputable def raSteps (step dec : ℝ) : ℕ := ⌈circum step dec / step⌉.toNat

/-- The fields of a stripe (41-50). -/
noncomputable def stripe (step turn dec : ℝ) : List Field :=
  (linspace 0 (2 * π) (raSteps step dec)).map fun x => ⟨wrap (x + turn), dec⟩

/-- The northern stripes, the equator first (33, 40-50). -/
noncomputable def north (step : ℝ) (turn : ℕ → ℝ) : List Field :=
  ((linspace 0 (π / 2) (decSteps step)).zipIdx).flatMap fun q => stripe step (turn q.2) q.1

/-- A field of the north copied to the south (54-57). -/
noncomputable def mirror (f : Field) : Field := ⟨wrap (-1 * f.ra), -1 * f.dec⟩

open Classical in
/-- `comcam_tessellate` (6-65), with side and overlap in radians. -/
noncomputable def tessellate (side overlap : ℝ) (turn : ℕ → ℝ) : List Field :=
  north (side - overlap) turn ++ ((north (side - overlap) turn).filter fun f => decide (0 < f.dec)).map mirror

end Verif.Tess
