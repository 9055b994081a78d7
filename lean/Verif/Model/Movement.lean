import Mathlib.Analysis.SpecialFunctions.Trigonometric.Basic
import Verif.Model.Jerk
import Verif.Model.Kinem

/-!
Model of the performance settings of telescope mount and rotator and of the detailed band
change time (`/repo/rubin_scheduler/scheduler/model_observatory/kinem_model.py` 24-88 and
764-800), over the real numbers.
-/

namespace Verif.Move

open Real Verif.Ang Verif.Kinem Verif.Jerk

/-- Speed, acceleration and jerk of one axis, in degrees. -/
structure Limits where
  maxspeed : ℝ
  accel : ℝ
  jerk : ℝ

/-- The dictionary returned by `tma_movement`. -/
structure Tma where
  azimuth : Limits
  altitude : Limits
  settle : ℝ

/-- "Cannot exceed 125 percent, by requirements." (45-47, 81-83). -/
noncomputable def cap (percent : ℝ) : ℝ := if 125 < percent then 125 else percent

/-- `tma_movement` (24-57). -/
noncomputable def tmaMovement (percent : ℝ) : Tma :=
  let scale := cap percent / 100
  ⟨⟨min (10 * scale) 7, 10 * scale, max 1 (40 * scale)⟩, ⟨5 * scale, 5 * scale, max 1 (20 * scale)⟩, 3⟩

/-- `rotator_movement` (60-88). -/
noncomputable def rotatorMovement (percent : ℝ) : Limits :=
  ⟨7 / 2 * cap percent / 100, 1 * cap percent / 100, 4 * cap percent / 100⟩

/-- `np.radians`. -/
noncomputable def radians (x : ℝ) : ℝ := x * (π / 180)

/-- `jerk_time` with the limits of an axis, converted to radians by the `setup_*` methods
(220-222, 330-335); 0 stands for the exception, which positive limits never raise. -/
noncomputable def motion (l : Limits) (d : ℝ) : ℝ :=
  ((jerkTimes [d] (radians l.maxspeed) (radians l.accel) (some (radians l.jerk))).bind List.head?).getD 0

/-- `setup_telescope(**tma)` (273-336) for a telescope whose position limits are not changed
(the code sets them to their defaults). -/
noncomputable def setupTelescope (C : Cfg ℝ) (t : Tma) : Cfg ℝ :=
  { C with altTime := motion t.altitude, azTime := motion t.azimuth, settle := t.settle }

/-- `setup_camera(**rot)` (169-224) for a camera whose other settings are not changed (the code
sets them to their defaults). -/
noncomputable def setupRotator (C : Cfg ℝ) (l : Limits) : Cfg ℝ := { C with rotTime := motion l }

section
variable {α : Type} [Field α] [LinearOrder α] [IsStrictOrderedRing α] [FloorRing α]

/-- `better_band_changetime` (764-800): rotate to zero, swap the carousel, rotate to the new
angle. -/
def betterChange (C : Cfg α) (prev next swap : α) : α :=
  C.rotTime |smallestSigned C.T prev 0| + swap + C.rotTime |smallestSigned C.T 0 next|

/-- `slew_times` with `constant_band_changetime=False` (717-726): the band change time is
computed from the current and the new angle of the rotator, with the default of 90 seconds for
the carousel. -/
def slewDetailed (C : Cfg α) (s : Tel α) (r : Req α) (mjd : α) (lax sw : Bool) : Option (α × Tel α) :=
  let pa := (C.altaz r.ra r.dec mjd).2.2
  let change := betterChange C (position C s mjd).2.2 (rotTarget C r pa).2 90
  slew { C with bandChange := change } s r mjd lax sw

end

end Verif.Move
