import Verif.Model.Angles
import Mathlib.Algebra.Order.Group.Abs

/-!
Model of the detailers that set the angle of the camera for single visits
(`/repo/rubin_scheduler/scheduler/detailers/detailer.py` 628-726 and `dither_detailer.py` 532-546, 616-633).

`T` is a full turn and `pa` the parallactic angle of the visit, computed from its altitude and azimuth. What the detailers leave of a visit is its angle on the sky and the angle of the
rotator.
-/

namespace Verif.Rot

open Ang

variable {α : Type} [Field α] [LinearOrder α] [IsStrictOrderedRing α] [FloorRing α]

/-- `ZeroRotDetailer.__call__` (683-693): the angle on the sky. -/
def zeroRot (T : α) (c : Camera) (pa : α) : α := tel2sky T c 0 pa

/-- Where `ZeroRotDetailer` and `Comcam90rotDetailer` ask for the parallactic angle of a visit at `ra`, `dec` in radians (683-689, 710-716): `ppa` takes degrees (rotskypos.py 37-38, 79) and is given radians. -/
def askPa (ppa : α → α → α) (ra dec : α) : α := ppa ra dec

/-- `CameraRotDetailer.__call__` and the one for lists of visits (dither_detailer.py 544-545, 631-632): angle on the sky and of the rotator. -/
def cameraRot (T : α) (c : Camera) (off pa : α) : α × α := (tel2sky T c off pa, off)

/-- One more turn back when above a limit (650-651). -/
def lower (T hi x : α) : α := if hi < x then x - T else x

/-- One more turn when below a limit (653-654). -/
def raise (T lo x : α) : α := if x < lo then x + T else x

/-- `ParallacticRotationDetailer.__call__` (636-663): angle on the sky and of the rotator, for limits of the rotator. -/
def parallactic (T : α) (c : Camera) (lim : α × α) (pa : α) : α × α :=
  let lo := min lim.1 lim.2
  let hi := max lim.1 lim.2
  (pa, lower (T / 2) hi (raise T lo (lower T hi (sky2tel T c pa pa))))

/-- The angles on the sky to choose from (707). -/
def quarters (T : α) : List α := [0, T / 4, T / 2, 3 * T / 4, T]

/-- The first of a list where a number is least (`np.argmin`). -/
def firstLeast (f : α → α) : α → List α → α
  | best, [] => best
  | best, x :: xs => firstLeast f (if f x < f best then x else best) xs

/-- `Comcam90rotDetailer.__call__` (707-726): the parallactic angle is in radians already (709) and made into radians again (721), which multiplies it by `s`. -/
def comcam90 (T s : α) (c : Camera) (pa : α) : α := firstLeast (fun x => |sky2tel T c x (s * pa)|) 0 (quarters T)

end Verif.Rot
