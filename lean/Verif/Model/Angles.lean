import Mathlib.Algebra.Order.Floor.Ring
import Mathlib.Algebra.Order.Field.Basic

/-!
Model of the angle helpers
(`/repo/rubin_scheduler/scheduler/utils/utils.py` 50-63, 99-125 and
`/repo/rubin_scheduler/utils/rotskypos.py` 103-186).

`T` is a full turn.  The code works in radians, `T = 2 * np.pi`; the definitions are written
for any ordered field so that the same definitions serve for real angles in radians
(`T = 2π`) and for rational angles in turns (`T = 1`).  numpy arrays are handled element by
element.
-/

namespace Verif.Ang

variable {α : Type} [Field α] [LinearOrder α] [IsStrictOrderedRing α] [FloorRing α]

/-- Python's and numpy's `x % T` for positive `T`. -/
def md (T x : α) : α := x - T * ⌊x / T⌋

/-- `smallest_signed_angle` (utils.py 50-63). -/
def smallestSigned (T a1 a2 : α) : α :=
  let x := md T a1
  let y := md T a2
  let a := md T (x - y)
  let b := md T (y - x)
  if a < b then -1 * a else b

/-- `wrap_ra_dec` (utils.py 99-125); `np.pi` is `T / 2`. -/
def wrapRaDec (T ra dec : α) : α × α :=
  let p := T / 2
  let (ra, dec) := if dec < -p / 2 then (ra - p, -1 * (p + dec)) else (ra, dec)
  let (ra, dec) := if p / 2 < dec then (ra - p, p - dec) else (ra, dec)
  (md T ra, dec)

/-- `_wrap_180` (rotskypos.py 103-123). -/
def wrap180 (T x : α) : α :=
  let a := md T x
  if T / 2 < a then a - T else a

/-- The three cameras (rotskypos.py 126-186). -/
inductive Camera where
  | lsst
  | comcam
  | auxtel

/-- `_rottelpos2rotskypos` of the three converters (rotskypos.py 154-156, 167-169, 180-181). -/
def tel2sky (T : α) : Camera → α → α → α
  | .lsst, tel, pa => md T (pa - tel - T / 4)
  | .comcam, tel, pa => md T (pa - tel)
  | .auxtel, tel, pa => md T (tel - pa)

/-- `_rotskypos2rottelpos` of the three converters (rotskypos.py 158-161, 171-174, 183-186). -/
def sky2tel (T : α) : Camera → α → α → α
  | .lsst, sky, pa => wrap180 T (md T (pa - sky - T / 4))
  | .comcam, sky, pa => wrap180 T (md T (pa - sky))
  | .auxtel, sky, pa => wrap180 T (md T (sky + pa))

end Verif.Ang
