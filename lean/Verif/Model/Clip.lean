import Verif.Model.XReal
import Mathlib.Data.Rat.Floor

/-!
Model of `inrange` (`/repo/rubin_scheduler/scheduler/utils/utils.py` 859-868).  The limits are finite numbers; the values are an array of numbers or of integers. A copy is made first (863), so the
caller's array stays as it is.
-/

namespace Verif.Clp

/-- A number stored into an array of integers by numpy: cut off towards zero. -/
def trunc (q : ℚ) : ℤ := if 0 ≤ q then ⌊q⌋ else ⌈q⌉

/-- One number (utils.py 864-867). -/
def number (lo hi : ℚ) (x : XReal) : XReal :=
  let y := if XReal.ltB x (.fin lo) then .fin lo else x
  if XReal.ltB (.fin hi) y then .fin hi else y

/-- One entry of an array of integers: the limits are stored as integers (utils.py 865, 867). -/
def integer (lo hi : ℚ) (x : ℤ) : ℤ :=
  let y := if (x : ℚ) < lo then trunc lo else x
  if hi < (y : ℚ) then trunc hi else y

/-- An array, by the type of its entries. -/
inductive Arr where
  | numbers (l : List XReal)
  | integers (l : List ℤ)
deriving DecidableEq

/-- The values of an array. -/
def Arr.values : Arr → List XReal
  | .numbers l => l
  | .integers l => l.map fun z : ℤ => .fin (z : ℚ)

/-- `inrange` (utils.py 859-868). -/
def inrange (lo hi : ℚ) : Arr → Arr
  | .numbers l => .numbers (l.map (number lo hi))
  | .integers l => .integers (l.map (integer lo hi))

end Verif.Clp
