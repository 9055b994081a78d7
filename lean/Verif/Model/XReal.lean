import Mathlib.Data.Rat.Floor

/-!
Floating-point values as used for rewards: `nan`, the two infinities, or a finite number
(an exact rational here).  Used wherever the code relies on numpy's nan / inf rules.
-/

namespace Verif

/-- A numpy float, finite values exact. -/
inductive XReal where
  | nan
  | ninf
  | fin (q : ℚ)
  | pinf
deriving DecidableEq, Repr

namespace XReal

/-- `np.isnan`. -/
def isNan : XReal → Bool
  | nan => true
  | _ => false

/-- `np.isfinite`. -/
def isFinite : XReal → Bool
  | fin _ => true
  | _ => false

/-- IEEE `<=`: false when an operand is nan. -/
def leB : XReal → XReal → Bool
  | nan, _ => false
  | _, nan => false
  | ninf, _ => true
  | _, pinf => true
  | fin a, fin b => decide (a ≤ b)
  | fin _, ninf => false
  | pinf, _ => false

/-- IEEE `<`: false when an operand is nan. -/
def ltB : XReal → XReal → Bool
  | nan, _ => false
  | _, nan => false
  | ninf, ninf => false
  | ninf, _ => true
  | pinf, _ => false
  | fin _, pinf => true
  | fin a, fin b => decide (a < b)
  | fin _, ninf => false

/-- IEEE `==`: nan is not equal to itself. -/
def eqB : XReal → XReal → Bool
  | nan, _ => false
  | a, b => decide (a = b)

/-- One step of `np.nanmax`: keep the larger, ignoring nan. -/
def nanMax2 (a b : XReal) : XReal :=
  if a.isNan then b else if b.isNan then a else if leB a b then b else a

/-- `np.nanmax` of an array: `none` for an empty array (numpy raises `ValueError`), nan if
all entries are nan (numpy warns and returns nan). -/
def nanmax : List XReal → Option XReal
  | [] => none
  | x :: xs => some (xs.foldl nanMax2 x)

/-- IEEE addition (`inf - inf = nan`). -/
def add : XReal → XReal → XReal
  | nan, _ => nan
  | _, nan => nan
  | pinf, ninf => nan
  | ninf, pinf => nan
  | pinf, _ => pinf
  | _, pinf => pinf
  | ninf, _ => ninf
  | _, ninf => ninf
  | fin a, fin b => fin (a + b)

/-- IEEE multiplication by a finite weight (`0 * inf = nan`). -/
def smul (w : ℚ) : XReal → XReal
  | nan => nan
  | fin a => fin (w * a)
  | pinf => if w = 0 then nan else if 0 < w then pinf else ninf
  | ninf => if w = 0 then nan else if 0 < w then ninf else pinf

end XReal
end Verif
