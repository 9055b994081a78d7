import Mathlib.Data.Rat.Floor
import Mathlib.Data.Int.Log

/-!
Model of the tolerant comparison class `IntRounded`
(`/repo/rubin_scheduler/scheduler/utils/utils.py` 151-267).

Numbers are exact rationals; the floating-point error of `np.log10` and of the
subtractions is not modelled.  Non-finite input (which raises, lines 182-183) cannot be
written as a rational and so is outside the model.
-/

namespace Verif

/-- `np.round` (no decimals): nearest integer, ties to even.
Used at utils.py 218-219. -/
def roundHalfEven (x : ℚ) : ℤ :=
  let f := ⌊x⌋
  if x - f < 1 / 2 then f
  else if 1 / 2 < x - f then f + 1
  else if f % 2 = 0 then f else f + 1

/-- `np.floor(np.log10(np.abs(v)))` for a non-zero `v` (utils.py 205-210). -/
def orderOfMag (v : ℚ) : ℤ := Int.log 10 |v|

/-- The two parameters of `IntRounded.__init__` (utils.py 181-186).  In a comparison the
left operand's `scale`/`limit` are used (`self.check_limit`). -/
structure Tol where
  scale : ℚ
  limit : ℚ

/-- Defaults `scale=1e6, limit=1e-9` (utils.py 181). -/
def Tol.default : Tol := ⟨1000000, 1 / 1000000000⟩

/-- `order_of_mag` of the two arrays (utils.py 205-210): the minimum over the non-zero
entries of both; `none` when one of the arrays has no non-zero entry (the early return at
200-201). -/
def minOrderOfMag (ps : List (ℚ × ℚ)) : Option ℤ :=
  match (ps.map Prod.fst).filter (· ≠ 0), (ps.map Prod.snd).filter (· ≠ 0) with
  | a :: as, b :: bs => some ((as ++ b :: bs).foldl (fun m x => min m (orderOfMag x)) (orderOfMag a))
  | _, _ => none

/-- `IntRounded.check_limit` (utils.py 188-220) on two arrays already broadcast against
each other, given as the list of element pairs.  Broadcasting a scalar against a non-empty
array repeats it, which changes neither the set of non-zero values nor any minimum; against
an empty array both forms return the raw (empty) arrays.

Line 218 computes `np.round(v1 - floor * self.scale)`: the subtraction is *not*
parenthesised before the multiplication, so `floor * scale` is subtracted from the
unscaled value. The model follows the code. -/
def checkLimit (t : Tol) (ps : List (ℚ × ℚ)) : List (ℚ × ℚ) :=
  match minOrderOfMag ps with
  | none => ps
  | some om =>
    let sf : ℚ := (10 : ℚ) ^ om
    if ps.any (fun p => decide (|p.1 / sf - p.2 / sf| ≤ t.limit)) then
      ps.map (fun p =>
        let fl : ℤ := ⌊min p.1 p.2⌋
        ((roundHalfEven (p.1 - fl * t.scale) : ℚ), (roundHalfEven (p.2 - fl * t.scale) : ℚ)))
    else ps

/-- `__lt__` (utils.py 230-232), element-wise result on broadcast arrays. -/
def ltA (t : Tol) (ps : List (ℚ × ℚ)) : List Bool := (checkLimit t ps).map (fun p => decide (p.1 < p.2))
/-- `__le__` (utils.py 234-236). -/
def leA (t : Tol) (ps : List (ℚ × ℚ)) : List Bool := (checkLimit t ps).map (fun p => decide (p.1 ≤ p.2))
/-- `__eq__` (utils.py 222-224). -/
def eqA (t : Tol) (ps : List (ℚ × ℚ)) : List Bool := (checkLimit t ps).map (fun p => decide (p.1 = p.2))
/-- `__ne__` (utils.py 226-228). -/
def neA (t : Tol) (ps : List (ℚ × ℚ)) : List Bool := (checkLimit t ps).map (fun p => decide (p.1 ≠ p.2))
/-- `__gt__` (utils.py 238-240). -/
def gtA (t : Tol) (ps : List (ℚ × ℚ)) : List Bool := (checkLimit t ps).map (fun p => decide (p.2 < p.1))
/-- `__ge__` (utils.py 242-244). -/
def geA (t : Tol) (ps : List (ℚ × ℚ)) : List Bool := (checkLimit t ps).map (fun p => decide (p.2 ≤ p.1))

/-- Scalar use `IntRounded(a) < IntRounded(b)`: both become arrays of length one
(`np.atleast_1d`, utils.py 192-193), and the truth value of the length-one result is used. -/
def ltS (t : Tol) (a b : ℚ) : Bool := ltA t [(a, b)] == [true]
/-- Scalar `<=`, as `ltS`. -/
def leS (t : Tol) (a b : ℚ) : Bool := leA t [(a, b)] == [true]
/-- Scalar `==`, as `ltS`. -/
def eqS (t : Tol) (a b : ℚ) : Bool := eqA t [(a, b)] == [true]
/-- Scalar `>`, as `ltS`. -/
def gtS (t : Tol) (a b : ℚ) : Bool := gtA t [(a, b)] == [true]
/-- Scalar `>=`, as `ltS`. -/
def geS (t : Tol) (a b : ℚ) : Bool := geA t [(a, b)] == [true]

end Verif
