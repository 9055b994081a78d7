import Mathlib.Analysis.SpecialFunctions.Trigonometric.Inverse
import Mathlib.Analysis.SpecialFunctions.Log.Basic
import Mathlib.Analysis.SpecialFunctions.Sqrt

/-! The generator of Zernike polynomials, `rubin_scheduler/utils/zernike_module.py`.

Whole numbers are exact and floating point numbers are exact reals.  A generator keeps tables
between calls, so every call takes the generator and gives it back.  `none` as a result of a call
is an exception (a `RuntimeError`, or a `KeyError` of a table); `none` as a value is `nan`. -/

namespace Verif.Zern

/-- A `_FactorialGenerator`: the dictionary of known factorials, latest entry first, and
`_max_i` (zernike_module.py 8-17). -/
structure Fac where
  values : List (ℤ × ℤ) := [(1, 1), (0, 1)]
  maxI : ℤ := 1
deriving DecidableEq, Repr

/-- One turn of the loop that extends the table (zernike_module.py 31-33). -/
def Fac.extend (s : ℤ × List (ℤ × ℤ)) (ii : ℤ) : ℤ × List (ℤ × ℤ) :=
  (s.1 * (ii + 1), (ii + 1, s.1 * (ii + 1)) :: s.2)

/-- `range(a, b)`. -/
def rangeInt (a b : ℤ) : List ℤ := (List.range (b - a).toNat).map fun i : ℕ => a + (i : ℤ)

/-- `_FactorialGenerator.evaluate` of a whole number (zernike_module.py 19-36; floats, which are
rounded at line 26 and refused by `range` at line 31, are left out). -/
def Fac.evaluate (t : Fac) (num : ℤ) : Option (ℤ × Fac) :=
  if num < 0 then none
  else match t.values.lookup num with
    | some v => some (v, t)
    | none =>
      match t.values.lookup t.maxI with
      | none => none
      | some val =>
        let r := (rangeInt t.maxI num).foldl Fac.extend (val, t.values)
        (r.2.lookup num).map fun v => (v, ⟨r.2, num⟩)

/-- A `ZernikePolynomialGenerator`: the factorials, and the coefficients and the powers of the
radial polynomials made so far, latest first (zernike_module.py 47-50). -/
structure Gen where
  fac : Fac := {}
  coeffs : List ((ℤ × ℤ) × List ℚ) := []
  powers : List ((ℤ × ℤ) × List ℤ) := []

/-- `_validate_nm` of whole numbers (zernike_module.py 52-76; the checks of the types at 61-64
are left out). -/
def validate (n m : ℤ) : Option (ℤ × ℤ) :=
  if n < 0 then none else if m < 0 then none else if n < m then none else some (n, m)

/-- The sign of a coefficient (zernike_module.py 104-107). -/
def sgn (k : ℤ) : ℚ := if k % 2 = 0 then 1 else -1

/-- One turn of the loop of `_make_polynomial`: four factorials, one coefficient and one power
(zernike_module.py 103-115). -/
def makeOne (n m : ℤ) (s : Fac × List ℚ × List ℤ) (k : ℤ) : Option (Fac × List ℚ × List ℤ) :=
  (s.1.evaluate (n - k)).bind fun a =>
  (a.2.evaluate k).bind fun b =>
  (b.2.evaluate ((n + m) / 2 - k)).bind fun c =>
  (c.2.evaluate ((n - m) / 2 - k)).bind fun d =>
  some (d.2, s.2.1 ++ [sgn k * a.1 / (b.1 * c.1 * d.1)], s.2.2 ++ [n - 2 * k])

/-- `_make_polynomial` (zernike_module.py 78-118). -/
def make (g : Gen) (n m : ℤ) : Option Gen :=
  (validate n m).bind fun nm =>
  ((rangeInt 0 (1 + (nm.1 - nm.2) / 2)).foldlM (makeOne nm.1 nm.2) (g.fac, [], [])).map fun r =>
    ⟨r.1, (nm, r.2.1) :: g.coeffs, (nm, r.2.2) :: g.powers⟩

/-- The sum of the terms of a radial polynomial at one radius (zernike_module.py 134-135). -/
noncomputable def radialSum (cs : List ℚ) (ps : List ℤ) (r : ℝ) : ℝ :=
  (List.zipWith (fun (c : ℚ) (p : ℤ) => (c : ℝ) * r ^ p) cs ps).sum

/-- `_evaluate_radial_number` (zernike_module.py 120-135). -/
noncomputable def radialNumber (cs : List ℚ) (ps : List ℤ) (r : ℝ) : Option ℝ :=
  if 1 < r then none else some (radialSum cs ps r)

/-- A power by its logarithm (zernike_module.py 157-159).  The logarithm of zero and those of
negative numbers are not finite and are replaced by `-1e10`, whose exponential is zero in floating
point except for the power zero. -/
noncomputable def expPower (r : ℝ) (p : ℤ) : ℝ :=
  if 0 < r then Real.exp (Real.log r * p) else if p = 0 then 1 else 0

/-- `_evaluate_radial_array`, for one radius (zernike_module.py 137-162). -/
noncomputable def radialElement (cs : List ℚ) (ps : List ℤ) (r : ℝ) : Option ℝ :=
  if r < 1 then some (List.zipWith (fun (c : ℚ) (p : ℤ) => expPower r p * (c : ℝ)) cs ps).sum else none

/-- The tables for a pair of orders, made if need be (zernike_module.py 189-190). -/
def tables (g : Gen) (nm : ℤ × ℤ) : Option (Gen × List ℚ × List ℤ) :=
  (match g.coeffs.lookup nm with
    | some _ => some g
    | none => make g nm.1 nm.2).bind fun g' =>
  (g'.coeffs.lookup nm).bind fun cs => (g'.powers.lookup nm).map fun ps => (g', cs, ps)

/-- `_evaluate_radial` of a number (zernike_module.py 164-195). -/
noncomputable def radial (g : Gen) (r : ℝ) (n m : ℤ) : Option (Option ℝ × Gen) :=
  (validate n m).bind fun nm =>
    if (nm.1 - nm.2) % 2 = 1 then some (some 0, g)
    else (tables g nm).map fun t => (radialNumber t.2.1 t.2.2 r, t.1)

/-- `_evaluate_radial` of an array (zernike_module.py 164-195). -/
noncomputable def radialArray (g : Gen) (rs : List ℝ) (n m : ℤ) : Option (List (Option ℝ) × Gen) :=
  (validate n m).bind fun nm =>
    if (nm.1 - nm.2) % 2 = 1 then some (rs.map (fun _ => some 0), g)
    else (tables g nm).map fun t => (rs.map (radialElement t.2.1 t.2.2), t.1)

/-- The angular part (zernike_module.py 213-215). -/
noncomputable def angular (m : ℤ) (phi : ℝ) : ℝ :=
  if 0 ≤ m then Real.cos (m * phi) else Real.sin (m * phi)

/-- `evaluate` of a number (zernike_module.py 197-215). -/
noncomputable def evaluate (g : Gen) (r phi : ℝ) (n m : ℤ) : Option (Option ℝ × Gen) :=
  (radial g r n |m|).map fun v => (v.1.map (· * angular m phi), v.2)

/-- `evaluate` of arrays of radii and angles (zernike_module.py 197-215). -/
noncomputable def evaluateArray (g : Gen) (pts : List (ℝ × ℝ)) (n m : ℤ) : Option (List (Option ℝ) × Gen) :=
  (radialArray g (pts.map Prod.fst) n |m|).map fun v =>
    (List.zipWith (fun x p => x.map (· * angular m p.2)) v.1 pts, v.2)

/-- `norm` (zernike_module.py 217-231). -/
noncomputable def norm (n m : ℤ) : Option ℝ :=
  (validate n |m|).map fun nm => (if nm.2 = 0 then 2 else 1) * Real.pi / (nm.1 * 2 + 2)

/-- The polar coordinates that `evaluate_xy` finds (zernike_module.py 253-256). -/
noncomputable def polar (x y : ℝ) : ℝ × ℝ :=
  let r := Real.sqrt (x ^ 2 + y ^ 2)
  let a := Real.arccos (if 0 < r then x / r else 0)
  (r, if 0 ≤ y then a else 0 - a)

/-- `evaluate_xy` of numbers (zernike_module.py 233-257). -/
noncomputable def evaluateXY (g : Gen) (x y : ℝ) (n m : ℤ) : Option (Option ℝ × Gen) :=
  evaluate g (polar x y).1 (polar x y).2 n m

/-- `evaluate_xy` of arrays (zernike_module.py 233-257). -/
noncomputable def evaluateXYArray (g : Gen) (pts : List (ℝ × ℝ)) (n m : ℤ) : Option (List (Option ℝ) × Gen) :=
  evaluateArray g (pts.map fun p => polar p.1 p.2) n m

end Verif.Zern
