import Verif.Model.Sphere

/-!
Arguments that are numbers or arrays: `_validate_inputs` (`/repo/rubin_scheduler/utils/code_utilities.py` 59-121), the separations of
`/repo/rubin_scheduler/utils/coordinate_transformations.py` (466-542), and its hour angles (48-96).

Simplifications. Arrays have one dimension (or none); numbers are reals. The positions on the horizon in `_alt_az_pa_from_ra_dec` come from astropy and are not modelled;
the sidereal time is an argument.
-/

namespace Verif.Inp

open Sph

/-- An argument: a number, an array, an array without dimensions, a Python list of numbers, or something else. -/
inductive Arg where
  | num (x : ℝ)
  | arr (l : List ℝ)
  | point (x : ℝ)
  | list (l : List ℝ)
  | other

/-- The exceptions. -/
inductive Err where
  | runtime
  | type
  | index
deriving DecidableEq, Repr

/-- `isinstance(_, np.ndarray)`. -/
def Arg.isArray : Arg → Bool
  | .arr _ | .point _ => true
  | _ => false

/-- `isinstance(_, numbers.Number)`. -/
def Arg.isNumber : Arg → Bool
  | .num _ => true
  | _ => false

/-- `len(_)`, none for a TypeError. -/
def Arg.len : Arg → Option ℕ
  | .arr l | .list l => some l.length
  | _ => none

/-- Whether all lengths are that of the first (code_utilities.py 111-115): none for a TypeError. -/
def sameLength (first : Arg) : List Arg → Option Bool
  | [] => some true
  | a :: r => match a.len, first.len, sameLength first r with
    | some n, some m, some b => some (decide (n = m) && b)
    | _, _, _ => none

/-- The type asked for, that of the first argument (code_utilities.py 81-89): whether it is an array. -/
def wantsArray (first : Arg) : Except Err Bool :=
  if first.isArray then .ok true else if first.isNumber then .ok false else .error .runtime

/-- The last check, on arrays (code_utilities.py 111-121). -/
def checkLengths (first : Arg) (l : List Arg) (wants : Bool) : Except Err Bool :=
  if wants then
    match sameLength first l with
    | none => .error .type
    | some true => .ok true
    | some false => .error .runtime
  else .ok false

/-- `_validate_inputs` (code_utilities.py 59-121) with `n` names: only as many arguments as there are names are looked at for their type. -/
def validate (l : List Arg) (n : ℕ) : Except Err Bool :=
  match l with
  | [] => .error .index
  | first :: _ => match wantsArray first with
    | .error e => .error e
    | .ok wants =>
      if (l.take n).all fun a => if wants then a.isArray else a.isNumber then checkLengths first l wants
      else .error .runtime

/-- What comes out: a number or an array. -/
inductive Res where
  | num (x : ℝ)
  | arr (l : List ℝ)

/-- A pair of validated arguments: one position or an array of longitudes and one of latitudes. Arrays of length one become one position
(coordinate_transformations.py 493-501). -/
def squeeze (long lat : Arg) : Option ((ℝ × ℝ) ⊕ (List ℝ × List ℝ)) :=
  match long, lat with
  | .num x, .num y => some (.inl (x, y))
  | .arr [x], .arr (y :: _) => some (.inl (x, y))
  | .arr xs, .arr ys => some (.inr (xs, ys))
  | _, _ => none

/-- The formula on numbers and arrays (coordinate_transformations.py 509-519). -/
noncomputable def apply : (ℝ × ℝ) ⊕ (List ℝ × List ℝ) → (ℝ × ℝ) ⊕ (List ℝ × List ℝ) → Except Err Res
  | .inl p, .inl q => .ok (.num (sep p.1 p.2 q.1 q.2))
  | .inl p, .inr q => .ok (.arr ((q.1.zip q.2).map fun q => sep p.1 p.2 q.1 q.2))
  | .inr p, .inl q => .ok (.arr ((p.1.zip p.2).map fun p => sep p.1 p.2 q.1 q.2))
  | .inr p, .inr q =>
    if p.1.length ≠ q.1.length then .error .runtime
    else .ok (.arr (((p.1.zip p.2).zip (q.1.zip q.2)).map fun r => sep r.1.1 r.1.2 r.2.1 r.2.2))

/-- `_angular_separation` (coordinate_transformations.py 466-519). -/
noncomputable def separation (long1 lat1 long2 lat2 : Arg) : Except Err Res :=
  match validate [long1, lat1] 2 with
  | .error e => .error e
  | .ok _ => match validate [long2, lat2] 2 with
    | .error e => .error e
    | .ok _ => match squeeze long1 lat1, squeeze long2 lat2 with
      | some p, some q => apply p q
      | _, _ => .error .type

/-- `np.radians`. -/
noncomputable def radians : Arg → Except Err Arg
  | .num x => .ok (.num (x * Real.pi / 180))
  | .point x => .ok (.num (x * Real.pi / 180))
  | .arr l => .ok (.arr (l.map fun x => x * Real.pi / 180))
  | .list l => .ok (.arr (l.map fun x => x * Real.pi / 180))
  | .other => .error .type

/-- `np.degrees`. -/
noncomputable def degrees : Res → Res
  | .num x => .num (x * 180 / Real.pi)
  | .arr l => .arr (l.map fun x => x * 180 / Real.pi)

/-- `angular_separation` (coordinate_transformations.py 522-542). -/
noncomputable def separationDeg (long1 lat1 long2 lat2 : Arg) : Except Err Res :=
  match radians long1, radians lat1, radians long2, radians lat2 with
  | .ok a, .ok b, .ok c, .ok d => match separation a b c d with
    | .error e => .error e
    | .ok r => .ok (degrees r)
  | _, _, _, _ => .error .type

/-- `_wrap_hour_angle` of one number (coordinate_transformations.py 51-53). -/
noncomputable def wrapOne (ha : ℝ) : ℝ := if ha > Real.pi then ha - 2 * Real.pi else ha

/-- `_wrap_hour_angle` of an array (coordinate_transformations.py 48-57): an array of one element goes the way of numbers. -/
noncomputable def wrapAll (l : List ℝ) : List ℝ :=
  match l with
  | [x] => [wrapOne x]
  | l => l.map fun x => if x > Real.pi then x - 2 * Real.pi else x

/-- The parallactic angle of `_alt_az_pa_from_ra_dec` (coordinate_transformations.py 81-94), for the sidereal time `lst` in radians. -/
noncomputable def paAt (lst ra dec lat : ℝ) : ℝ := paFromHa (wrapOne (lst - ra)) dec lat

end Verif.Inp
