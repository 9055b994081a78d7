import Verif.Model.Sphere

/-!
Model of `/repo/rubin_scheduler/utils/sampling_functions.py`, `riseset.py` and `rotation_matrix_from_vectors`
(`coordinate_transformations.py` 426-462), over the real numbers, angles in radians.
-/

namespace Verif.Spot

open Real Sph

noncomputable section

/-! ### Samples -/

/-- `uniform_sphere` (sampling_functions.py 15-19) for a pair of random numbers. -/
def uniformSphere (u v : ℝ) : ℝ × ℝ := (2 * π * u, arccos (2 * v - 1) - π / 2)

/-- `sample_patch_on_sphere` (sampling_functions.py 54-81) for a pair of random numbers; `none` where it raises. -/
def samplePatch (phi theta delta u v : ℝ) : Option (ℝ × ℝ) :=
  let p := 2 * delta * u + (phi - delta)
  let p := if 0 ≤ p then p else p + 2 * π
  let t := π / 2 - theta
  let tmax := t + delta
  let tmin := t - delta
  if π < tmax ∨ tmin < 0 then none
  else
    let a := cos tmin - cos tmax
    some (p, π / 2 - arccos (-v * a + cos tmin))

/-! ### Rising and setting -/

/-- The days of a sidereal day (riseset.py 93, 111). -/
def sidereal : ℝ := 0.9972696

/-- `event_direction` (riseset.py 73). -/
def direction (which : String) : ℝ := if which = "down" then 1 else -1

/-- `night_wrap` (riseset.py 75-76); `none` where it raises. -/
def nightWrap (which : String) : Option ℝ :=
  if which = "previous" then some 0 else if which = "nearest" then some π else if which = "next" then some (2 * π) else none

/-- `Angle.wrap_at` of `astropy`: the angle moved by whole turns to be at least `w - 2 π` and less than `w`. -/
def wrapAt (w x : ℝ) : ℝ := fmod (x - (w - 2 * π)) (2 * π) + (w - 2 * π)

/-- `event_hour_angles` (riseset.py 85-88). -/
def eventHa (which : String) (alt dec lat : ℝ) : ℝ := direction which * arccos ((sin alt - sin dec * sin lat) / (cos dec * cos lat))

/-- The first guess (riseset.py 78-93) for a night, with sidereal time and position of the body then. -/
def guess (which : String) (wrap alt mjd lst ra dec lat : ℝ) : ℝ :=
  mjd + wrapAt wrap (eventHa which alt dec lat - (lst - ra)) * (sidereal / (2 * π))

/-- What the refinement knows of a time: the altitude of the body and the change of its sine with time. -/
structure Body where
  alt : ℝ → ℝ
  rate : ℝ → ℝ

/-- `finished` (riseset.py 100). -/
def close (b : Body) (target tol : ℝ) (ts : List ℝ) : Prop := ∀ t ∈ ts, |b.alt t - target| < tol

/-- The loop (riseset.py 96-112): the times, and the times of the last check when it did not end before. -/
def refine (b : Body) (target tol : ℝ) : ℕ → List ℝ → List ℝ → List ℝ × Option (List ℝ)
  | 0, last, ts => (ts, some last)
  | n + 1, _, ts =>
    open Classical in
    if close b target tol ts then (ts, none)
    else refine b target tol n ts (ts.map fun t => t - (sin (b.alt t) - sin target) / b.rate t)

/-- Whether a warning is given (riseset.py 117-124). -/
def warned (b : Body) (target tol : ℝ) (last : Option (List ℝ)) : Prop :=
  match last with
  | none => False
  | some ts => ∃ t ∈ ts, |b.alt t - target| < tol

/-! ### Rotation matrices -/

def cross (a b : Vec) : Vec := ⟨a.y * b.z - a.z * b.y, a.z * b.x - a.x * b.z, a.x * b.y - a.y * b.x⟩

/-- `np.dot`. -/
def inner (a b : Vec) : ℝ := a.x * b.x + a.y * b.y + a.z * b.z

/-- A matrix by its rows. -/
structure Mat where
  r1 : Vec
  r2 : Vec
  r3 : Vec

def Mat.mul (m : Mat) (v : Vec) : Vec := ⟨inner m.r1 v, inner m.r2 v, inner m.r3 v⟩

/-- The matrix (coordinate_transformations.py 444-460). -/
def axisAngle (k : Vec) (s c : ℝ) : Mat :=
  ⟨⟨c + k.x * k.x * (1 - c), -k.z * s + (1 - c) * k.x * k.y, k.y * s + (1 - c) * k.x * k.z⟩,
   ⟨k.z * s + (1 - c) * k.x * k.y, c + (1 - c) * k.y * k.y, -k.x * s + (1 - c) * k.y * k.z⟩,
   ⟨-k.y * s + (1 - c) * k.x * k.z, k.x * s + (1 - c) * k.y * k.z, c + (1 - c) * (k.z * k.z)⟩⟩

/-- What `rotation_matrix_from_vectors` gives. -/
inductive Rotation where
  | raised
  | nan
  | mat (m : Mat)

/-- `rotation_matrix_from_vectors` (coordinate_transformations.py 426-462). -/
def rotation (v1 v2 : Vec) : Rotation :=
  open Classical in
  if 0.01 < |√(inner v1 v1) - 1| ∨ 0.01 < |√(inner v2 v2) - 1| then .raised
  else
    let k := cross v1 v2
    let l := √(inner k k)
    if l = 0 then .nan
    else
      let angle := arccos (inner v1 v2)
      .mat (axisAngle ⟨k.x / l, k.y / l, k.z / l⟩ (sin angle) (cos angle))

end

end Verif.Spot
