import Mathlib.Analysis.SpecialFunctions.Complex.Arg
import Mathlib.Analysis.SpecialFunctions.Trigonometric.Inverse

/-!
Model of positions and angles on the sky:
`/repo/rubin_scheduler/utils/coordinate_transformations.py` (122-157, 261-410, 465-519),
`approx_coord_transforms.py` (14-38, 99-142, 186-236), `bearing.py`, `projections.py` and the rotation of
`camera_footprint.py` (12-18), all in `/repo/rubin_scheduler/utils`.

Numbers are real numbers and the functions those of mathematics; angles are radians (the versions in degrees only
change the unit).  `np.arctan2(y, x)` is the argument of `x + i y`, `np.arcsin` and `np.arccos` are used on arguments from -1 to 1
only.  Arrays are treated entry by entry; the code has one branch for scalars and one for arrays, which agree.  Where the code divides
by zero it gets nan and the model 0: the theorems leave these cases out.
-/

namespace Verif.Sph

open Real

noncomputable section

/-- `np.arctan2`. -/
def atan2 (y x : ℝ) : ℝ := Complex.arg ⟨x, y⟩

/-- A vector. -/
structure Vec where
  x : ℝ
  y : ℝ
  z : ℝ

/-- `_xyz_from_ra_dec` (coordinate_transformations.py 279-280). -/
def xyz (ra dec : ℝ) : Vec := ⟨cos ra * cos dec, sin ra * cos dec, sin dec⟩

/-- `_ra_dec_from_xyz` (coordinate_transformations.py 302-306). -/
def raDec (v : Vec) : ℝ × ℝ :=
  let rad := √(v.x ^ 2 + v.y ^ 2 + v.z ^ 2)
  (atan2 v.y v.x, arcsin (v.z / rad))

/-- The length of the difference of two vectors (coordinate_transformations.py 363), which the trees search by. -/
def chord (a b : Vec) : ℝ := √((b.x - a.x) ^ 2 + (b.y - a.y) ^ 2 + (b.z - a.z) ^ 2)

/-- `_xyz_angular_radius` (coordinate_transformations.py 361-364). -/
def radius3 (r : ℝ) : ℝ := chord ⟨1, 0, 0⟩ (xyz r 0)

/-- `rot_about_z` (coordinate_transformations.py 367-379). -/
def rotZ (t : ℝ) (v : Vec) : Vec := ⟨cos t * v.x - sin t * v.y + 0 * v.z, sin t * v.x + cos t * v.y + 0 * v.z, 0 * v.x + 0 * v.y + 1 * v.z⟩

/-- `rot_about_y` (coordinate_transformations.py 382-394). -/
def rotY (t : ℝ) (v : Vec) : Vec := ⟨cos t * v.x + 0 * v.y + sin t * v.z, 0 * v.x + 1 * v.y + 0 * v.z, -sin t * v.x + 0 * v.y + cos t * v.z⟩

/-- `rot_about_x` (coordinate_transformations.py 397-410). -/
def rotX (t : ℝ) (v : Vec) : Vec := ⟨1 * v.x + 0 * v.y + 0 * v.z, 0 * v.x + cos t * v.y - sin t * v.z, 0 * v.x + sin t * v.y + cos t * v.z⟩

/-- `_angular_separation` (coordinate_transformations.py 509-519). -/
def sep (long1 lat1 long2 lat2 : ℝ) : ℝ :=
  let t1 := sin (lat2 / 2 - lat1 / 2) ^ 2
  let t2 := cos lat1 * cos lat2 * sin (long2 / 2 - long1 / 2) ^ 2
  let s := t1 + t2
  let s := if s < 0 then 0 else s
  2 * arcsin √s

/-- `x % m` for positive `m`. -/
def fmod (x m : ℝ) : ℝ := x - m * ⌊x / m⌋

/-- Greenwich sidereal time before the reduction (coordinate_transformations.py 148). -/
def gmst (mjd : ℝ) : ℝ := 1869711679816973 / 100000000000000 + 24065709854011313 / 1000000000000000 * (mjd - 515445 / 10)

/-- `calc_lmst` (coordinate_transformations.py 122-157), in hours. -/
def lmst (mjd lon : ℝ) : ℝ :=
  let g := fmod (gmst mjd) 24
  let longitude := (lon * (180 / π)) / 15
  let lst := g + longitude
  if lst < 0 then lst + 24 else lst

/-- `np.clip(x, -1, 1)`. -/
def clip (x : ℝ) : ℝ := min (max x (-1)) 1

/-- `_approx_ra_dec2_alt_az` (approx_coord_transforms.py 214-232), `lst` in hours. -/
def altAz (ra dec lat lst : ℝ) : ℝ × ℝ :=
  let lst := lst / 12 * π
  let ha := lst - ra
  let sinalt := clip (sin dec * sin lat + cos dec * cos lat * cos ha)
  let alt := arcsin sinalt
  let cosaz := clip ((sin dec - sin alt * sin lat) / (cos alt * cos lat))
  let az := arccos cosaz
  (alt, if 0 < sin ha then 2 * π - az else az)

/-- The hour angle of a horizontal position (approx_coord_transforms.py 133-136). -/
def hourAngle (alt az lat : ℝ) : ℝ :=
  atan2 (-sin az * cos alt) (-cos az * sin lat * cos alt + sin alt * cos lat)

/-- Bringing a right ascension into range (approx_coord_transforms.py 138-141). -/
def wrapRa (ra : ℝ) : ℝ :=
  let ra := if ra < 0 then ra + 2 * π else ra
  if 2 * π < ra then ra - 2 * π else ra

/-- `_approx_alt_az2_ra_dec` (approx_coord_transforms.py 127-142), `lst` in hours. -/
def fromAltAz (alt az lat lst : ℝ) : ℝ × ℝ :=
  let lst := lst / 12 * π
  let sindec := clip (sin lat * sin alt + cos lat * cos alt * cos az)
  (wrapRa (lst - hourAngle alt az lat), arcsin sindec)

/-- `_approx_altaz2pa` (approx_coord_transforms.py 33-38). -/
def paOf (alt az lat : ℝ) : ℝ :=
  let y := sin (-az) * cos lat
  let x := cos alt * sin lat - sin alt * cos lat * cos (-az)
  fmod (atan2 y x) (2 * π)

/-- The parallactic angle from the hour angle (coordinate_transformations.py 91-94). -/
def paFromHa (ha dec lat : ℝ) : ℝ := atan2 (sin ha) (cos dec * tan lat - sin dec * cos ha)

/-- `bearing` (bearing.py 13-18). -/
def bearing (lon1 lat1 lon2 lat2 : ℝ) : ℝ :=
  let dl := lon2 - lon1
  let X := cos lat2 * sin dl
  let Y := cos lat1 * sin lat2 - sin lat1 * cos lat2 * cos dl
  atan2 X Y

/-- `dest_latlon` (bearing.py 26-31): latitude and longitude. -/
def dest (dist bear lat1 lon1 : ℝ) : ℝ × ℝ :=
  let lat2 := arcsin (sin lat1 * cos dist + cos lat1 * sin dist * cos bear)
  (lat2, lon1 + atan2 (sin bear * sin dist * cos lat1) (cos dist - sin lat1 * sin lat2))

/-- `point_to_line_distance` (bearing.py 34-79) for one point. -/
def lineDist (lon1 lat1 lon2 lat2 lon3 lat3 : ℝ) : ℝ :=
  let bear12 := bearing lon1 lat1 lon2 lat2
  let bear13 := bearing lon1 lat1 lon3 lat3
  let dis13 := sep lon1 lat1 lon3 lat3
  let diff := |bear13 - bear12|
  let diff := if π < diff then 2 * π - diff else diff
  if π / 2 < diff then dis13
  else
    let dxt := arcsin (sin dis13 * sin (bear13 - bear12))
    let dis12 := sep lon1 lat1 lon2 lat2
    let dis14 := arccos (cos dis13 / cos dxt)
    if dis12 < dis14 then sep lon2 lat2 lon3 lat3 else |dxt|

/-- `gnomonic_project_toxy` (projections.py 11-14). -/
def toXY (ra dec ra0 dec0 : ℝ) : ℝ × ℝ :=
  let cosc := sin dec0 * sin dec + cos dec0 * cos dec * cos (ra - ra0)
  (cos dec * sin (ra - ra0) / cosc, (cos dec0 * sin dec - sin dec0 * cos dec * cos (ra - ra0)) / cosc)

/-- `gnomonic_project_tosky` (projections.py 20-23). -/
def toSky (x y ra0 dec0 : ℝ) : ℝ × ℝ :=
  let denom := cos dec0 - y * sin dec0
  (ra0 + atan2 x denom, atan2 (sin dec0 + y * cos dec0) √(x * x + denom * denom))

/-- `rotate` (camera_footprint.py 12-18). -/
def rotate (x y t : ℝ) : ℝ × ℝ := (cos t * x - sin t * y, sin t * x + cos t * y)

/-- `np.round`, halves to even (camera_footprint.py 108-109). -/
def rnd (x : ℝ) : ℤ :=
  if x - ⌊x⌋ < 1 / 2 then ⌊x⌋ else if 1 / 2 < x - ⌊x⌋ then ⌊x⌋ + 1 else if Even ⌊x⌋ then ⌊x⌋ else ⌊x⌋ + 1

/-- The map of the camera (camera_footprint.py 43-54): `n` places, of which place `i` is `x0 + i * scale`, on each axis, and which of
the cells are silicon. The file could hold places that are not evenly spaced; the code reads only the first two. -/
structure Camera where
  n : ℤ
  x0 : ℝ
  scale : ℝ
  image : ℤ → ℤ → Bool
  maxRadius : ℝ

def Camera.place (c : Camera) (i : ℤ) : ℝ := c.x0 + i * c.scale

/-- The map after cutting off what is beyond the maximum radius (camera_footprint.py 56-63). The array is indexed by row, then column;
`full_x` runs along the columns. -/
def Camera.fov (c : Camera) (i j : ℤ) : Prop :=
  c.image i j = true ∧ ¬ c.maxRadius < √(c.place j ^ 2 + c.place i ^ 2)

/-- Whether one object is among the indices returned (camera_footprint.py 89-120), in radians. -/
def Camera.sees (c : Camera) (ra dec ra0 dec0 rot : ℝ) : Prop :=
  let p := toXY ra dec ra0 dec0
  let q := rotate p.1 p.2 rot
  let i := rnd ((q.1 - c.place 0) / c.scale)
  let j := rnd ((q.2 - c.place 0) / c.scale)
  0 ≤ i ∧ i < c.n ∧ 0 ≤ j ∧ j < c.n ∧ c.fov i j

end

end Verif.Sph
