import Mathlib.Data.Real.Basic
import Mathlib.Analysis.SpecialFunctions.Trigonometric.Basic

/-!
Model of the footprint that does not change with time, of the norm of goal maps, of the area
near the ecliptic and of the plain division of an area
(`/repo/rubin_scheduler/scheduler/utils/footprints.py`).

Simplifications.  Maps are lists of values by pixel; nan is `none`.  `none` as a result stands
for a Python exception.
-/

namespace Verif.Cfp

/-- `ConstantFootprint`: for each band its place in the array and the array (517-533). The
returned structured array (534, 538, 541) is a map from bands to values. -/
structure Const where
  bands : List String
  maps : List (List ℚ)
  shown : List (String × List ℚ)
deriving DecidableEq

/-- `arr2struc` (478-485). -/
def toStruct (bands : List String) (maps : List (List ℚ)) : List (String × List ℚ) := bands.zip maps

/-- The constructor (518-534). (A band named twice would raise in numpy; the bands are taken to
be different.) -/
def Const.new (bands : List String) (npix : ℕ) : Const :=
  { bands := bands, maps := bands.map (fun _ => List.replicate npix 0),
    shown := toStruct bands (bands.map (fun _ => List.replicate npix 0)) }

/-- The array with one row changed. -/
def setRow (bands : List String) (band : String) (values : List ℚ) (maps : List (List ℚ)) : List (List ℚ) :=
  List.zipWith (fun b m => if b = band then values else m) bands maps

/-- `set_footprint` (536-538); an unknown band raises. -/
def Const.set (c : Const) (band : String) (values : List ℚ) : Option Const :=
  if band ∈ c.bands then
    some { c with maps := setRow c.bands band values c.maps,
                  shown := toStruct c.bands (setRow c.bands band values c.maps) }
  else none

/-- `__call__` (540-541), at any time. -/
def Const.call (c : Const) (_mjd : ℚ) : List (String × List ℚ) := c.shown

/-- A history of `set_footprint`. -/
def Const.sets (c : Const) (ops : List (String × List ℚ)) : Option Const := ops.foldlM (fun c o => c.set o.1 o.2) c

/-- The members of a combined footprint: those that change with time, which have `mjd_current`,
and those that do not, which lack it. -/
inductive Member where
  | changing (values : ℚ → List ℚ)
  | constant (c : Const)

/-- `fp._update_mjd(mjd, norm=False)` and `fp.current_footprints` (570-571): the comparison with
`self.mjd_current` (466) raises for a constant footprint. -/
def Member.at (m : Member) (mjd : ℚ) : Option (List ℚ) :=
  match m with
  | .changing f => some (f mjd)
  | .constant _ => none

/-- `Footprints.__call__` with `norm=False` (513-514, 565-571). -/
def combined (ms : List Member) (mjd : ℚ) : Option (List ℚ) :=
  ms.foldlM (fun acc m => (m.at mjd).map (fun v => if acc = [] then v else List.zipWith (· + ·) acc v)) []

/-- The sum of the positive values of a map (595-598, 622-625); a comparison with nan is
false. -/
noncomputable def positive (m : List (Option ℝ)) : ℝ :=
  ((m.filterMap id).filter (fun x => decide (0 < x))).sum

/-- `calc_norm_factor` and `calc_norm_factor_array` (578-602, 605-629). No map at all raises
(599); a sum of zero gives infinity and a warning, here `none`. -/
noncomputable def normFactor (pixArea radius : ℝ) (maps : List (List (Option ℝ))) : Option ℝ :=
  if maps = [] then none
  else if (maps.map positive).sum = 0 then none
  else some (radius ^ 2 * Real.pi / pixArea / (maps.map positive).sum)

/-- `ecliptic_area` (36-68) for one pixel; ecliptic latitude and declination and the limits are
in radians. -/
def ecliptic (dist decMax : ℚ) (lat dec mask : ℚ) : ℚ :=
  (if |lat| < dist ∧ dec < decMax then 0 + 1 else 0) * mask

/-- `slice_wfd_indx` (333-347) for an area of `count` pixels. -/
def cuts (nslice count : ℕ) : List ℕ := 0 :: (List.range nslice).map (fun k => count * (k + 1) / nslice)

end Verif.Cfp
