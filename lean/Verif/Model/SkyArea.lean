import Verif.Model.Sphere

/-!
Model of the generators of survey maps (`/repo/rubin_scheduler/scheduler/utils/sky_area.py`). Line numbers refer to that file.
Numbers are real numbers; exceptions and divisions by zero are `none`. The positions of the pixels, the map of little dust
(after smoothing) and the contour read from a file are parameters.
-/

namespace Verif.Sky

open Real Sph

noncomputable section

/-- A pixel of the map: positions in degrees (252-258), and the map of little dust (260-265). -/
structure Pix where
  ra : ℝ
  dec : ℝ
  galLon : ℝ
  galLat : ℝ
  eclLat : ℝ
  lowDust : Bool

/-- The arguments of the constructors (184-212). -/
structure Cfg where
  lmcRa : ℝ := 80.893860
  lmcDec : ℝ := -69.756126
  lmcRadius : ℝ := 8
  smcRa : ℝ := 13.186588
  smcDec : ℝ := -72.828599
  smcRadius : ℝ := 5
  scpDecMax : ℝ := -60
  galLong1 : ℝ := 335
  galLong2 : ℝ := 25
  galLatWidthMax : ℝ := 23
  centerWidth : ℝ := 12
  endWidth : ℝ := 4
  lowDustDecMin : ℝ := -70
  lowDustDecMax : ℝ := 15
  adjustHalves : ℝ := 12
  dustyDecMin : ℝ := -90
  dustyDecMax : ℝ := 15
  eclatMin : ℝ := -10
  eclatMax : ℝ := 10
  eclipDecMin : ℝ := 0
  nesGlonLimit : ℝ := 45
  virgoRa : ℝ := 186.75
  virgoDec : ℝ := 12.717
  virgoRadius : ℝ := 8.75
  /-- `polygon.contains` for the contour (979-987). -/
  contour : ℝ → ℝ → Prop := fun _ _ => False

/-- A dictionary of weights. -/
abbrev Weights := List (String × ℝ)

/-- The names of the columns (621). -/
def bands : List String := ["u", "g", "r", "i", "z", "y"]

/-- A pixel of the result: its label and its weights. -/
structure Cell where
  label : String
  w : String → ℝ

/-- `np.radians`. -/
def rad (x : ℝ) : ℝ := x * (π / 180)

/-- `np.degrees`. -/
def deg (x : ℝ) : ℝ := x * (180 / π)

/-- The loop that sets the weights of a pixel (384-385 and elsewhere). -/
def setAll (w : String → ℝ) (ws : Weights) : String → ℝ := ws.foldl (fun w e => fun b => if b = e.1 then e.2 else w b) w

open Classical in
/-- The pixels of a region without a label get the label, cut to 20 characters, and the weights (381-385 and elsewhere). A band that is no
column raises. -/
def addRegion (label : String) (ws : Weights) (sel : Pix → Prop) (s : List (Pix × Cell)) : Option (List (Pix × Cell)) :=
  if ∀ e ∈ ws, e.1 ∈ bands then
    some (s.map fun x => if sel x.1 ∧ x.2.label = "" then (x.1, ⟨String.ofList (label.toList.take 20), setAll x.2.w ws⟩) else x)
  else none

/-- `_set_circular_region` (280-292). -/
def circle (ra dec radius : ℝ) (p : Pix) : Prop := sep (rad ra) (rad dec) (rad p.ra) (rad p.dec) < rad radius

open Classical in
/-- `_set_bulge_diamond` (294-337). -/
def diamond (centerWidth endWidth long1 long2 : ℝ) (p : Pix) : Prop :=
  let bulge := |p.galLat| < centerWidth
  let gpLength := fmod (long2 - long1) 360
  if 0 < gpLength then
    let bulge := bulge ∧ fmod (p.galLon - long1) 360 < gpLength
    let halfWidth := gpLength / 2
    let slope := (centerWidth - endWidth) / halfWidth
    let gpCenter := fmod (long1 + halfWidth) 360
    let gpDist := fmod (p.galLon - gpCenter) 360
    let gpDist := |if 180 < gpDist then fmod (180 - gpDist) 180 else gpDist|
    let latLimit := |centerWidth - slope * gpDist|
    bulge ∧ |p.galLat| < latLimit
  else bulge

open Classical in
/-- `_set_bulge_rectangle` (339-366). -/
def rectangle (latWidth long1 long2 : ℝ) (p : Pix) : Prop :=
  let gpLength := fmod (long2 - long1) 360
  if 0 < gpLength then |p.galLat| < latWidth ∧ fmod (p.galLon - long1) 360 < gpLength else |p.galLat| < latWidth

/-- The region of `add_virgo_cluster` (380). -/
def virgo (c : Cfg) : Pix → Prop := circle c.virgoRa c.virgoDec c.virgoRadius

/-- The circles of `add_magellanic_clouds` (404-406). -/
def clouds (c : Cfg) (p : Pix) : Prop := circle c.lmcRa c.lmcDec c.lmcRadius p ∨ circle c.smcRa c.smcDec c.smcRadius p

/-- The region of `add_magellanic_clouds` (402-415): the least and the greatest of an empty list raise. -/
def cloudsBridge (c : Cfg) (ps : List Pix) : Option (Pix → Prop) := by
  classical
  exact
  let decs := (ps.filter (fun p => clouds c p)).map (·.dec)
  match decs with
  | [] => none
  | d :: ds =>
    let decMin := ds.foldl min d
    let decMax := ds.foldl max d
    some fun p => clouds c p ∨ ((c.smcRa < p.ra ∧ p.ra < c.lmcRa) ∧ (decMin < p.dec ∧ p.dec < decMax))

/-- The region of `add_scp` (435). -/
def scp (c : Cfg) (p : Pix) : Prop := p.dec < c.scpDecMax

/-- The region of `add_bulge` (453-464). -/
def bulge (c : Cfg) (p : Pix) : Prop :=
  (diamond c.centerWidth c.endWidth c.galLong1 c.galLong2 p ∨ (rectangle c.galLatWidthMax c.galLong1 c.galLong2 p ∧ ¬ 0 < p.galLat)) ∧
    ¬ c.galLatWidthMax < |p.galLat|

/-- The region of `add_lowdust_wfd` (481-496). -/
def lowdust (c : Cfg) (p : Pix) : Prop :=
  (c.lowDustDecMin < p.dec ∧ p.dec < c.lowDustDecMax ∧ p.lowDust = true) ∧
    ¬ (0 < c.adjustHalves ∧ p.galLat < 0 ∧ c.lowDustDecMax - c.adjustHalves < p.dec)

/-- The region of `add_dusty_plane` (512-516). -/
def dusty (c : Cfg) (p : Pix) : Prop := c.dustyDecMin < p.dec ∧ p.dec < c.dustyDecMax ∧ p.lowDust = false

/-- The region of `add_nes` (534-542). -/
def nes (c : Cfg) (p : Pix) : Prop :=
  ((c.eclatMin < p.eclLat ∨ c.eclipDecMin < p.dec) ∧ p.eclLat < c.eclatMax) ∧ ¬ p.galLon < c.nesGlonLimit ∧ ¬ 360 - c.nesGlonLimit < p.galLon

open Classical in
/-- The region of `add_euclid_overlap` (983-987). -/
def euclid (c : Cfg) (p : Pix) : Prop := c.contour (if 180 < p.ra then p.ra - 360 else p.ra) p.dec

/-- A circle of `add_bulgy` (804): the distance is in degrees. -/
def bulgyCircle (pt : ℝ × ℝ × ℝ) (p : Pix) : Prop := deg (sep (rad p.ra) (rad p.dec) (rad pt.1) (rad pt.2.1)) < pt.2.2

/-- The circles of `SkyAreaGeneratorGalplane.add_bulgy` (788-801). -/
def points : List (ℝ × ℝ × ℝ) :=
  [(100.90, 9.55, 3), (84.92, -5.71, 3), (288.84, 9.18, 3.8), (266.3, -29, 14.5), (279, -13, 10), (256, -45, 5), (155, -56.5, 6.5), (172, -62, 5),
    (190, -65, 5), (210, -64, 5), (242, -58, 5), (225, -60, 6.5)]

/-- The circles of `Phase3AreaMap.add_bulgy` (1190-1202). -/
def points3 : List (ℝ × ℝ × ℝ) :=
  [(100.90, 9.55, 3), (84.92, -5.71, 3), (266.3, -29, 17), (279, -13, 10), (256, -45, 11), (155, -56.5, 6.5), (172, -62, 5),
    (190, -65, 5), (210, -64, 5), (242, -58, 6.5), (225, -60, 6.5)]

/-- The dictionaries given to `return_maps`. -/
structure Ratios where
  clouds : Weights
  lowdust : Weights
  virgo : Weights
  bulge : Weights
  nes : Weights
  dusty : Weights
  euclid : Weights
  scp : Weights

/-- The generators. -/
inductive Gen
  | base
  | galplane
  | euclid
  | phase3
deriving DecidableEq

/-- The state before the first region (618-622). -/
def blank (ps : List Pix) : List (Pix × Cell) := ps.map fun p => (p, ⟨"", fun _ => 0⟩)

/-- The loop of `add_bulgy` (802-809, 1203-1210). -/
def addBulgy (pts : List (ℝ × ℝ × ℝ)) (ws : Weights) (s : List (Pix × Cell)) : Option (List (Pix × Cell)) :=
  pts.foldl (fun s pt => s.bind fun s => addRegion "bulgy" ws (bulgyCircle pt) s) (some s)

/-- `add_bulge` or `add_bulgy` (630, 885, 1079, 1250). -/
def addBulge (g : Gen) (c : Cfg) (ws : Weights) (s : List (Pix × Cell)) : Option (List (Pix × Cell)) :=
  match g with
  | .base => addRegion "bulge" ws (bulge c) s
  | .galplane => addBulgy points ws s
  | .euclid => addBulgy points ws s
  | .phase3 => addBulgy points3 ws s

/-- `add_euclid_overlap`, for the generators that have it (1082, 1253). -/
def addEuclid (g : Gen) (c : Cfg) (ws : Weights) (s : List (Pix × Cell)) : Option (List (Pix × Cell)) :=
  match g with
  | .base => some s
  | .galplane => some s
  | .euclid => addRegion "euclid_overlap" ws (euclid c) s
  | .phase3 => addRegion "euclid_overlap" ws (euclid c) s

/-- `return_maps` (616-635, 878-890, 1067-1085, 1238-1256). -/
def returnMaps (g : Gen) (c : Cfg) (r : Ratios) (ps : List Pix) : Option (List (Pix × Cell)) :=
  match cloudsBridge c ps with
  | none => none
  | some cb =>
    ((((((addRegion "LMC_SMC" r.clouds cb (blank ps)).bind (addRegion "lowdust" r.lowdust (lowdust c))).bind
      (addRegion "virgo" r.virgo (virgo c))).bind (addBulge g c r.bulge)).bind (addRegion "nes" r.nes (nes c))).bind
      (addRegion "dusty_plane" r.dusty (dusty c))).bind (addEuclid g c r.euclid) |>.bind (addRegion "scp" r.scp (scp c))

/-! ### Numbers of visits -/

/-- The weights of a pixel added up (667, 698). -/
def total (c : Cell) : ℝ := (bands.map c.w).sum

/-- `estimate_visits` (637-677): for each pixel the visits in each band, and over all bands. Without any weight the numbers are `nan`. -/
def estimateVisits (m : List Cell) (nvis fovArea pixArea : ℝ) : Option (List ((String → ℝ) × ℝ)) :=
  let norm := (m.map total).sum
  let pixPerVisit := fovArea / pixArea
  if norm = 0 then none
  else some (m.map fun c => (fun b => c.w b / norm * pixPerVisit * nvis, total c / norm * pixPerVisit * nvis))

/-- The labels in the map, each once (699). The order is that of first appearance, not the sorted one. -/
def labels (m : List Cell) : List String := (m.map (·.label)).dedup

/-- The sum of a label (704). -/
def labelSum (m : List Cell) (l : String) : ℝ := ((m.filter (fun c => c.label = l)).map total).sum

/-- `estimate_visits_per_label` (679-709). -/
def visitsPerLabel (m : List Cell) (nvis : ℝ) : Option (List (String × ℝ)) :=
  let norm := ((labels m).map (labelSum m)).sum
  if norm = 0 then none else some ((labels m).map fun l => (l, labelSum m l / norm * nvis))

open Classical in
/-- The sum of a map over the pixels above zero (119-120); `none` is `nan`. -/
def goodSum (m : List (Option ℝ)) : ℝ := (m.filterMap (fun x => x.bind fun v => if 0 < v then some v else none)).sum

/-- `band_count_ratios` (107-124). -/
def bandRatios (ms : List (String × List (Option ℝ))) : Option (List (String × ℝ)) :=
  let norm := (ms.map (fun m => goodSum m.2)).sum
  if norm = 0 then none else some (ms.map fun m => (m.1, goodSum m.2 / norm))

/-- The greatest altitude of a declination (91-93), in radians. -/
def elevMax (dec latitude : ℝ) : ℝ := π / 2 - |dec - latitude|

/-- The map of `generate_all_sky` (91-94) at a pixel: zero, and `mask` where `elevation_limit` (degrees) is not reached. The comparison of
`IntRounded` is taken to be exact, which it is when no pixel comes within its tolerance of the limit (`cmp_clear` of Lemmas/Clear.lean). -/
def allSky (dec latitude limit mask : ℝ) : ℝ :=
  if limit * (π / 180) ≤ elevMax dec latitude then 0 else mask

end

end Verif.Sky
