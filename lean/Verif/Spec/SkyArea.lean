import Verif.Model.SkyArea

/-!
Specification for the survey maps: the regions of the sky in the order in which they count.
-/

namespace Verif

open Sky Sph

/-- A region: its name, its weights and its pixels. -/
structure SkyRegion where
  name : String
  ws : Weights
  has : Pix → Prop

/-- Nearer to a place than a radius in degrees. -/
def NearPlace (p : Pix) (ra dec radius : ℝ) : Prop := sep (rad p.ra) (rad p.dec) (rad ra) (rad dec) < rad radius

/-- A longitude `t` degrees after the first, out of `L` degrees to the second. -/
def Along (l1 l2 lon L t : ℝ) : Prop :=
  0 < L ∧ L < 360 ∧ (∃ k : ℤ, l2 = l1 + L + 360 * k) ∧ 0 ≤ t ∧ t < L ∧ ∃ k : ℤ, lon = l1 + t + 360 * k

/-- Within the bulge: along the plane between two longitudes, with a width that falls from the middle to the ends, or below
the plane with the greatest width. -/
def InBulge (c : Cfg) (p : Pix) : Prop :=
  |p.galLat| ≤ c.galLatWidthMax ∧ ∃ L t, Along c.galLong1 c.galLong2 p.galLon L t ∧
    (|p.galLat| < c.centerWidth - (c.centerWidth - c.endWidth) * (|t - L / 2| / (L / 2)) ∨ (p.galLat ≤ 0 ∧ |p.galLat| < c.galLatWidthMax))

/-- In one of the two clouds. -/
def InClouds (c : Cfg) (p : Pix) : Prop := NearPlace p c.lmcRa c.lmcDec c.lmcRadius ∨ NearPlace p c.smcRa c.smcDec c.smcRadius

/-- In the clouds, or between them: in right ascension between the centres, in declination between pixels of the clouds. -/
def InBridge (c : Cfg) (ps : List Pix) (p : Pix) : Prop :=
  InClouds c p ∨ (c.smcRa < p.ra ∧ p.ra < c.lmcRa ∧ (∃ q ∈ ps, InClouds c q ∧ q.dec < p.dec) ∧ ∃ q ∈ ps, InClouds c q ∧ p.dec < q.dec)

/-- The regions that follow the bulge, except the last two. -/
def nesRegion (c : Cfg) (ws : Weights) : SkyRegion :=
  ⟨"nes", ws, fun p => (c.eclatMin < p.eclLat ∨ c.eclipDecMin < p.dec) ∧ p.eclLat < c.eclatMax ∧ c.nesGlonLimit ≤ p.galLon ∧ p.galLon ≤ 360 - c.nesGlonLimit⟩

def lowdustRegion (c : Cfg) (ws : Weights) : SkyRegion :=
  ⟨"lowdust", ws, fun p => p.lowDust = true ∧ c.lowDustDecMin < p.dec ∧ p.dec < c.lowDustDecMax ∧
    (0 < c.adjustHalves → p.galLat < 0 → p.dec ≤ c.lowDustDecMax - c.adjustHalves)⟩

def dustyRegion (c : Cfg) (ws : Weights) : SkyRegion :=
  ⟨"dusty_plane", ws, fun p => p.lowDust = false ∧ c.dustyDecMin < p.dec ∧ p.dec < c.dustyDecMax⟩

def scpRegion (c : Cfg) (ws : Weights) : SkyRegion := ⟨"scp", ws, fun p => p.dec < c.scpDecMax⟩

def virgoRegion (c : Cfg) (ws : Weights) : SkyRegion := ⟨"virgo", ws, fun p => NearPlace p c.virgoRa c.virgoDec c.virgoRadius⟩

/-- The contour is given with right ascensions from -180 to 180. -/
def euclidRegion (c : Cfg) (ws : Weights) : SkyRegion :=
  ⟨"euclid_overlap", ws, fun p => (p.ra ≤ 180 ∧ c.contour p.ra p.dec) ∨ (180 < p.ra ∧ c.contour (p.ra - 360) p.dec)⟩

def bulgyRegion (pts : List (ℝ × ℝ × ℝ)) (ws : Weights) : SkyRegion := ⟨"bulgy", ws, fun p => ∃ x ∈ pts, NearPlace p x.1 x.2.1 x.2.2⟩

/-- The bulge of a generator. -/
def bulgeRegions (g : Gen) (c : Cfg) (ws : Weights) : List SkyRegion :=
  match g with
  | .base => [⟨"bulge", ws, InBulge c⟩]
  | .galplane => [bulgyRegion points ws]
  | .euclid => [bulgyRegion points ws]
  | .phase3 => [bulgyRegion points3 ws]

/-- The contour of a generator. -/
def euclidRegions (g : Gen) (c : Cfg) (ws : Weights) : List SkyRegion :=
  match g with
  | .base => []
  | .galplane => []
  | .euclid => [euclidRegion c ws]
  | .phase3 => [euclidRegion c ws]

/-- The regions of a generator in the order in which they count. -/
def skyRegions (g : Gen) (c : Cfg) (r : Ratios) (ps : List Pix) : List SkyRegion :=
  [⟨"LMC_SMC", r.clouds, InBridge c ps⟩, lowdustRegion c r.lowdust, virgoRegion c r.virgo] ++ bulgeRegions g c r.bulge ++
    [nesRegion c r.nes, dustyRegion c r.dusty] ++ euclidRegions g c r.euclid ++ [scpRegion c r.scp]

/-- The first region with a pixel. -/
def FirstRegion (rs : List SkyRegion) (p : Pix) (r : SkyRegion) : Prop :=
  ∃ pre post, rs = pre ++ r :: post ∧ r.has p ∧ ∀ q ∈ pre, ¬ q.has p

/-- A pixel has the name of a region and its weights; bands the region does not give have no weight. -/
def CellOf (r : SkyRegion) (c : Cell) : Prop :=
  c.label = r.name ∧ (∀ e ∈ r.ws, c.w e.1 = e.2) ∧ ∀ b, (∀ e ∈ r.ws, e.1 ≠ b) → c.w b = 0

/-- A dictionary: each band once. -/
def IsDict (ws : Weights) : Prop := (ws.map (·.1)).Nodup

end Verif
