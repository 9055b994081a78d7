import Verif.Model.Sphere
import Verif.Model.Angles
import Verif.Model.Features
import Verif.Model.Detailers

/-!
Model of the detailers that move visits on the sky (`/repo/rubin_scheduler/scheduler/detailers/dither_detailer.py`):
`DitherDetailer` (30-128), `DeltaCoordDitherDetailer` (131-202), `EuclidDitherDetailer` (205-393) and
`ComCamGridDitherDetailer` (636-756), with `thetaphi2xyz`, `xyz2thetaphi`, `rotx`
(`/repo/rubin_scheduler/scheduler/utils/utils.py` 66-96).

Angles are real numbers in radians.  The random generator is a parameter: its numbers by seed and position.  An exception is
`none`; the memory the call leaves behind when it raises is kept.
-/

namespace Verif.Dith

open Sph Real

noncomputable section

/-- A proposed visit; `rest` stands for the columns the dithers do not touch. -/
structure Visit where
  ra : ℝ
  dec : ℝ
  rotSky : ℝ
  rotSkyDesired : ℝ
  rotTel : ℝ
  band : String
  note : String
  rest : ℕ

/-- numpy's assignment of an array to `n` rows: the same length, or one value for all. -/
def spread {α : Type} (n : ℕ) (l : List α) : Option (List α) :=
  if l.length = n then some l else match l with | [a] => some (List.replicate n a) | _ => none

/-! ### DitherDetailer -/

/-- The settings (51-76). -/
structure Cfg where
  maxDither : ℝ
  perNight : Bool
  nInNight : ℕ
  bigInt : ℤ
  rng : ℤ → ℕ → ℝ

/-- The seed of a night (81-84). -/
def seed (c : Cfg) (night : ℤ) : ℤ := if night < 0 then c.bigInt + night else night

/-- How many numbers are drawn at once (86-89). -/
def nGen (c : Cfg) : ℕ := if c.perNight then 1 else c.nInNight

/-- `_new_ang_rad` (78-92): angles and radii. -/
def draws (c : Cfg) (night : ℤ) : List (ℝ × ℝ) :=
  (List.range (nGen c)).map (fun i =>
    (c.rng (seed c night) i * 2 * π, c.maxDither * √(c.rng (seed c night) (nGen c + i))))

/-- The offset for an angle and a radius (103-104, 112-113). -/
def offset (p : ℝ × ℝ) : ℝ × ℝ := (p.2 * cos p.1, p.2 * sin p.1)

/-- The memory: the night and the numbers drawn for it, the offsets last used, and the feature that counts the visits
of the night. -/
structure State where
  night : Option ℤ
  table : List (ℝ × ℝ)
  offsets : List (ℝ × ℝ)
  count : Feat.NObsCount

def State.init : State := ⟨none, [], [], Feat.NObsCount.init⟩

/-- `l[i : i + n]`. -/
def slice {α : Type} (l : List α) (i n : ℕ) : List α := (l.drop i).take n

/-- A new night draws new numbers. -/
def fresh (c : Cfg) (s : State) (night : ℤ) : State :=
  if s.night = some night then s else { s with night := some night, table := draws c night }

/-- `_generate_offsets` (94-115). -/
def generate (c : Cfg) (s : State) (n : ℕ) (night : ℤ) : State :=
  if c.perNight then
    if s.night = some night then s else { fresh c s night with offsets := (draws c night).map offset }
  else
    { fresh c s night with offsets := (slice (fresh c s night).table s.count.count n).map offset }

/-- One visit moved by an offset (123-126). -/
def moved (o : Visit) (p : ℝ × ℝ) : Visit :=
  { o with ra := (toSky p.1 p.2 o.ra o.dec).1, dec := (toSky p.1 p.2 o.ra o.dec).2 }

/-- `__call__` (117-128). -/
def call (c : Cfg) (s : State) (os : List Visit) (night : ℤ) : State × Option (List Visit) :=
  if os.isEmpty then (s, some [])
  else
    let s := generate c s os.length night
    (s, (spread os.length s.offsets).map (fun off => List.zipWith moved os off))

/-- `add_observation`: to the feature `NObsCount(per_night=True)` (65). -/
def report (s : State) (v : Feat.Vis) : State := { s with count := s.count.one ⟨none, none, true⟩ v }

/-- `add_observations_array`. -/
def reportAll (s : State) (vs : List Feat.Vis) : State := { s with count := s.count.bulk ⟨none, none, true⟩ vs }

/-! ### DeltaCoordDitherDetailer -/

/-- `thetaphi2xyz` (utils.py 66-79). -/
def thetaphi2xyz (theta phi : ℝ) : Vec := ⟨sin phi * cos theta, sin phi * sin theta, cos phi⟩

/-- `xyz2thetaphi` (utils.py 82-86). -/
def xyz2thetaphi (v : Vec) : ℝ × ℝ := (atan2 v.y v.x, arccos v.z)

/-- `rotx` (utils.py 89-96). -/
def rotx (t : ℝ) (v : Vec) : Vec := ⟨v.x, v.y * cos t + v.z * sin t, -v.y * sin t + v.z * cos t⟩

/-- The new position for a shift (176-193). -/
def shifted (dra ddec ra dec : ℝ) : ℝ × ℝ :=
  let v := thetaphi2xyz (dra + π / 2) (ddec + π / 2)
  let w := rotx dec v
  let tp := xyz2thetaphi w
  Ang.wrapRaDec (2 * π) (tp.1 - π / 2 + ra) (tp.2 - π / 2)

/-- `__call__` (168-202); the constructor has made the lists of equal length. An empty array raises in `np.concatenate`. -/
def deltaCall (deltas : List (ℝ × ℝ)) (rots : Option (List ℝ)) (os : List Visit) : Option (List Visit) :=
  if os.isEmpty then none
  else some (os.flatMap (fun o => deltas.zipIdx.map (fun d =>
    let p := shifted d.1.1 d.1.2 o.ra o.dec
    { o with
      ra := p.1
      dec := p.2
      rotSkyDesired := match rots with | none => o.rotSkyDesired | some l => o.rotSkyDesired + l.getD d.2 0 })))

/-! ### EuclidDitherDetailer -/

/-- The settings (231-282). -/
structure Euclid where
  dirLo : ℝ
  dirHi : ℝ
  perpLo : ℝ
  perpHi : ℝ
  perNight : Bool
  nInNight : ℕ
  raA : ℝ
  decA : ℝ
  raB : ℝ
  decB : ℝ
  rng : ℕ → ℕ → ℝ

/-- Shifts along and across, for the two fields. -/
structure Mags where
  dir1 : List ℝ
  perp1 : List ℝ
  dir2 : List ℝ
  perp2 : List ℝ

/-- `rng.uniform(low, high, size)`: the `n` numbers from position `k` on. -/
def uniform (u : ℕ → ℝ) (lo hi : ℝ) (k n : ℕ) : List ℝ := (List.range n).map (fun i => lo + (hi - lo) * u (k + i))

/-- `_new_ang_rad` (284-315). -/
def euclidDraws (c : Euclid) (night : ℤ) : Mags :=
  let u := c.rng night.natAbs
  let n := if c.perNight then 1 else c.nInNight
  ⟨uniform u c.dirLo c.dirHi 0 n, uniform u c.perpLo c.perpHi n n,
    uniform u c.dirLo c.dirHi (2 * n) n, uniform u c.perpLo c.perpHi (3 * n) n⟩

structure EState where
  night : Option ℤ
  mags : Mags
  count : Feat.NObsCount

def EState.init : EState := ⟨none, ⟨[], [], [], []⟩, Feat.NObsCount.init⟩

/-- A field moved along a bearing and across it (332-340, 350-358): right ascension and declination. -/
def movedField (ra dec bear d p : ℝ) : ℝ × ℝ :=
  let q := dest d bear dec ra
  let r := dest p (bear + π / 2) q.1 q.2
  (r.2, r.1)

/-- The numbers of a call (324-329, 343-348). -/
def pick (c : Euclid) (count n : ℕ) (l : List ℝ) : List ℝ := if c.perNight then l else slice l count n

/-- `_generate_offsets` (317-365). -/
def euclidGenerate (c : Euclid) (s : EState) (n : ℕ) (night : ℤ) : EState × List (ℝ × ℝ) × List (ℝ × ℝ) :=
  let s := if s.night = some night then s else { s with night := some night, mags := euclidDraws c night }
  let f := pick c s.count.count n
  (s, List.zipWith (movedField c.raA c.decA (bearing c.raA c.decA c.raB c.decB)) (f s.mags.dir1) (f s.mags.perp1),
    List.zipWith (movedField c.raB c.decB (bearing c.raB c.decB c.raA c.decA)) (f s.mags.dir2) (f s.mags.perp2))

/-- One visit put at the place of its field; the second field is written last (380-391). -/
def placed (o : Visit) (a b : ℝ × ℝ) : Visit :=
  if Feat.isIn "EDFS_b" o.note then { o with ra := b.1, dec := b.2 }
  else if Feat.isIn "EDFS_a" o.note then { o with ra := a.1, dec := a.2 } else o

/-- `__call__` (367-393). A mask and an array of different lengths raise. -/
def euclidCall (c : Euclid) (s : EState) (os : List Visit) (night : ℤ) : EState × Option (List Visit) :=
  if os.isEmpty then (s, some [])
  else
    let (s, as, bs) := euclidGenerate c s os.length night
    if os.any (fun o => !(Feat.isIn "EDFS_a" o.note) && !(Feat.isIn "EDFS_b" o.note)) then (s, none)
    else if c.perNight then
      match as, bs with
      | [a], [b] => (s, some (os.map (fun o => placed o a b)))
      | _, _ => (s, none)
    else if as.length = os.length ∧ bs.length = os.length then
      (s, some (List.zipWith (fun o ab => placed o ab.1 ab.2) os (as.zip bs)))
    else (s, none)

/-! ### ComCamGridDitherDetailer -/

/-- The settings (653-659) and where the telescope is. -/
structure ComCam where
  rotTelDesired : ℝ
  scale : ℝ
  dither : ℝ
  lat : ℝ

/-- The grid (668-669). -/
def grid (c : ComCam) (k : ℕ) : ℝ × ℝ :=
  ([(-1 * c.scale, -1 * c.scale), (-1 * c.scale, c.scale), (c.scale, c.scale), (c.scale, -1 * c.scale)] : List (ℝ × ℝ)).getD k (0, 0)

/-- The pattern within the grid (675-692). -/
def pattern (c : ComCam) (k : ℕ) : ℝ × ℝ :=
  ([(0, 0), (-1 / 2 * c.dither, -3 / 4 * c.dither), (-5 / 4 * c.dither, 3 / 2 * c.dither), (3 / 2 * c.dither, 5 / 4 * c.dither),
    (3 / 4 * c.dither, -1 / 2 * c.dither)] : List (ℝ × ℝ)).getD k (0, 0)

/-- The offset of the `k`-th visit since the band changed (670-672, 693-694, 708-710). -/
def gridOffset (c : ComCam) (rotSky : ℝ) (k : ℕ) : ℝ × ℝ :=
  let g := rotate (grid c (k % 4)).1 (grid c (k % 4)).2 (-1 * rotSky)
  let d := rotate (pattern c (k / 4 % 5)).1 (pattern c (k / 4 % 5)).2 (-1 * rotSky)
  (g.1 + d.1, g.2 + d.2)

/-- The counter since the band changed, visit by visit (696-711). -/
def sinceChange (bands : List String) : List ℕ :=
  ((List.range bands.length).foldl (fun (a : List ℕ × ℕ) ii =>
    let k := if ii ∈ Det.changes bands then 0 else a.2
    (a.1 ++ [k], k + 1)) ([], 0)).1

/-- The parallactic angle of a position (approx_coord_transforms.py 233-236). -/
def paAt (lat lst ra dec : ℝ) : ℝ := paOf (altAz ra dec lat lst).1 (altAz ra dec lat lst).2 lat

/-- `__call__` (715-756) at the sidereal time `lst` (hours). -/
def comcamCall (c : ComCam) (lst : ℝ) (os : List Visit) : List Visit :=
  match os with
  | [] => []
  | o0 :: _ =>
    let sky := Ang.tel2sky (2 * π) .comcam c.rotTelDesired (paAt c.lat lst o0.ra o0.dec)
    List.zipWith (fun o k =>
      let off := gridOffset c sky k
      let q := toSky off.1 off.2 o.ra o.dec
      let p := Ang.wrapRaDec (2 * π) q.1 q.2
      { o with ra := p.1, dec := p.2, rotSky := sky, rotTel := Ang.sky2tel (2 * π) .comcam sky (paAt c.lat lst p.1 p.2) })
      os (sinceChange (os.map Visit.band))

end

end Verif.Dith
