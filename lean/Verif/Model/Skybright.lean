import Verif.Model.XReal
import Verif.Model.Angles
import Verif.Model.BandSched

/-!
Model of the pre-computed sky brightness
(`/repo/rubin_scheduler/skybrightness_pre/sky_model_pre.py` 30-108, 197-454): loading a stretch of
a file of maps, interpolating between maps, and interpolating angles.

Brightnesses are `XReal`, times rationals.  The altitude of the sun and the altitudes of the pixels
(astropy) are inputs.  All the bands are treated alike, so the model has one map per time, a function
of the pixel.  Warnings and memory handling are left out.
-/

namespace Verif.Skb

open Verif.Ang
open Verif.Bands (searchLeft)

/-- `short_angle_dist` (30-36), `T` the full turn. -/
def shortDist (T a0 a1 : ℚ) : ℚ :=
  let da := md T (a1 - a0)
  md T (2 * da) - da

/-- `interp_angle` (39-78) for one point: `xp`, `ang` the sampled points and angles. `none` where the code
raises (no samples). `degrees` only changes the unit. -/
def interpAngle (T : ℚ) (xp ang : List ℚ) (x : ℚ) : Option ℚ :=
  let l0 : ℤ := (searchLeft xp x : ℤ) - 1
  let r0 := l0 + 1
  let r := if (xp.length : ℤ) ≤ r0 then r0 - 1 else r0
  let l := if l0 < 0 then l0 + 1 else l0
  match xp[l.toNat]?, xp[r.toNat]?, ang[l.toNat]?, ang[r.toNat]? with
  | some xl, some xr, some al, some ar =>
    let w := if xr - xl = 0 then 0 else (x - xl) / (xr - xl)
    some (md T (al + shortDist T al ar * w))
  | _, _, _, _ => none

/-- A file: the dates in its name, the times of its maps (sorted), the largest step between
maps of one night, and the maps. -/
structure File where
  left : ℚ
  right : ℚ
  mjds : List ℚ
  stepMax : ℚ
  sb : ℕ → ℕ → XReal

/-- What is in memory: a file and the range of its maps `[a, b)`, and the first and last time of
the range (`loaded_range`). -/
structure Loaded where
  file : File
  a : ℕ
  b : ℕ
  lo : ℚ
  hi : ℚ

/-- Exceptions. -/
inductive Err where
  /-- no file for the time (222-226) -/
  | noFile
  /-- `np.min` of no times (288), or an index error -/
  | noTimes
  /-- the assertions of 254, 374, 378 -/
  | far
deriving DecidableEq

/-- `_best_matching_file` (219-232): the last of the files whose name covers the time. -/
def bestFile (files : List File) (t : ℚ) : Option File :=
  (files.filter (fun f => decide (f.left ≤ t) && decide (t ≤ f.right))).getLast?

/-- Largest and smallest time of a file, which is sorted. -/
def lastTime (f : File) : ℚ := f.mjds.getLast?.getD 0
def firstTime (f : File) : ℚ := f.mjds.head?.getD 0

/-- The stretch to load (287-292): from the map before the first one at or after `t`, up to (in
`loaded_range`) the last one within `len` days; the last one itself is left out by the slice. -/
def stretch (f : File) (t len : ℚ) : Except Err Loaded :=
  let idx := (List.range f.mjds.length).filter (fun i => decide (t ≤ f.mjds.getD i 0) && decide (f.mjds.getD i 0 ≤ t + len))
  match idx.head?, idx.getLast? with
  | some i, some j =>
    let a := i - 1
    .ok ⟨f, a, j, f.mjds.getD a 0, f.mjds.getD j 0⟩
  | _, _ => .error .noTimes

/-- The night a time belongs to, at 0.2 days past midnight (249): `np.round` after a step up, so halves
go up. -/
def dayobsTime (t : ℚ) : ℚ := (⌊t + 1 / 2⌋ : ℚ) + 1 / 5

/-- `_load_data` (197-304) without an explicit file name. -/
def load (files : List File) (t len : ℚ) : Except Err Loaded :=
  match bestFile files t with
  | none => .error .noFile
  | some f =>
    if lastTime f < t then
      match bestFile files (dayobsTime t) with
      | none => .error .noFile
      | some g =>
        if t < firstTime g then
          if firstTime g - t < 1 then stretch g (firstTime g) len else .error .far
        else stretch g t len
    else stretch f t len

/-- The loaded times (292). -/
def Loaded.mjds (s : Loaded) : List ℚ := (s.file.mjds.take s.b).drop s.a

/-- The left and right map and the baseline (356-381). -/
def bracket (ms : List ℚ) (t : ℚ) : Except Err (ℕ × ℕ × ℚ) :=
  let k := searchLeft ms t
  if ms.length ≤ k then
    match ms.getLast? with
    | none => .error .noTimes
    | some m => if t - m < 3 / 4 then .ok (k - 1, k - 1, 1) else .error .far
  else if k = 0 then
    if ms.getD 0 0 - t < 3 / 4 then .ok (0, 0, 1) else .error .far
  else .ok (k - 1, k, ms.getD k 0 - ms.getD (k - 1) 0)

/-- `simple_daytime` (81-108), altitudes in degrees. -/
def daytime (alt : ℚ) : XReal := if 20 < alt then .fin 2 else .nan

/-- Replacing infinite and unseen values by the bad value (412-413). -/
def clean (unseen bad : ℚ) (v : XReal) : XReal :=
  match v with
  | .pinf => .fin bad
  | .ninf => .fin bad
  | .fin q => if q = unseen then .fin bad else .fin q
  | .nan => .nan

/-- The nearer of two maps, the earlier if equally near (407-408). -/
def nearer (ms : List ℚ) (l r : ℕ) (t : ℚ) : ℕ :=
  if |ms.getD l 0 - t| ≤ |ms.getD r 0 - t| then l else r

/-- The sun and the pixels at a time: is the sun above the limit, and the altitudes of pixels. -/
structure Sun where
  high : ℚ → Bool
  alt : ℚ → ℕ → ℚ

/-- The healpy value for a masked pixel. -/
def unseenVal : ℚ := -1637500000000000000000000000000

/-- `return_mags` for one pixel once the maps are loaded (356-420). -/
def value (S : Sun) (s : Loaded) (bad : ℚ) (t : ℚ) (pix : ℕ) : Except Err XReal :=
  match bracket s.mjds t with
  | .error e => .error e
  | .ok (l, r, base) =>
    if s.file.stepMax + 1 / 1000000 < base then
      if S.high t then .ok (daytime (S.alt t pix))
      else .ok (clean unseenVal bad (s.file.sb (s.a + nearer s.mjds l r t) pix))
    else
      let w := (t - s.mjds.getD l 0) / base
      .ok (XReal.add (XReal.smul (1 - w) (s.file.sb (s.a + l) pix)) (XReal.smul w (s.file.sb (s.a + r) pix)))

/-- The maps loaded when a time is asked for (353-354): those in memory if the time is in
`loaded_range`, else newly loaded ones. -/
def ensure (files : List File) (len : ℚ) (s : Loaded) (t : ℚ) : Except Err Loaded :=
  if t < s.lo ∨ s.hi < t then load files t len else .ok s

/-- `return_mags` for one pixel, without extrapolation (306-420). -/
def mags (files : List File) (S : Sun) (len : ℚ) (s : Loaded) (bad : ℚ) (t : ℚ) (pix : ℕ) :
    Except Err (Loaded × XReal) :=
  match ensure files len s t with
  | .error e => .error e
  | .ok s' =>
    match value S s' bad t pix with
    | .error e => .error e
    | .ok v => .ok (s', v)

/-- Is a value masked (425, 440)? -/
def isMasked (bad : ℚ) (v : XReal) : Bool := v.isNan || decide (v = .fin bad)

/-- Smallest value (452), numpy's `min` with nan excluded by the choice of pixels. -/
def minX (vs : List XReal) : XReal :=
  match vs with
  | [] => .nan
  | v :: vs => vs.foldl (fun m x => if XReal.ltB x m then x else m) v

/-- The value of the unmasked pixel of the full sky nearest to a position (434-452); the smallest if several are
equally near. -/
def nearestGood (dist : ℕ → ℕ → ℚ) (full : List XReal) (bad : ℚ) (at_ : ℕ) : XReal :=
  let good := (List.range full.length).filter (fun p => !isMasked bad (full.getD p .nan))
  match good with
  | [] => .nan
  | g :: gs =>
    let d := gs.foldl (fun m p => min m (dist at_ p)) (dist at_ g)
    minX ((good.filter (fun p => decide (dist at_ p = d))).map (fun p => full.getD p .nan))

/-- The extrapolation of masked pixels (421-452): `indx` the pixels asked for, `vals` their values, `full` the whole
sky.  The `i`-th masked entry, at place `mi`, is given the value nearest to pixel `indx[i]` (lines 445-446).
(Ending with an exception if no pixel of the sky is good is not modelled.) -/
def extrapolate (dist : ℕ → ℕ → ℚ) (full : List XReal) (bad : ℚ) (indx : List ℕ) (vals : List XReal) : List XReal :=
  let hit := (List.range vals.length).filter (fun k => isMasked bad (vals.getD k .nan))
  (List.range vals.length).map (fun k =>
    match hit.findIdx? (fun m => decide (m = k)) with
    | none => vals.getD k .nan
    | some i => nearestGood dist full bad (indx.getD i 0))

end Verif.Skb
