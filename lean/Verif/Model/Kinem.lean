import Verif.Model.Angles
import Verif.Model.Observatory

/-!
Model of the telescope kinematics `KinemModel`
(`/repo/rubin_scheduler/scheduler/model_observatory/kinem_model.py` 105-887) as used through
`observe`, and of `ModelObservatory._update_rot_sky_pos`
(`/repo/rubin_scheduler/scheduler/model_observatory/model_observatory.py` 648-712).

Numbers are elements of an ordered field `α`; `Cfg.T` is a full turn. The motion times
(`jerk_time` with the configured limits, modelled in `Verif.Model.Jerk`) and the conversion
from equatorial to horizontal coordinates are functions in the configuration. The optional
arguments of `slew_times` that override the start or give the target in alt/az are not
modelled: `observe` does not use them.
-/

namespace Verif.Kinem

open Ang

variable {α : Type} [Field α] [LinearOrder α] [IsStrictOrderedRing α] [FloorRing α]

/-- What `__init__` and the `setup_*` methods configure (130-360). -/
structure Cfg (α : Type) where
  /-- a full turn, `two_pi` (21) -/
  T : α
  /-- `radec2altaz` (91-103): altitude, azimuth and parallactic angle of (ra, dec) at a time -/
  altaz : α → α → α → α × α × α
  /-- `rotation_converter(telescope=...)` (152) -/
  cam : Camera
  parkAlt : α
  parkAz : α
  readtime : α
  shuttertime : α
  bandChange : α
  fov : α
  rotMin : α
  rotMax : α
  shutter2 : α
  altMin : α
  altMax : α
  azMin : α
  azMax : α
  settle : α
  /-- `optics_ol_slope`, after the conversion at 358 -/
  olSlope : α
  /-- `optics_cl_delay[1]` -/
  clDelay : α
  /-- `optics_cl_altlimit[1]` -/
  clLimit : α
  domAltSpeed : α
  domAzSpeed : α
  domSettle : α
  /-- `jerk_time` with the speed, acceleration and jerk of the telescope in altitude -/
  altTime : α → α
  azTime : α → α
  rotTime : α → α
  domAltTime : α → α
  domAzTime : α → α

/-- The attributes of `KinemModel` that change (362-386). `track` is `none` when parked,
otherwise (`current_ra_rad`, `current_dec_rad`, `current_rot_sky_pos_rad`); the code has the
flag `parked` and sets these three to `None` together with it. -/
structure Tel (α : Type) where
  track : Option (α × α × α)
  cum : α
  lastAlt : α
  lastAz : α
  lastRot : α
  overhead : α
  band : String
  startBand : String
  mounted : List String
  lastMjd : α

/-- The columns of an observation used by `observe`; `rotTel` is its argument `rot_tel_pos`
(`none`: None or not finite). -/
structure Req (α : Type) where
  ra : α
  dec : α
  rotSky : α
  rotTel : Option α
  band : String
  exptime : α
  nexp : ℕ

/-- `park` (362-386). -/
def park (C : Cfg α) (s : Tel α) : Tel α :=
  { s with
    track := none, cum := 0, lastAz := C.parkAz, lastAlt := C.parkAlt, lastRot := 0, overhead := 0,
    band := s.startBand }

/-- The bands mounted by `setup_camera` (224). -/
def defaultBands : List String := ["u", "g", "r", "i", "y"]

/-- `__init__` (130-152). -/
def new (C : Cfg α) (startBand : String) (mjd0 : α) : Tel α :=
  { park C ⟨none, 0, 0, 0, 0, 0, startBand, startBand, defaultBands, mjd0⟩ with lastMjd := mjd0 }

/-- `setup_camera` called again with the same parameters (169-224): the mounted bands are
reset. -/
def setupCamera (s : Tel α) : Tel α := { s with mounted := defaultBands }

/-- `mount_bands` (154-167); `none` for an empty list (IndexError at 165 or 167; also when
neither band needs replacing, which needs a non-empty list, cannot happen). -/
def mount (s : Tel α) (bands : List String) : Option (Tel α) :=
  match bands.getLast? with
  | none => none
  | some l => some { s with
      mounted := bands,
      band := if s.band ∈ bands then s.band else l,
      startBand := if s.startBand ∈ bands then s.startBand else l }

/-- Where the telescope points at a time: altitude, azimuth and rotator angle (538-545 and
697-704; `current_alt_az` 388-395). -/
def position (C : Cfg α) (s : Tel α) (mjd : α) : α × α × α :=
  match s.track with
  | none => (C.parkAlt, C.parkAz, s.lastRot)
  | some (ra, dec, rotSky) =>
    let p := C.altaz ra dec mjd
    (p.1, p.2.1, sky2tel C.T C.cam rotSky p.2.2)

/-- Inside the limits of the accumulated azimuth (566-578). -/
def inWrap (C : Cfg α) (x : α) : Bool := !(decide (x < C.azMin) || decide (C.azMax < x))

/-- The signed distance to travel in azimuth when the range is a full circle or more
(551-586); `none` stands for the infinite distance. -/
def azFull (C : Cfg α) (cum startAz az : α) : Option α :=
  let short := smallestSigned C.T startAz az
  let long := if short < 0 then C.T + short else short - C.T
  let short' := if inWrap C (short + cum) then some short else none
  let long' := if inWrap C (long + cum) then some long else none
  match short', long' with
  | some x, some y => if |x| < |y| then some x else some y
  | some x, none => some x
  | none, y => y

/-- The distance when the range is less than a full circle (587-598). -/
def azRestricted (C : Cfg α) (startAz az : α) : Option α :=
  let range := md C.T (C.azMax - C.azMin)
  let d1 := md C.T (az - C.azMin)
  let d2 := md C.T (startAz - C.azMin)
  if range < d1 then none else some (d2 - d1)

/-- `np.abs(self.telaz_maxpos_rad - self.telaz_minpos_rad) >= two_pi` (563). -/
def fullCircle (C : Cfg α) : Bool := decide (C.T ≤ |C.azMax - C.azMin|)

/-- Open loop optics time (610). -/
def olTime (C : Cfg α) (dAlt : α) : α := dAlt / C.olSlope

/-- Telescope time without overhead (600-616), for distances in altitude and azimuth. -/
def telTime (C : Cfg α) (dAlt dAzTel : α) : α :=
  let t := max (C.altTime dAlt) (C.azTime |dAzTel|) + olTime C dAlt
  if 0 < t then t + max 0 (C.settle - olTime C dAlt) else t

/-- Dome time (624-679), for distances in altitude and azimuth. -/
def domeTime (C : Cfg α) (lax : Bool) (dAlt dAz : α) : α :=
  if lax then
    let slit := C.fov / 2
    let t1 := max (dAlt / C.domAltSpeed) ((dAz - 2 * (slit / 2 - C.fov / 2)) / C.domAzSpeed)
    let t2 := max ((dAlt - 2 * (slit / 2 - C.fov / 2)) / C.domAltSpeed) (dAz / C.domAzSpeed)
    if dAlt ^ 2 + dAz ^ 2 < C.fov ^ 2 then 0 else min t1 t2
  else
    let a := C.domAltTime dAlt
    let z := C.domAzTime dAz
    max a (if 0 < z then z + C.domSettle else z)

/-- Rotator time (705-713): zero when the band changes. -/
def rotatorTime (C : Cfg α) (s : Tel α) (band : String) (fromRot toRot : α) : α :=
  if band ≠ s.band then 0 else C.rotTime |smallestSigned C.T fromRot toRot|

/-- Band change (715-726) and closed loop optics (728-733), added to a slew time. -/
def addChanges (C : Cfg α) (s : Tel α) (band : String) (sw : Bool) (dAlt t : α) : α :=
  let t := if s.track.isSome && band ≠ s.band then (if sw then max t C.bandChange else t + C.bandChange) else t
  if C.clLimit ≤ dAlt then t + C.clDelay else t

/-- The sky and rotator angle to go to (531-535): a given rotator angle overrides the sky
angle. -/
def rotTarget (C : Cfg α) (r : Req α) (pa : α) : α × α :=
  match r.rotTel with
  | some x => (tel2sky C.T C.cam x pa, x)
  | none => (r.rotSky, sky2tel C.T C.cam r.rotSky pa)

/-- `slew_times` with `update_tracking=True` (397-762), as called by `observe`: the slew time
and the telescope after it; `none` for a slew time that is not finite. `lax` and `sw` are
`lax_dome` and `slew_while_changing_filter`. -/
def slew (C : Cfg α) (s : Tel α) (r : Req α) (mjd : α) (lax sw : Bool) : Option (α × Tel α) :=
  if r.band ∉ s.mounted then none
  else
    let (alt, az, pa) := C.altaz r.ra r.dec mjd
    let (rotSky, rotTel) := rotTarget C r pa
    let (alt0, az0, rot0) := position C s mjd
    let dAlt := |alt - alt0|
    match (if fullCircle C then azFull C s.cum az0 az else azRestricted C az0 az) with
    | none => none
    | some dAzTel =>
      if rotTel < C.rotMin ∨ C.rotMax < rotTel then none
      else if C.altMax < alt ∨ alt < C.altMin then none
      else
        let t := max s.overhead (telTime C dAlt dAzTel)
        let t := max t (domeTime C lax dAlt |smallestSigned C.T az0 az|)
        let t := max t (rotatorTime C s r.band rot0 rotTel)
        let t := addChanges C s r.band sw dAlt t
        some (t, { s with
          track := some (r.ra, r.dec, rotSky), lastRot := rotTel, lastAz := az, lastAlt := alt,
          cum := if fullCircle C then s.cum + dAzTel else az,
          band := r.band, lastMjd := mjd })

/-- `visit_time` (802-811). -/
def visitTime (C : Cfg α) (r : Req α) : α :=
  r.exptime + r.nexp * C.shuttertime + max ((r.nexp : α) - 1) 0 * C.readtime

/-- `shutter_stall` (813-820); `nexp` at least 1. -/
def shutterStall (C : Cfg α) (r : Req α) : α :=
  let dt := r.exptime / r.nexp
  if dt < C.shutter2 then C.shutter2 - dt else 0

/-- `observe` (822-887); the slew time is `none` when it is nan. -/
def observe (C : Cfg α) (s : Tel α) (r : Req α) (mjd : α) (lax sw : Bool) : Tel α × Option α × α :=
  match slew C s r mjd lax sw with
  | none => (s, none, visitTime C r)
  | some (t, s') => ({ s' with overhead := max C.readtime (shutterStall C r) }, some t, visitTime C r)

/-- Calls a user may make. -/
inductive Op (α : Type) where
  | park
  | mount (bands : List String)
  | setupCamera
  | observe (r : Req α) (mjd : α) (lax sw : Bool)

/-- One call; a call that raises is skipped. -/
def step (C : Cfg α) (s : Tel α) : Op α → Tel α
  | .park => park C s
  | .mount b => (mount s b).getD s
  | .setupCamera => setupCamera s
  | .observe r mjd lax sw => (observe C s r mjd lax sw).1

/-! ### `_update_rot_sky_pos` -/

/-- The shifts tried (648): -90, 90, -180 and 180 degrees. -/
def tryShifts (T : α) : List α := [-T / 4, T / 4, -T / 2, T / 2]

/-- Those of the shifted angles strictly inside the limits (679-683). -/
def candidates (C : Cfg α) (x : α) : List α :=
  ((tryShifts C.T).map (fun sh => x + sh)).filter (fun y => decide (C.rotMin < y) && decide (y < C.rotMax))

/-- All candidates nearest to the current rotator angle (696-698), `none` when there is no
candidate (`np.min` of an empty array raises). -/
def nearest (C : Cfg α) (cur : α) (ys : List α) : Option (List α) :=
  match (ys.map (fun y => |smallestSigned C.T cur y|)).min? with
  | none => none
  | some m => some (ys.filter (fun y => |smallestSigned C.T cur y| == m))

/-- The current rotator angle that candidates are compared with (690-695): of the tracked sky
angle at the parallactic angle `pa` of the new target, 0 when parked. -/
def curRot (C : Cfg α) (s : Tel α) (pa : α) : α :=
  match s.track with
  | none => 0
  | some (_, _, rs) => sky2tel C.T C.cam rs pa

/-- `_update_rot_sky_pos` (648-712) with `resolve_rotskypos` given; `none` when it raises: no
candidate (697), two equally near candidates (an array of two is assigned to a column of one,
699), or no rotation given (706-707).  The altitude and azimuth are those of the kinematic model
(the code calls the same conversion with the same site). -/
def updateRot (C : Cfg α) (resolve : Bool) (s : Tel α) (mjd : α) (r : Req α) : Option (Req α) :=
  let pa := (C.altaz r.ra r.dec mjd).2.2
  let sky? : Option α :=
    if resolve then
      let rt := sky2tel C.T C.cam r.rotSky pa
      if rt < C.rotMin ∨ C.rotMax < rt then
        match nearest C (curRot C s pa) (candidates C rt) with
        | some [y] => some (tel2sky C.T C.cam y pa)
        | _ => none
      else some (tel2sky C.T C.cam rt pa)
    else r.rotTel.map (fun x => tel2sky C.T C.cam x pa)
  sky?.map (fun sky => { r with rotSky := sky, rotTel := some (sky2tel C.T C.cam sky pa) })

/-- An observation to be made: its exposure time is not negative. -/
abbrev GoodReq := {r : Req ℚ // 0 ≤ r.exptime}

/-- The kinematic model as used by the observatory model (`Verif.Model.Observatory`);
`rot_tel_pos=None` is passed (model_observatory.py 740). -/
def kin (C : Cfg ℚ) (resolve lax : Bool) : Obs.Kin (Tel ℚ) GoodReq where
  lastMjd := Tel.lastMjd
  park := park C
  observe s r mjd := observe C s { r.1 with rotTel := none } mjd lax false
  prepare s mjd r := (updateRot C resolve s mjd r.1).map
    (fun q => ⟨{ r.1 with rotSky := q.rotSky, rotTel := q.rotTel }, r.2⟩)

end Verif.Kinem
