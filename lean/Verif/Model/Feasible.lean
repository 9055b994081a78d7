import Verif.Model.Features
import Verif.Model.BandSched

/-!
Model of the feasibility functions
(`/repo/rubin_scheduler/scheduler/basis_functions/feasibility_funcs.py` 51-764).

Each is a Boolean test of the current conditions and, for some, of the features fed by the
visits so far (`Verif.Feat`).  An error raised by a test is `none`.  Angles given in degrees
are turned to the unit of the conditions by a factor `rad` (`np.radians`).  Not modelled:
`MoonDistPointRangeBasisFunction` (177-202), whose distance is the one of `angular_separation`, and
`CloudedOutMapBasisFunction` (694-713).
-/

namespace Verif.Feas

open Verif.Feat (Vis)
open Verif.Bands (searchLeft)

/-- The conditions the tests look at (features/conditions.py 300-330). -/
structure Cond where
  mjd : ℚ
  night : ℤ
  mounted : List String
  sunAlt : ℚ
  moonAlt : ℚ
  moonrise : ℚ
  moonset : ℚ
  n12setting : ℚ
  n18setting : ℚ
  n18rising : ℚ
  n12rising : ℚ
  /-- local sidereal time in hours -/
  lmst : ℚ
  /-- `scheduled_observations`: times of the scripted visits -/
  scheduled : List ℚ
  bulkCloud : ℚ

/-- `getattr(conditions, "sun_n" + alt + "_setting")`; `none` (no such attribute) for other
angles (348, 424). -/
def setting (c : Cond) (alt : ℕ) : Option ℚ :=
  if alt = 12 then some c.n12setting else if alt = 18 then some c.n18setting else none

/-- `getattr(conditions, "sun_n" + alt + "_rising")` (362, 385, 426). -/
def rising (c : Cond) (alt : ℕ) : Option ℚ :=
  if alt = 12 then some c.n12rising else if alt = 18 then some c.n18rising else none

/-- `OnlyBeforeNightBasisFunction` (65-69). -/
def onlyBefore (nightMax : ℤ) (c : Cond) : Bool := !decide (nightMax < c.night)

/-- The loop of `BandLoadedBasisFunction` (90-94); `last` is the variable `result`, `none`
before its first assignment. -/
def bandLoop (c : Cond) : List String → Option Bool → Option Bool
  | [], last => last
  | b :: bs, _ => if c.mounted.contains b then bandLoop c bs (some true) else some false

/-- `BandLoadedBasisFunction` (89-94). -/
def bandLoaded (bands : List String) (c : Cond) : Option Bool := bandLoop c bands none

/-- Smallest and largest of a window (`np.min`, `np.max`, 122); windows are pairs. -/
def inWindow (w : ℚ × ℚ) (t : ℚ) : Bool := decide (min w.1 w.2 ≤ t) && decide (t ≤ max w.1 w.2)

/-- `InTimeWindowBasisFunction` (119-124). -/
def inTimeWindow (windows : List (ℚ × ℚ)) (c : Cond) : Bool :=
  windows.foldl (fun r w => if inWindow w c.mjd then true else r) false

/-- `MoonAltLimitBasisFunction` (140-144). -/
def moonAltLimit (rad limit : ℚ) (c : Cond) : Bool := !decide (limit * rad < c.moonAlt)

/-- `AirmassPointRangeBasisFunction` (164-174). `pixOf n` is `ra_dec2_hpid(n, ra, dec)`, `airmass n`
the airmass map at resolution `n`; the map is taken at `self.nside`, which is the default
because `super().__init__()` is called without `nside`. -/
def airmassRange (dflt nside : ℕ) (pixOf : ℕ → ℕ) (airmass : ℕ → ℕ → ℚ) (range : ℚ × ℚ) : Bool :=
  inWindow range (airmass dflt (pixOf nside))

/-- `CloseToTwilightBasisFunction.__init__` (231-240): limits in days, or an error. -/
def closeInit (toTwi minLeft : ℚ) : Option (ℚ × ℚ) :=
  if toTwi < minLeft then none else some (toTwi / 60 / 24, minLeft / 60 / 24)

/-- `CloseToTwilightBasisFunction` (242-252). -/
def closeToTwilight (rad limit toTwi minLeft : ℚ) (c : Cond) : Option Bool :=
  (closeInit toTwi minLeft).map (fun p =>
    let r := decide (limit * rad < c.sunAlt)
    let left := c.n12rising - c.mjd
    let r := if left < p.1 then true else r
    if left < p.2 then false else r)

/-- `OnceInNightBasisFunction` (264-272), after the visits `h`. -/
def onceInNight (notes : List String) (h : List Vis) (_c : Cond) : Bool :=
  !decide (0 < (h.foldl (Feat.NoteInNight.one (some notes)) Feat.NoteInNight.init).count)

/-- `SunAltHighLimitBasisFunction` (288-292). -/
def sunAltHigh (rad limit : ℚ) (c : Cond) : Bool := !decide (c.sunAlt < limit * rad)

/-- `NightModuloBasisFunction` (305-308): Python `%`; an empty pattern raises. -/
def nightModulo (pattern : List Bool) (c : Cond) : Option Bool :=
  pattern[(c.night % (pattern.length : ℤ)).toNat]?

/-- `TimeInTwilightBasisFunction` (325-336). -/
def timeInTwilight (rad need : ℚ) (c : Cond) : Bool :=
  if need / 60 / 24 < c.n18setting - c.mjd then true
  else if -18 * rad < c.sunAlt then decide (need / 60 / 24 < c.n12rising - c.mjd) else false

/-- `AfterEveningTwiBasisFunction` (347-350). -/
def afterEvening (after : ℚ) (alt : ℕ) (c : Cond) : Option Bool :=
  (setting c alt).map (fun s => ltS Tol.default (c.mjd - s) (after / 60 / 24))

/-- `EndOfEveningBasisFunction` (361-364). -/
def endOfEvening (left : ℚ) (alt : ℕ) (c : Cond) : Option Bool :=
  (rising c alt).map (fun r => ltS Tol.default (r - c.mjd) (left / 60 / 24))

/-- `TimeToTwilightBasisFunction` (384-387). -/
def timeToTwilight (need : ℚ) (alt : ℕ) (c : Cond) : Option Bool :=
  (rising c alt).map (fun r => decide (need / 60 / 24 < r - c.mjd))

/-- `TimeToScheduledBasisFunction` (405-411). -/
def timeToScheduled (need : ℚ) (c : Cond) : Bool :=
  match c.scheduled with
  | [] => true
  | t :: ts => decide (need / 60 / 24 < ts.foldl min t - c.mjd)

/-- `NotTwilightBasisFunction` (422-428), for a limit of `-alt` degrees. -/
def notTwilight (alt : ℕ) (c : Cond) : Option Bool :=
  match setting c alt, rising c alt with
  | some s, some r =>
    let res := if c.mjd < s then false else true
    some (if r < c.mjd then false else res)
  | _, _ => none

/-- The time of the last visit with the note; 0 (an empty visit) before the first
(`LastObservation`, features.py 255-257). -/
def lastMark (note : Option String) (h : List Vis) : ℚ :=
  ((h.foldl (Feat.LastObs.one ⟨note, none⟩) none).map Vis.mjd).getD 0

/-- Which of the two arguments is used as note (448-452). -/
def noteOf (schedulerNote surveyName : Option String) : Option String :=
  match schedulerNote with
  | some n => some n
  | none => surveyName

/-- `ForceDelayBasisFunction` (455-459). -/
def forceDelay (delay : ℚ) (note : Option String) (h : List Vis) (c : Cond) : Bool :=
  !decide (c.mjd - lastMark note h < delay)

/-- The value of `NObsCount(note=note)` after the visits. -/
def count (note : Option String) (h : List Vis) : ℕ :=
  (h.foldl (Feat.NObsCount.one ⟨note, none, false⟩) Feat.NObsCount.init).count

/-- `N_note / N_total`; Python raises when nothing has been counted (497, 651). -/
def ratio (note : Option String) (h : List Vis) : Option ℚ :=
  if count none h = 0 then none else some ((count note h : ℚ) / (count none h : ℚ))

/-- The delay that applies (497-501). -/
def softIndex (fractions : List ℚ) (r : ℚ) : ℕ :=
  if searchLeft fractions r = fractions.length then searchLeft fractions r - 1 else searchLeft fractions r

/-- `SoftDelayBasisFunction` (481-482, 495-504). -/
def softDelay (fractions delays : List ℚ) (note : Option String) (h : List Vis) (c : Cond) : Option Bool :=
  if fractions.length ≠ delays.length then none
  else (ratio note h).bind (fun r => (delays[softIndex fractions r]?).map (fun d =>
    !decide (c.mjd - lastMark note h < d)))

/-- Python's `x % 24` (526). -/
def mod24 (x : ℚ) : ℚ := x - 24 * ⌊x / 24⌋

/-- `target_ha` (522, 526). -/
def targetHa (ra : ℚ) (c : Cond) : ℚ := mod24 (c.lmst - ra / 360 * 24)

/-- `HourAngleLimitBasisFunction` (525-533). -/
def hourAngleLimit (ra : ℚ) (limits : List (ℚ × ℚ)) (c : Cond) : Bool :=
  limits.foldl (fun r l => r || (decide (l.1 ≤ targetHa ra c) && decide (targetHa ra c < l.2))) false

/-- `MoonDownBasisFunction` (539-543). -/
def moonDown (c : Cond) : Bool := !decide (0 < c.moonAlt)

/-- `FractionOfObsBasisFunction` (576-583). -/
def fractionOfObs (frac : ℚ) (note : Option String) (h : List Vis) : Bool :=
  if 0 < count none h then !decide (frac < (count note h : ℚ) / (count none h : ℚ)) else true

/-- Settings of `LookAheadDdfBasisFunction` (618-646), in the units given by the caller. -/
structure Ahead where
  aggressive : ℚ
  /-- minutes -/
  need : ℚ
  /-- degrees -/
  ra : ℚ
  note : Option String
  /-- minutes -/
  jump : ℚ
  alt : ℕ

/-- The moon part of the first test (660-665). -/
def moonWillRise (a : Ahead) (c : Cond) : Bool :=
  ltS Tol.default c.moonAlt 0 && gtS Tol.default c.moonrise c.mjd &&
    gtS Tol.default (c.moonrise - c.mjd) (a.jump / 60 / 24)

/-- The first test (655-665). -/
def waitMeridian (a : Ahead) (rise : ℚ) (c : Cond) : Bool :=
  if gtS Tol.default (targetHa a.ra c) 12 && ltS Tol.default (targetHa a.ra c) (24 - a.jump / 60 / 24) then
    if gtS Tol.default (rise - c.mjd) (a.need / 60 / 24 + a.jump / 60 / 24) then moonWillRise a c else true
  else true

/-- The second test (666-673). -/
def waitMoonset (a : Ahead) (rise : ℚ) (c : Cond) : Bool :=
  gtS Tol.default c.moonAlt 0 && gtS Tol.default c.moonset (a.jump / 60 / 24) &&
    gtS Tol.default (rise - c.moonset) (a.need / 60 / 24)

/-- `LookAheadDdfBasisFunction.check_feasibility` (648-679). -/
def lookAhead (a : Ahead) (h : List Vis) (c : Cond) : Option Bool :=
  match ratio a.note h, rising c a.alt with
  | some r, some rise =>
    let res := waitMeridian a rise c
    let res := if waitMoonset a rise c then false else res
    some (if ltS Tol.default r a.aggressive then true else res)
  | _, _ => none

/-- `CloudedOutBasisFunction` (687-691). -/
def cloudedOut (limit : ℚ) (c : Cond) : Bool := !decide (limit < c.bulkCloud)

/-- `RisingMoreBasisFunction` (729-744). -/
def risingMore (ra pad : ℚ) (c : Cond) : Bool :=
  let ha := c.lmst - ra * 24 / 360
  let toTwi := (c.n18rising - c.mjd) * 24
  !(decide (ha < -(pad / 60)) && decide (|ha| < toTwi - pad / 60))

/-- `SunAltLimitBasisFunction` (760-764). -/
def sunAltLimit (rad limit : ℚ) (c : Cond) : Bool := !decide (limit * rad < c.sunAlt)

end Verif.Feas
