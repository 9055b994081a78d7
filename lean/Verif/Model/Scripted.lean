import Verif.Model.Features
import Verif.Model.Angles

/-!
Model of scripted surveys
(`/repo/rubin_scheduler/scheduler/surveys/scripted_surveys.py` 55-417).

Basis functions, features and detailers of the survey are left out, except for the map of
rewards (265-280) and the final detailing (379-380), which are parameters.
-/

namespace Verif.Script

open Verif.Feat (isIn)

/-- The columns of a `ScheduledObservationArray` that the survey reads
(observation_array.py 214-289). -/
structure Entry where
  note : String
  band : String
  exptime : ℚ
  mjd : ℚ
  tol : ℚ
  flush : ℚ
  ra : ℚ
  dec : ℚ
  altMin : ℚ
  altMax : ℚ
  haMax : ℚ
  haMin : ℚ
  sunMax : ℚ
  moonMin : ℚ
  observed : Bool
  deriving DecidableEq

/-- What is read from the conditions. `turn` is the full turn (2π); `alt`, `az` and `moon` give
altitude, azimuth and distance to the moon of a position. -/
structure Cond where
  mjd : ℚ
  turn : ℚ
  lmst : ℚ
  alt : ℚ → ℚ → ℚ
  az : ℚ → ℚ → ℚ
  moon : ℚ → ℚ → ℚ
  sunAlt : ℚ
  skyAlt : Option (List (ℚ × ℚ))
  telAlt : ℚ × ℚ
  skyAz : Option (List (ℚ × ℚ))
  telAz : ℚ × ℚ
  mounted : List String
  current : String
  /-- `sun_n18_rising` -/
  twilight : ℚ

/-- `sort_potential_result`; other values raise (302). -/
inductive Order where
  | none
  | ha
  deriving DecidableEq

/-- Settings (55-87). -/
structure Cfg where
  ignore : List String
  limit : ℕ
  beforeTwi : Bool
  /-- days -/
  bandChange : ℚ
  checkMounted : Bool
  checkActive : Bool
  sort : Order
  /-- whether the reward map is finite at a position; `none` when rewards are no map -/
  finite : Option (ℚ → ℚ → Bool)
  /-- the detailers -/
  detail : List Entry → List Entry

structure St where
  script : List Entry
  idStart : ℕ
  /-- `scheduled_obs` -/
  scheduled : Option (List ℚ)
  lastMjd : ℚ
  lastRough : ℚ
  rough : List Entry
  obs : List Entry

/-- `__init__` (78-115). -/
def init (idStart : ℕ) : St := ⟨[], idStart, none, -1, -1, [], []⟩

/-! ### Selection -/

/-- Hour angle in hours, brought to 0 to 24 (187-189). -/
def hourAngle (c : Cond) (e : Entry) : ℚ :=
  let h := c.lmst - e.ra * 24 / c.turn
  let h := if 24 < h then h - 24 else h
  if h < 0 then h + 24 else h

/-- The first tests of `_check_alts_ha` (190-196). -/
def limitsOk (c : Cond) (e : Entry) : Bool :=
  decide (e.moonMin < c.moon e.ra e.dec) && decide (c.alt e.ra e.dec < e.altMax) && decide (e.altMin < c.alt e.ra e.dec) &&
  (decide (e.haMax < hourAngle c e) || decide (hourAngle c e < e.haMin)) && decide (c.sunAlt < e.sunMax)

/-- Altitude limits of the sky (199-205). -/
def skyAltOk (c : Cond) (e : Entry) : Bool :=
  match c.skyAlt with
  | none => true
  | some ls => ls.any (fun l => decide (min l.1 l.2 ≤ c.alt e.ra e.dec) && decide (c.alt e.ra e.dec ≤ max l.1 l.2))

/-- Altitude limits of the telescope (207-211). -/
def telAltOk (c : Cond) (e : Entry) : Bool :=
  decide (min c.telAlt.1 c.telAlt.2 ≤ c.alt e.ra e.dec) && decide (c.alt e.ra e.dec ≤ max c.telAlt.1 c.telAlt.2)

/-- The azimuth lies in the range (221-222, 227-228). -/
def azIn (c : Cond) (lo hi az : ℚ) : Bool := decide (Ang.md c.turn (az - lo) ≤ Ang.md c.turn (hi - lo))

/-- Azimuth limits of the sky (213-225). -/
def skyAzOk (c : Cond) (e : Entry) : Bool :=
  match c.skyAz with
  | none => true
  | some ls => ls.any (fun l => decide (c.turn ≤ |l.2 - l.1|) || azIn c l.1 l.2 (c.az e.ra e.dec))

/-- Azimuth limits of the telescope (226-229). -/
def telAzOk (c : Cond) (e : Entry) : Bool :=
  if |c.telAz.2 - c.telAz.1| < c.turn then azIn c c.telAz.1 c.telAz.2 (c.az e.ra e.dec) else true

/-- `_check_alts_ha` (163-231). -/
def checkAltsHa (c : Cond) (es : List Entry) : List Entry :=
  ((((es.filter (limitsOk c)).filter (skyAltOk c)).filter (telAltOk c)).filter (skyAzOk c)).filter (telAzOk c)

/-- The time window (239-243). -/
def inWindow (c : Cond) (e : Entry) : Bool :=
  decide (e.mjd - e.tol < c.mjd) && decide (c.mjd < e.flush) && !e.observed

/-- Hour angle from -12 to 12 hours (286-289). -/
def signedHa (c : Cond) (e : Entry) : ℚ :=
  let h := Ang.md 24 (c.lmst - e.ra * 24 / c.turn)
  if 12 < h then h - 24 else h

/-- Order by band, then west to east (290-296). Equal keys keep their order here. -/
def before (c : Cond) (a b : Entry) : Prop :=
  a.band < b.band ∨ a.band = b.band ∧ -1 * signedHa c a ≤ -1 * signedHa c b

instance (c : Cond) : DecidableRel (before c) := fun a b => by unfold before; infer_instance

/-- Not too many (282-302). -/
def truncate (cfg : Cfg) (c : Cond) (es : List Entry) : List Entry :=
  match cfg.sort with
  | .none => es.take cfg.limit
  | .ha => if cfg.limit < es.length then (es.insertionSort (before c)).take cfg.limit else es

/-- Positions where the reward is finite (272-280). -/
def rewardOk (cfg : Cfg) (e : Entry) : Bool := match cfg.finite with | none => true | some f => f e.ra e.dec

/-- `_check_list` (233-306). -/
def checkList (cfg : Cfg) (s : St) (c : Cond) : List Entry :=
  let m := checkAltsHa c (s.script.filter (inWindow c))
  let m := if cfg.checkMounted then m.filter (fun e => c.mounted.contains e.band) else m
  let m := if cfg.checkActive then m.filter (fun e => e.band == c.current) else m
  truncate cfg c (m.filter (rewardOk cfg))

/-- The number of neighbours with equal bands (396). -/
def nBandChanges : List Entry → ℕ
  | a :: b :: es => (if b.band = a.band then 1 else 0) + nBandChanges (b :: es)
  | _ => 0

/-- Whether there is too little time before twilight (400-409). -/
def tooLate (cfg : Cfg) (c : Cond) (es : List Entry) : Bool :=
  cfg.beforeTwi &&
  decide (c.twilight - c.mjd < (es.map Entry.exptime).sum / 3600 / 24 + nBandChanges es * cfg.bandChange)

/-- `generate_observations_rough` (385-417). -/
def genRough (cfg : Cfg) (s : St) (c : Cond) : St × List Entry :=
  if s.lastRough = c.mjd then (s, s.rough)
  else
    let es := checkList cfg s c
    if es = [] then ({ s with rough := [], lastRough := c.mjd }, [])
    else if tooLate cfg c es then ({ s with rough := [], lastMjd := c.mjd }, [])
    else ({ s with rough := es, lastRough := c.mjd }, es)

/-- `generate_observations` (372-383). -/
def gen (cfg : Cfg) (s : St) (c : Cond) : St × List Entry :=
  if s.lastMjd = c.mjd then (s, s.obs)
  else
    let r := genRough cfg s c
    let es := if r.2 = [] then r.2 else cfg.detail r.2
    ({ r.1 with obs := es, lastMjd := c.mjd }, es)

/-! ### Reports -/

/-- `check_good_note` (base_survey.py 224-242). -/
def goodNote (cfg : Cfg) (note : String) : Bool := !cfg.ignore.any (fun i => isIn i note)

/-- Mark the first outstanding entry with the note (143-151). -/
def markFirst (note : String) : List Entry → List Entry
  | [] => []
  | e :: es => if e.note = note ∧ e.observed = false then { e with observed := true } :: es else e :: markFirst note es

/-- `add_observation` (134-151). -/
def addOne (cfg : Cfg) (s : St) (note : String) : St :=
  if goodNote cfg note then { s with script := markFirst note s.script } else s

/-- `add_observations_array` (117-132). -/
def addArray (s : St) (notes : List String) : St :=
  if s.script = [] then s
  else
    let es := s.script.map (fun e => if e.note ∈ notes then { e with observed := true } else e)
    { s with script := es, scheduled := some ((es.filter (fun e => !e.observed)).map Entry.mjd) }

/-! ### The script -/

/-- `clear_script` (308-313). -/
def clear (s : St) : St := { s with script := [], scheduled := none }

/-- Notes have at most 60 characters. -/
def cut (s : String) : String := String.ofList (s.toList.take 60)

/-- A note with its index (342-345). -/
def tag (note : String) (id : ℕ) : String := cut (note ++ ", " ++ toString id)

/-- Tag entries with consecutive indices (341-346). -/
def tagAll : ℕ → List Entry → List Entry
  | _, [] => []
  | k, e :: es => { e with note := tag e.note k } :: tagAll (k + 1) es

/-- All or nothing. -/
def allSome : List (Option ℕ) → Option (List ℕ)
  | [] => some []
  | none :: _ => none
  | some a :: l => (allSome l).map (a :: ·)

/-- `set_script` (315-370); `idOf` reads the index at the end of a note (350), `none` when that
raises. `none` when `set_script` raises. Filling in missing bands (336-339) is left out, and
indices are natural numbers. -/
def setScript (idOf : String → Option ℕ) (s : St) (new : List Entry) (append addIndex : Bool) : Option St :=
  let step1 : Option (List Entry × ℕ) :=
    if addIndex then some (tagAll s.idStart new, s.idStart + new.length)
    else match allSome (s.script.map (fun e => idOf e.note)) with
      | none => none
      | some ids => some (new, match ids.max? with | none => s.idStart | some m => m + 1)
  match step1 with
  | none => none
  | some (new, idStart) =>
    let script := if append then s.script ++ new else new
    if (script.map Entry.note).Nodup then
      some { s with script := script, idStart := idStart, scheduled := some (script.map Entry.mjd) }
    else none

/-! ### Histories -/

/-- What can happen to a survey. -/
inductive Op where
  | set (new : List Entry) (append addIndex : Bool)
  | clear
  | one (note : String)
  | array (notes : List String)
  | gen (c : Cond)
  | rough (c : Cond)

/-- One step; `none` when it raises. -/
def step (cfg : Cfg) (idOf : String → Option ℕ) (s : St) : Op → Option St
  | .set new a i => setScript idOf s new a i
  | .clear => some (clear s)
  | .one n => some (addOne cfg s n)
  | .array ns => some (addArray s ns)
  | .gen c => some (gen cfg s c).1
  | .rough c => some (genRough cfg s c).1

/-- A history. -/
def run (cfg : Cfg) (idOf : String → Option ℕ) (s : St) (ops : List Op) : Option St := ops.foldlM (step cfg idOf) s

end Verif.Script
