import Verif.Model.Queue
import Mathlib.Data.List.Sort

/-!
Model of the core scheduler
(`/repo/rubin_scheduler/scheduler/schedulers/core_scheduler.py`).

Surveys, conditions, queue-manager basis functions and detailers are parameters. An
exception raised by the code is an `Except.error`; what the partially updated python
objects look like after an exception is not modelled.
-/

namespace Verif

/-- The survey interface used by the scheduler. A survey is its state `Sv`; each call may
change that state. Conditions have type `C`. -/
structure SurveyOps (C Sv : Type) where
  /-- `calc_reward_function`: scalar result is a list of length one. -/
  reward : Sv → C → List XReal × Sv
  /-- `generate_observations` -/
  gen : Sv → C → List Obs × Sv
  /-- `add_observation` (the healpix indices are recomputed inside) -/
  addObs : Sv → Obs → Sv
  /-- `add_observations_array` -/
  addArr : Sv → List Obs → Sv
  /-- `update_conditions` -/
  update : Sv → C → Sv
  /-- `get_scheduled_obs` -/
  scheduled : Sv → Option (List ℚ)

/-- Everything external to the scheduler. -/
structure Env (C Sv A : Type) where
  q : QEnv C A
  sv : SurveyOps C Sv
  /-- `conditions.targets_of_opportunity`: for each alert its id and the answer of
  `queue_should_flush(conditions)`; `none` for Python `None`. -/
  toos : C → Option (List (Int × Bool))

/-- Exceptions of the modelled methods. -/
inductive Err where
  /-- `np.nanmax` of an empty tier, or no tier at all (core_scheduler.py 423, 426) -/
  | emptyTier
  /-- `band_to_filter_dict[band]` missing (core_scheduler.py 446) -/
  | keyError (band : String)
  /-- `self.conditions` not set yet (core_scheduler.py 364, 416) -/
  | noConditions
  /-- `np.max` of an empty array (core_scheduler.py 204) -/
  | emptyArray
deriving DecidableEq, Repr

/-- State of `CoreScheduler` (core_scheduler.py 64-134). -/
structure Core (C Sv A : Type) where
  qm : QM A
  tiers : List (List Sv)
  counter : Int
  surveyIndex : Option Nat × Option Nat
  conditions : Option C
  scheduled : List ℚ
  flushForNewToo : Bool
  tooIds : List Int
  bandToFilter : List (String × String)

/-- Ghost record, not part of the code: what a call did to the ids, in order. -/
inductive Ev where
  /-- a visit put in the queue by `_fill_queue` with this id -/
  | assigned (id : Int)
  /-- a completed visit with this id reported to the scheduler -/
  | reported (id : Int)
deriving DecidableEq, Repr

variable {C Sv A : Type}

/-- The characters removed at core_scheduler.py 175, 229 and observation_array.py 38. -/
def stripChars : List Char := "_0123456789".toList

/-- `np.char.rstrip(s, chars="_0123456789")`. -/
def rstrip (s : String) : String :=
  String.ofList ((s.toList.reverse.dropWhile (fun ch => stripChars.contains ch)).reverse)

/-- Fill `band` from `filter` where missing (core_scheduler.py 174-176, 228-230;
`backfill_filter_from_band`, observation_array.py 37-40). -/
def backfillBand (o : Obs) : Obs := if o.band = "" then { o with band := rstrip o.filter } else o

/-- The reward of one survey (core_scheduler.py 416-421): nan if all entries are nan, else
the largest non-nan entry. -/
def scalarReward (l : List XReal) : XReal :=
  if l.all XReal.isNan then .nan else (XReal.nanmax l).getD .nan

/-- One pass over the surveys of a tier (core_scheduler.py 413-421). -/
def evalTier (ops : SurveyOps C Sv) (c : C) (tier : List Sv) : List XReal × List Sv :=
  (tier.map (fun s => scalarReward (ops.reward s c).1), tier.map (fun s => (ops.reward s c).2))

/-- The tier loop (core_scheduler.py 412-425): returns the rewards of the last evaluated
tier, the index at which it broke (if it did) and the surveys after evaluation.
`np.nanmax` of an empty tier raises. -/
def tierLoop (ops : SurveyOps C Sv) (c : C) :
    Nat → List (List Sv) → Except Err (List XReal × Option Nat × List (List Sv))
  | _, [] => .ok ([], none, [])
  | ns, tier :: rest =>
    let (rs, tier') := evalTier ops c tier
    match XReal.nanmax rs with
    | none => .error .emptyTier
    | some m =>
      if XReal.ltB .ninf m then .ok (rs, some ns, tier' :: rest)
      else
        match tierLoop ops c (ns + 1) rest with
        | .error e => .error e
        | .ok (rs', ix, rest') =>
          -- after the last tier `rewards` still holds this tier's values
          .ok (if rest.isEmpty then rs else rs', ix, tier' :: rest')

/-- nan replaced by -inf (core_scheduler.py 429-430). -/
def fixNan (r : XReal) : XReal := if r.isNan then .ninf else r

/-- `np.min(np.where(rewards == np.nanmax(rewards)))` (core_scheduler.py 433). -/
def bestIndex (rs : List XReal) : Option Nat :=
  match XReal.nanmax rs with
  | none => none
  | some m => rs.findIdx? (fun r => XReal.eqB r m)

/-- Tag with consecutive ids (core_scheduler.py 439). -/
def tagIds : Int → List Obs → List Obs
  | _, [] => []
  | n, o :: os => { o with targetId := n } :: tagIds (n + 1) os

/-- Fill a missing filter name (core_scheduler.py 443-446) for one row. The dictionary is
an association list; with an empty dictionary nothing is filled. -/
def fillFilter (d : List (String × String)) (o : Obs) : Except Err Obs :=
  if o.filter = "" ∧ d.length > 0 then
    match d.lookup o.band with
    | some f => .ok { o with filter := f }
    | none => .error (.keyError o.band)
  else .ok o

/-- `fillFilter` over an array; the first missing key raises. -/
def fillFilters (d : List (String × String)) : List Obs → Except Err (List Obs)
  | [] => .ok []
  | o :: os => match fillFilter d o with
    | .error e => .error e
    | .ok o' => match fillFilters d os with
      | .error e => .error e
      | .ok os' => .ok (o' :: os')

namespace Core

/-- `CoreScheduler.flush_queue` (core_scheduler.py 157-160). -/
def flush (s : Core C Sv A) : Core C Sv A := { s with qm := s.qm.flush, surveyIndex := (none, none) }

/-- `_fill_queue` (core_scheduler.py 387-453). The reward bookkeeping for `keep_rewards`
(396-409, see `Model/SimRewards`), `queue_filled` and the log message are left out. -/
def fillQueue (E : Env C Sv A) (s : Core C Sv A) : Except Err (Core C Sv A × List Ev) :=
  match s.conditions with
  | none => .error .noConditions
  | some c =>
    match tierLoop E.sv c 0 s.tiers with
    | .error e => .error e
    | .ok (rs, brk, tiers') =>
      let s1 := { s with tiers := tiers' }
      match XReal.nanmax rs with
      | none => .error .emptyTier
      | some m =>
        if m = .ninf ∨ m = .nan then .ok (s1.flush, [])
        else
          match brk, bestIndex (rs.map fixNan) with
          | some i0, some i1 =>
            match tiers'[i0]? with
            | none => .error .emptyTier
            | some tier =>
              match tier[i1]? with
              | none => .error .emptyTier
              | some sv =>
                let (obs, sv') := E.sv.gen sv c
                let tagged := tagIds s.counter obs
                match fillFilters s.bandToFilter tagged with
                | .error e => .error e
                | .ok filled =>
                  .ok ({ s1 with
                    tiers := tiers'.set i0 (tier.set i1 sv')
                    surveyIndex := (some i0, some i1)
                    counter := s.counter + obs.length
                    qm := s1.qm.setQueue filled }, filled.map (fun o => .assigned o.targetId))
          | _, _ => .error .emptyTier

/-- `result["note"] = result["scheduler_note"]` (core_scheduler.py 384). -/
def setNote (o : Obs) : Obs := { o with note := o.schedulerNote }

/-- `request_observation` (core_scheduler.py 332-385). The `mjd` argument is accepted and,
as in the code, not used. `none` is Python `None`. -/
def request (E : Env C Sv A) (s : Core C Sv A) (_mjd : Option ℚ) (whole : Bool) :
    Except Err (Core C Sv A × Option (List Obs) × List Ev) :=
  match s.conditions with
  | none => .error .noConditions
  | some c =>
    let first := if s.qm.nonePending then s.fillQueue E else .ok (s, [])
    match first with
    | .error e => .error e
    | .ok (s1, ev1) =>
      if s1.qm.nonePending then .ok (s1, none, ev1)
      else
        let (result, qm1) := s1.qm.request E.q c whole
        if result.length = 0 then
          let s2 := { s1 with qm := qm1.flush }
          match s2.fillQueue E with
          | .error e => .error e
          | .ok (s3, ev2) =>
            let (result2, qm3) := s3.qm.request E.q c whole
            let s4 := { s3 with qm := qm3 }
            if result2.length = 0 then .ok (s4, none, ev1 ++ ev2)
            else .ok (s4, some (result2.map setNote), ev1 ++ ev2)
        else .ok ({ s1 with qm := qm1 }, some (result.map setNote), ev1)

/-- The counter update on a reported id (core_scheduler.py 204-205, 240-241). -/
def bump (counter id : Int) : Int := if counter ≤ id then id + 1 else counter

/-- `add_observation` (core_scheduler.py 209-243). The healpix footprint passed to the
surveys is part of `SurveyOps.addObs`. -/
def addObs (E : Env C Sv A) (s : Core C Sv A) (o : Obs) : Core C Sv A × List Ev :=
  let o := backfillBand o
  ({ s with
    tiers := s.tiers.map (fun t => t.map (fun v => E.sv.addObs v o))
    counter := bump s.counter o.targetId
    qm := s.qm.addObs E.q o }, [.reported o.targetId])

/-- Largest id of a non-empty array (`np.max(obs["target_id"])`, core_scheduler.py 204). -/
def maxId (o : Obs) (os : List Obs) : Int := os.foldl (fun m x => max m x.targetId) o.targetId

/-- `add_observations_array` (core_scheduler.py 162-207). The sort by mjd is a stable insertion
sort here (numpy breaks ties by the other columns). -/
def addArr (E : Env C Sv A) (s : Core C Sv A) (l : List Obs) : Except Err (Core C Sv A × List Ev) :=
  match l with
  | [o] => .ok (s.addObs E o)
  | _ =>
    let l1 := (l.map backfillBand).insertionSort (fun a b => a.mjd ≤ b.mjd)
    match l1 with
    | [] => .error .emptyArray
    | o :: os =>
      .ok ({ s with
        tiers := s.tiers.map (fun t => t.map (fun v => E.sv.addArr v l1))
        counter := bump s.counter (maxId o os)
        qm := s.qm.addArr E.q l1 }, l1.map (fun x => .reported x.targetId))

/-- The alert part of `update_conditions` (core_scheduler.py 254-265). The new ids are
visited in an unspecified set order; only the number of `flush_queue` calls depends on it. -/
def tooStep (E : Env C Sv A) (s : Core C Sv A) (c : C) : Core C Sv A :=
  if s.flushForNewToo then
    match E.toos c with
    | none => s
    | some ts =>
      let new := ts.filter (fun t => !s.tooIds.contains t.1)
      let s1 := { s with tooIds := s.tooIds ++ (new.map Prod.fst).dedup }
      if new.any (fun t => t.2) then s1.flush else s1
  else s

/-- The scheduled times gathered from all surveys (core_scheduler.py 290-302). -/
def gatherScheduled (E : Env C Sv A) (tiers : List (List Sv)) (now : ℚ) : List ℚ :=
  let all := (tiers.flatten.filterMap (fun v => E.sv.scheduled v)).flatten
  (all.insertionSort (fun a b => a ≤ b)).filter (fun t => decide (now ≤ t))

/-- `update_conditions` (core_scheduler.py 245-302). Overwriting
`conditions.survey_start_mjd` (271) is left out. -/
def update (E : Env C Sv A) (s : Core C Sv A) (c : C) : Core C Sv A :=
  let s1 := s.tooStep E c
  let tiers' := s1.tiers.map (fun t => t.map (fun v => E.sv.update v c))
  { s1 with conditions := some c, tiers := tiers', scheduled := gatherScheduled E tiers' (E.q.mjdOf c) }

/-- The public calls. -/
inductive Op (C : Type) where
  | request (mjd : Option ℚ) (whole : Bool)
  | add (o : Obs)
  | addArr (l : List Obs)
  | flush
  | append (l : List Obs)
  | mark (o : Obs)
  | update (c : C)
  | setCounter (n : Int)

/-- One public call: new state, what was returned to the caller (for `request`), ghost
events. -/
def step (E : Env C Sv A) (s : Core C Sv A) :
    Op C → Except Err (Core C Sv A × Option (List Obs) × List Ev)
  | .request mjd whole => s.request E mjd whole
  | .add o => let (s', ev) := s.addObs E o; .ok (s', none, ev)
  | .addArr l => match s.addArr E l with
    | .error e => .error e
    | .ok (s', ev) => .ok (s', none, ev)
  | .flush => .ok (s.flush, none, [])
  | .append l => .ok ({ s with qm := s.qm.append l }, none, [])
  | .mark o => .ok ({ s with qm := s.qm.mark o }, none, [])
  | .update c => .ok (s.update E c, none, [])
  | .setCounter n => .ok ({ s with counter := n }, none, [])

/-- A history of calls, stopping at the first exception: final state, all visits handed out
(in order), all ghost events (in order). -/
def run (E : Env C Sv A) : Core C Sv A → List (Op C) → Except Err (Core C Sv A × List Obs × List Ev)
  | s, [] => .ok (s, [], [])
  | s, op :: ops => match s.step E op with
    | .error e => .error e
    | .ok (s1, out, ev) => match run E s1 ops with
      | .error e => .error e
      | .ok (s2, outs, evs) => .ok (s2, out.getD [] ++ outs, ev ++ evs)

/-- `CoreScheduler.__init__` (core_scheduler.py 64-134). -/
def init (a : A) (tiers : List (List Sv)) (counter : Int) (flushForNewToo : Bool)
    (bandToFilter : List (String × String)) : Core C Sv A :=
  { qm := QM.init a, tiers, counter, surveyIndex := (none, none), conditions := none, scheduled := [],
    flushForNewToo, tooIds := [], bandToFilter }

end Core
end Verif
