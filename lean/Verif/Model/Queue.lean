import Verif.Model.IntRounded
import Verif.Model.XReal

/-!
Model of the queue manager
(`/repo/rubin_scheduler/scheduler/schedulers/queue_manager.py`).
-/

namespace Verif

/-- A row of an `ObservationArray`
(`/repo/rubin_scheduler/scheduler/utils/observation_array.py` 118-172): the columns the
scheduler and queue manager read or write; `payload` stands for all the other columns. -/
structure Obs where
  targetId : Int
  ra : ℚ := 0
  dec : ℚ := 0
  mjd : ℚ := 0
  flushBy : ℚ := 0
  band : String := ""
  filter : String := ""
  schedulerNote : String := ""
  note : String := ""
  payload : Nat := 0
deriving DecidableEq, Repr

/-- The parts the queue manager is given from outside: conditions of type `C`, and the
state `A` of its basis functions and detailers (queue_manager.py 36-52). -/
structure QEnv (C A : Type) where
  /-- `conditions.mjd` -/
  mjdOf : C → ℚ
  /-- `compute_reward` (queue_manager.py 93-97): the summed basis function values; a scalar
  is a list of length one. -/
  reward : A → C → List XReal
  /-- `_ra_dec2_hpid(nside, RA, dec)` for a map of the given size (queue_manager.py 142-147). -/
  hpid : Nat → ℚ → ℚ → Nat
  /-- All detailers applied in turn to a non-empty array (queue_manager.py 175-176). They may
  keep state. -/
  detail : A → C → List Obs → List Obs × A
  /-- `bf.add_observation` / `detailer.add_observation` (queue_manager.py 75-78). -/
  addObs : A → Obs → A
  /-- `bf.add_observations_array` / `detailer.add_observations_array` (queue_manager.py 88-91). -/
  addArr : A → List Obs → A

/-- State of `BaseQueueManager` (queue_manager.py 47-56). -/
structure QM (A : Type) where
  desired : List Obs
  need : List Bool
  aux : A

variable {C A : Type}

namespace QM

/-- `__init__` (queue_manager.py 53-56): empty queue. -/
def init (a : A) : QM A := ⟨[], [], a⟩

/-- `flush_queue` (queue_manager.py 58-60). -/
def flush (q : QM A) : QM A := { q with desired := [], need := [] }

/-- `append_to_queue` (queue_manager.py 62-65). -/
def append (q : QM A) (l : List Obs) : QM A :=
  { q with desired := q.desired ++ l, need := q.need ++ List.replicate l.length true }

/-- `set_queue` (queue_manager.py 67-69). -/
def setQueue (q : QM A) (l : List Obs) : QM A :=
  { q with desired := l, need := List.replicate l.length true }

/-- Set `need_observing[i] = False` for the rows satisfying `f`. -/
def clearWhere (f : Obs → Bool) : List Obs → List Bool → List Bool
  | o :: os, b :: bs => (if f o then false else b) :: clearWhere f os bs
  | _, bs => bs

/-- `mark_observation_completed` (queue_manager.py 184-189). -/
def mark (q : QM A) (o : Obs) : QM A :=
  { q with need := clearWhere (fun d => decide (d.targetId = o.targetId)) q.desired q.need }

/-- `add_observation` (queue_manager.py 71-78). -/
def addObs (E : QEnv C A) (q : QM A) (o : Obs) : QM A :=
  let q1 := if q.desired.length > 0 then q.mark o else q
  { q1 with aux := E.addObs q1.aux o }

/-- `add_observations_array` (queue_manager.py 80-91). The basis functions and detailers are
only told when the queue is not empty (the loops are inside the `if` of line 81). The
selection of `observations_hpid` by ID (86-87) concerns only what the basis functions
receive and is part of `E.addArr`. -/
def addArr (E : QEnv C A) (q : QM A) (l : List Obs) : QM A :=
  if q.desired.length > 0 then
    { q with
      need := clearWhere (fun d => l.any (fun o => decide (d.targetId = o.targetId))) q.desired q.need
      aux := E.addArr q.aux l }
  else q

/-- The mjd test of `find_valid_observations_indx` (queue_manager.py 123-126), one verdict
per queued row: the tolerant `<=` of the scalar `mjd` against the whole `flush_by_mjd`
array, or `flush_by_mjd == 0`. -/
def mjdVerdict (desired : List Obs) (mjd : ℚ) : List Bool :=
  List.zipWith (fun le (o : Obs) => le || decide (o.flushBy = 0))
    (leA Tol.default (desired.map (fun o => (mjd, o.flushBy)))) desired

/-- `find_valid_observations_indx` (queue_manager.py 114-152). An index outside the reward
map (an `IndexError` in numpy, excluded by healpix) counts as masked. -/
def findValid (E : QEnv C A) (q : QM A) (c : C) (mjd : ℚ) : List Nat :=
  let ok := mjdVerdict q.desired mjd
  let mjdOk := (List.range q.desired.length).filter (fun i => ok[i]? == some true)
  let needed := (List.range q.need.length).filter (fun i => q.need[i]? == some true)
  let valid := mjdOk.filter (fun i => needed.contains i)
  let reward := E.reward q.aux c
  if reward.length > 1 then
    valid.filter (fun i =>
      match q.desired[i]? with
      | some o => match reward[E.hpid reward.length o.ra o.dec]? with
        | some r => r.isFinite
        | none => false
      | none => false)
  else valid

/-- `_check_queue_mjd_only` (queue_manager.py 99-112). -/
def checkQueueMjdOnly (E : QEnv C A) (q : QM A) (mjd : ℚ) (c : C) : Bool :=
  (q.findValid E c mjd).length > 0

/-- `request_observation` (queue_manager.py 154-178) with `n_return=1`. -/
def request (E : QEnv C A) (q : QM A) (c : C) (whole : Bool) : List Obs × QM A :=
  let indx := q.findValid E c (E.mjdOf c)
  let indx := if whole then indx else if indx.length > 1 then indx.take 1 else indx
  let result := indx.filterMap (fun i => q.desired[i]?)
  if result.length > 0 then
    let (r, a) := E.detail q.aux c result
    (r, { q with aux := a })
  else (result, q)

/-- `return_active_queue` (queue_manager.py 180-182): boolean-mask selection. -/
def active (q : QM A) : List Obs :=
  ((q.desired.zip q.need).filter (fun p => p.2)).map Prod.fst

/-- `np.sum(need_observing) == 0` as tested by the scheduler (core_scheduler.py 365, 368). -/
def nonePending (q : QM A) : Bool := q.need.all (fun b => !b)

end QM
end Verif
