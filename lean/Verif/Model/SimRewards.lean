import Verif.Model.Whole

/-!
Tables of rewards kept during a simulation: `record_rewards` of `sim_runner` (`/repo/rubin_scheduler/scheduler/sim_runner.py` 111-115, 170-173, 200-201,
289-308) and `keep_rewards` of the core scheduler (`/repo/rubin_scheduler/scheduler/schedulers/core_scheduler.py` 82-85, 122-123, 393-409).

The tables themselves (C149) are known here by the number of the fill they were made at.  Making a table is taken to change nothing else.
-/

namespace Verif.Rwd

open Verif.Whole

variable {C B Sv A H : Type}

/-- The ids of the visits put into the queue by each `_fill_queue` of a request that returns (core_scheduler.py 365-381), in order. -/
def fillsOf (E : Verif.Env C Sv A) (s : Core C Sv A) (c : C) : List (List Int) :=
  match (if s.qm.nonePending then s.fillQueue E else .ok (s, [])) with
  | .error _ => []
  | .ok (s1, _) =>
    let first := if s.qm.nonePending then [s1.qm.desired.map Verif.Obs.targetId] else []
    if s1.qm.nonePending then first
    else if (s1.qm.request E.q c false).1.length = 0 then
      match ({ s1 with qm := (s1.qm.request E.q c false).2.flush } : Core C Sv A).fillQueue E with
      | .error _ => first
      | .ok (s3, _) => first ++ [s3.qm.desired.map Verif.Obs.targetId]
    else first

/-- The tables and stamps kept. -/
structure Kept where
  /-- the ids put into the queue by each fill so far -/
  fills : List (List Int) := []
  /-- `last_obs_queue_fill_mjd_ns` (sim_runner.py 113) -/
  last : Option ℤ := none
  /-- `reward_dfs` (115): the numbers of the fills, or `None` -/
  tables : List (Option ℕ) := []
  /-- the assignments to `obs_rewards` (114, 201), in order -/
  assigned : List (ℚ × Option ℤ) := []

/-- `scheduler.queue_fill_mjd_ns` (core_scheduler.py 122, 404): the time of the last fill by a clock that gives `tick k` at fill `k`. -/
def stamp (keep : Bool) (tick : ℕ → ℤ) (k : Kept) : ℤ := if keep && !k.fills.isEmpty then tick (k.fills.length - 1) else -1

/-- `scheduler.queue_reward_df` (core_scheduler.py 123, 405-409). -/
def table (keep : Bool) (k : Kept) : Option ℕ := if keep && !k.fills.isEmpty then some (k.fills.length - 1) else none

/-- After a request (sim_runner.py 170-173). -/
def look (keep : Bool) (tick : ℕ → ℤ) (k : Kept) : Kept :=
  if k.last ≠ some (stamp keep tick k) then { k with tables := k.tables ++ [table keep k], last := some (stamp keep tick k) } else k

/-- A request, with the fills it makes. -/
def request (E : Verif.Env C Sv A) (X : Rest H C B) (keep : Bool) (tick : ℕ → ℤ) (u : (Core C Sv A × H) × Kept) (x : ℚ) :
    Option (((Core C Sv A × H) × Kept) × Option Verif.Obs) :=
  match (coreSched E X).request u.1 x, u.1.1.conditions with
  | some (u', r), some c => some ((u', look keep tick { u.2 with fills := u.2.fills ++ fillsOf E u.1.1 c }), r)
  | _, _ => none

/-- The core scheduler in a simulation with `record_rewards=True`.  The assignment to `obs_rewards` (200-201) is made together with telling the scheduler
(192): nothing that it uses changes between the two. -/
def sched (E : Verif.Env C Sv A) (X : Rest H C B) (keep : Bool) (tick : ℕ → ℤ) : Sched ((Core C Sv A × H) × Kept) Verif.Obs C B where
  hasConds u := (coreSched E X).hasConds u.1
  check u x := (coreSched E X).check u.1 x
  update u c := ((coreSched E X).update u.1 c, u.2)
  request u x := request E X keep tick u x
  add u v := ((coreSched E X).add u.1 v, { u.2 with assigned := u.2.assigned ++ [(v.mjd, u.2.last)] })
  bandAdd u v := ((coreSched E X).bandAdd u.1 v, u.2)
  flush u := ((coreSched E X).flush u.1, u.2)
  bands u c := ((((coreSched E X).bands u.1 c).1, u.2), ((coreSched E X).bands u.1 c).2)
  overhead u v := ((((coreSched E X).overhead u.1 v).1, u.2), ((coreSched E X).overhead u.1 v).2)

/-- Assignment to a key of a dictionary: keys stay in the order in which they came first. -/
def put (d : List (ℚ × Option ℤ)) (p : ℚ × Option ℤ) : List (ℚ × Option ℤ) :=
  if d.any (fun q => decide (q.1 = p.1)) then d.map (fun q => if q.1 = p.1 then p else q) else d ++ [p]

/-- The tables and the pairs returned (289-308); without visits both are `None`. `pd.concat` of a list with nothing but `None` raises, which is `none` here. -/
def returned (visits : ℕ) (k : Kept) : Option (Option (List ℕ × List (ℚ × Option ℤ))) :=
  if visits = 0 then some none
  else if k.tables.filterMap id = [] then none
  else some (some (k.tables.filterMap id, k.assigned.foldl put []))

end Verif.Rwd
