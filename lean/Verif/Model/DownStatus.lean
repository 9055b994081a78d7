import Mathlib.Data.List.Basic
import Mathlib.Algebra.Order.Ring.Rat

/-!
Model of the report on downtimes
(`/repo/rubin_scheduler/site_models/downtime_model.py` 43-103), of the lookup
`_downtime_status` of both tables (`scheduled_downtime_data.py` 68-77,
`unscheduled_downtime_data.py` 75-84) and of the table of scheduled downtimes
(`/repo/rubin_scheduler/site_models/scheduled_downtime_data.py` 79-129). Times are exact
rationals (days).
-/

namespace Verif.Stat

/-- One row of a table of downtimes. -/
structure Row where
  start : ℚ
  stop : ℚ
  activity : String
  deriving DecidableEq

/-- `searchsorted(time, side="right")` on a sorted column. -/
def after (col : List ℚ) (t : ℚ) : ℕ := (col.takeWhile (fun x => decide (x ≤ t))).length

/-- The current downtime of a table (downtime_model.py 70-77, 81-87; `_downtime_status`):
`some none` for none at all, `none` for an `IndexError`. -/
def current (table : List Row) (t : ℚ) : Option (Option Row) :=
  let nextStart := after (table.map Row.start) t
  let nextEnd := after (table.map Row.stop) t
  if nextEnd < nextStart then (table[nextEnd]?).map some else some none

/-- The future downtimes of `_downtime_status` (scheduled_downtime_data.py 76). -/
def future (table : List Row) (t : ℚ) : List Row := table.drop (after (table.map Row.start) t)

/-- What `DowntimeModel.__call__` returns. -/
structure Report where
  status : Bool
  stop : Option ℚ
  next : ℚ
  deriving DecidableEq

/-- The end reported (90-102). -/
def endOf : Option Row → Option Row → Option ℚ
  | none, none => none
  | some s, none => some s.stop
  | none, some u => some u.stop
  | some s, some u => some (max s.stop u.stop)

/-- `DowntimeModel.__call__` (44-103); `none` is an `IndexError`, of line 79 when no scheduled
downtime starts later. -/
def report (sched unsched : List Row) (t : ℚ) : Option Report :=
  match current sched t, sched[after (sched.map Row.start) t]?, current unsched t with
  | some s, some n, some u => some ⟨s.isSome || u.isSome, endOf s u, n.start⟩
  | _, _, _ => none

/-- `read_data` (79-116): the rows of the database (night, nights down, activity), in its
order. -/
def readData (night0 : ℚ) (rows : List (ℤ × ℤ × String)) : List Row :=
  rows.map (fun r => ⟨night0 + r.1, night0 + r.1 + r.2.1, r.2.2⟩)

/-- `total_downtime` (118-129). -/
def total (table : List Row) : ℚ := (table.map (fun r => r.stop - r.start)).foldl (· + ·) 0

end Verif.Stat
