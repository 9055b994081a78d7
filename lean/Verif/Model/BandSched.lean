import Verif.Model.IntRounded
import Mathlib.Data.List.Sort

/-!
Model of the schedulers of mounted bands
(`/repo/rubin_scheduler/scheduler/schedulers/filter_scheduler.py`). `none` stands for an exception.
-/

namespace Verif.Bands

/-- `SimpleBandSched.__call__` (54-59). -/
def simple (limit moon : ℚ) : List String :=
  if gtS Tol.default moon limit then ["g", "r", "i", "z", "y"] else ["u", "g", "r", "i", "z"]

/-- `np.searchsorted(a, x, side="left")` for sorted `a`. -/
def searchLeft (a : List ℚ) (x : ℚ) : ℕ := (a.takeWhile (fun b => decide (b < x))).length

/-- Construction of `ComCamBandSched` (86-96) succeeds. -/
def comCamOk (groups : List (List String)) (bins : List ℚ) : Bool := decide (bins.length ≤ groups.length + 1)

/-- `ComCamBandSched.__call__` (98-108). -/
def comCam (groups : List (List String)) (bins : List ℚ) (moon : ℚ) : Option (List String) :=
  groups[searchLeft bins moon - 1]?

/-- The two sets for dark time (125). -/
def darkTimes (n : ℕ) : List String := if n % 2 = 0 then ["u", "g", "r", "i", "y"] else ["u", "g", "r", "i", "z"]

/-- `BandSchedUzy.__call__` (127-135): new count of swaps and bands. -/
def uzy (limit : ℚ) (lastSwap : ℕ) (moon : ℚ) (mounted : List String) : ℕ × List String :=
  if gtS Tol.default moon limit then (lastSwap, ["g", "r", "i", "z", "y"])
  else
    let result := darkTimes lastSwap
    (if result ≠ mounted then lastSwap + 1 else lastSwap, result)

/-- Joining the schedules (184-202): times of swaps and bands. Keys of the dictionaries are dates;
here their times. The smallest time of an empty schedule (196) raises. -/
def joined (previous new : List (ℚ × List String)) : Option (List (ℚ × List String)) :=
  match new with
  | [] => none
  | n :: ns =>
    let first := (ns.map Prod.fst).foldl min n.1
    some (previous.filter (fun p => decide (p.1 < first)) ++ new)

/-- `DateSwapBandScheduler.__call__` (214-223). -/
def dateSwap (schedule : List (ℚ × List String)) (endDate : ℚ) (backup : List String) (now : ℚ) : Option (List String) :=
  if now < endDate then
    let times := (schedule.map Prod.fst).insertionSort (· ≤ ·)
    match (times.filter (fun t => decide (t ≤ now))).getLast? with
    | none => none
    | some t => (schedule.find? (fun p => p.1 == t)).map Prod.snd
  else some backup

end Verif.Bands
