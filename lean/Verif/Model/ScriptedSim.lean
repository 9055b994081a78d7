import Verif.Model.Core
import Verif.Model.Scripted

/-!
Scripted surveys as surveys of the core scheduler
(`/repo/rubin_scheduler/scheduler/surveys/scripted_surveys.py` 117-161, 372-383).
-/

namespace Verif.Script

variable {C S T : Type}

/-- `to_observation_array` (observation_array.py 290-299). The exposure time and the columns of the script that a visit does not have are left out, and so
is the name of the filter. -/
def toObs (e : Entry) : Verif.Obs := { targetId := 0, ra := e.ra, dec := e.dec, mjd := e.mjd, flushBy := e.flush, band := e.band, schedulerNote := e.note }

/-- A scripted survey among the surveys of a scheduler. `calc_reward_function` (153-161) generates the visits to see whether there are any; the reward is a
constant then. The code turns the visits of the script into an `ObservationArray` before its detailers see them; here the detailers see the rows of the
script. `update_conditions` is that of the base class, which does nothing to the script. -/
def ops (cond : C → Cond) (value : ℚ) : SurveyOps C (Cfg × St) where
  reward s c := ([if (gen s.1 s.2 (cond c)).2 = [] then .ninf else .fin value], (s.1, (gen s.1 s.2 (cond c)).1))
  gen s c := ((gen s.1 s.2 (cond c)).2.map toObs, (s.1, (gen s.1 s.2 (cond c)).1))
  addObs s o := (s.1, addOne s.1 s.2 o.schedulerNote)
  addArr s l := (s.1, addArray s.2 (l.map Verif.Obs.schedulerNote))
  update s _ := s
  scheduled s := s.2.scheduled

/-- Surveys of two kinds in one scheduler (core_scheduler.py 64-134: the lists may hold any surveys). -/
def mixed (a : SurveyOps C S) (b : SurveyOps C T) : SurveyOps C (S ⊕ T) where
  reward s c := match s with
    | .inl s => ((a.reward s c).1, .inl (a.reward s c).2)
    | .inr s => ((b.reward s c).1, .inr (b.reward s c).2)
  gen s c := match s with
    | .inl s => ((a.gen s c).1, .inl (a.gen s c).2)
    | .inr s => ((b.gen s c).1, .inr (b.gen s c).2)
  addObs s o := match s with
    | .inl s => .inl (a.addObs s o)
    | .inr s => .inr (b.addObs s o)
  addArr s l := match s with
    | .inl s => .inl (a.addArr s l)
    | .inr s => .inr (b.addArr s l)
  update s c := match s with
    | .inl s => .inl (a.update s c)
    | .inr s => .inr (b.update s c)
  scheduled s := match s with
    | .inl s => a.scheduled s
    | .inr s => b.scheduled s

end Verif.Script
