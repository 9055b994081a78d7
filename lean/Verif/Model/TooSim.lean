import Verif.Model.ScriptedSim
import Verif.Model.Too

/-!
Surveys that follow targets of opportunity as surveys of the core scheduler
(`/repo/rubin_scheduler/scheduler/surveys/too_scripted_surveys.py` 442-454).
-/

namespace Verif.Too

variable {C : Type}

/-- A survey: its settings, those of the scripted survey it extends, and its state; `none` once the survey has raised an exception, which would end
the simulation (here the survey falls silent). -/
structure Sv where
  cfg : Cfg
  base : Script.Cfg
  st : Option S

/-- New alerts (442-445). -/
def Sv.update (idOf : String → Option ℕ) (s : Sv) (now : ℚ) (as : Option (List Alert)) : Sv :=
  { s with st := s.st.bind fun x => Too.update s.cfg idOf now x as }

/-- The visits (inherited: scripted_surveys.py 372-383). -/
def Sv.gen (s : Sv) (c : Script.Cond) : List Script.Entry × Sv :=
  match s.st with
  | none => ([], s)
  | some x => ((Script.gen s.base x.base c).2, { s with st := some { x with base := (Script.gen s.base x.base c).1 } })

/-- Hear of a visit (inherited: scripted_surveys.py 117-151). -/
def Sv.hear (s : Sv) (note : String) : Sv := { s with st := s.st.map fun x => { x with base := Script.addOne s.base x.base note } }

/-- Hear of many visits (inherited: scripted_surveys.py 117-151). -/
def Sv.hearAll (s : Sv) (notes : List String) : Sv := { s with st := s.st.map fun x => { x with base := Script.addArray x.base notes } }

/-- A survey that follows alerts among the surveys of a scheduler. `calc_reward_function` (447-454) looks for new alerts first and is that of a scripted survey
then. `alerts` are the `targets_of_opportunity` of the conditions. -/
def ops (cond : C → Script.Cond) (alerts : C → Option (List Alert)) (idOf : String → Option ℕ) (value : ℚ) : SurveyOps C Sv where
  reward s c := ([if ((s.update idOf (cond c).mjd (alerts c)).gen (cond c)).1 = [] then .ninf else .fin value],
    ((s.update idOf (cond c).mjd (alerts c)).gen (cond c)).2)
  gen s c := ((s.gen (cond c)).1.map Script.toObs, (s.gen (cond c)).2)
  addObs s o := s.hear o.schedulerNote
  addArr s l := s.hearAll (l.map Verif.Obs.schedulerNote)
  update s c := s.update idOf (cond c).mjd (alerts c)
  scheduled s := s.st.bind fun x => x.base.scheduled

end Verif.Too
