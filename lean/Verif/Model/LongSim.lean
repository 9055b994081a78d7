import Verif.Model.LongGap
import Verif.Model.ScriptedSim

/-!
`LongGapSurvey` among the surveys of the core scheduler
(`/repo/rubin_scheduler/scheduler/surveys/long_gap_survey.py` 46-262).

The survey owns a blob survey and a scripted survey and hands calls on to them. What it schedules is that of `Model/LongGap.lean`, now put into the script by `set_script`
(`Model/Scripted.lean`). Simplifications: nights of visits are natural numbers (the code would take the gaps of negative nights from the end of the array); the number
`self.gap`, which nothing reads that decides about visits, is left out; a survey whose `_schedule_obs` raises or does not end offers nothing from then on (in the code that is the
end of the simulation).
-/

namespace Verif.Lgs

variable {C B ι : Type}

/-- Settings (46-98), with the two surveys. Angles are as given to the script. -/
structure Cfg (C B : Type) where
  long : Long.Cfg
  fuel : ℕ
  blob : SurveyOps C B
  script : Script.Cfg
  /-- `reward_val` of the scripted survey -/
  value : ℚ
  cond : C → Script.Cond
  /-- `conditions.night` (conditions.py 511-518) -/
  night : C → ℤ
  /-- `observation["night"]` (model_observatory.py 511-528) -/
  visitNight : Verif.Obs → ℕ
  exptime : ℚ
  altMin : ℚ
  altMax : ℚ
  haMax : ℚ
  haMin : ℚ
  sunMax : ℚ

/-- The survey: the two surveys it owns, `night`, and `r2`, the reward of the script at the last `calc_reward_function`. -/
structure St (B : Type) where
  blob : B
  script : Script.St
  night : ℤ
  r2 : XReal
  /-- an exception has been raised, or a loop does not end -/
  raised : Bool

/-- `__init__` (72-98). -/
def init (b : B) (idStart : ℕ) : St B := ⟨b, Script.init idStart, -1, .ninf, false⟩

/-- The columns of a visit that `_schedule_obs` reads (105-151). -/
def seen (g : Cfg C B) (o : Verif.Obs) : Long.Seen := ⟨o.schedulerNote, g.visitNight o, o.mjd, o.band, o.ra, o.dec⟩

/-- The row for the script (126-151, 196-200). -/
def row (g : Cfg C B) (e : Long.Sched) : Script.Entry where
  note := e.note
  band := e.src.band
  exptime := g.exptime
  mjd := e.mjd
  tol := g.long.tol
  flush := e.flush
  ra := e.src.ra
  dec := e.src.dec
  altMin := g.altMin
  altMax := g.altMax
  haMax := g.haMax
  haMin := g.haMin
  sunMax := g.sunMax
  moonMin := 0
  observed := false

/-- `_schedule_obs` (105-202): rows are appended to the script, with their numbers. -/
def schedule (g : Cfg C B) (l : List Verif.Obs) (s : St B) : St B :=
  if l = [] then { s with raised := true }
  else match Long.planned g.long g.fuel (l.map (seen g)) with
    | none => { s with raised := true }
    | some [] => s
    | some (e :: es) =>
      match Script.setScript (fun _ => none) s.script ((e :: es).map (row g)) true true with
      | none => { s with raised := true }
      | some t => { s with script := t }

/-- The first part of `calc_reward_function` (228-235): the script of the last night is cleared. -/
def clean (g : Cfg C B) (s : St B) (c : C) : St B := if g.night c ≠ s.night then { s with night := g.night c, script := Script.clear s.script } else s

/-- `np.nanmax`, nan without values. -/
def top (l : List XReal) : XReal := (XReal.nanmax l).getD .nan

/-- `calc_reward_function` (227-242). -/
def reward (g : Cfg C B) (s : St B) (c : C) : List XReal × St B :=
  let s := clean g s c
  let r1 := g.blob.reward s.blob c
  let r2 := (Script.ops g.cond g.value).reward (g.script, s.script) c
  ([if s.raised then .ninf else Long.reward (top r1.1) (top r2.1)], { s with blob := r1.2, script := r2.2.2, r2 := top r2.1 })

/-- `generate_observations` (248-262), after a `calc_reward_function`. What a scripted survey gives is never None. -/
def gen (g : Cfg C B) (s : St B) (c : C) : List Verif.Obs × St B :=
  if s.raised then ([], s)
  else if XReal.ltB .ninf s.r2 then
    let r := (Script.ops g.cond g.value).gen (g.script, s.script) c
    (r.1, { s with script := r.2.2 })
  else
    let r := g.blob.gen s.blob c
    (r.1, { s with blob := r.2 })

/-- `add_observation` (210-214). -/
def addObs (g : Cfg C B) (s : St B) (o : Verif.Obs) : St B :=
  let s := schedule g [o] s
  { s with blob := g.blob.addObs s.blob o, script := Script.addOne g.script s.script o.schedulerNote }

/-- `add_observations_array` (204-208). -/
def addArr (g : Cfg C B) (s : St B) (l : List Verif.Obs) : St B :=
  let s := schedule g l s
  { s with blob := g.blob.addArr s.blob l, script := Script.addArray s.script (l.map Verif.Obs.schedulerNote) }

/-- Long gap surveys among the surveys of a scheduler; `update_conditions` is that of the base class (base_survey.py), `get_scheduled_obs` (224-225) that of
the script. -/
def ops (cfgs : ι → Cfg C B) : SurveyOps C (ι × St B) where
  reward s c := ((reward (cfgs s.1) s.2 c).1, (s.1, (reward (cfgs s.1) s.2 c).2))
  gen s c := ((gen (cfgs s.1) s.2 c).1, (s.1, (gen (cfgs s.1) s.2 c).2))
  addObs s o := (s.1, addObs (cfgs s.1) s.2 o)
  addArr s l := (s.1, addArr (cfgs s.1) s.2 l)
  update s _ := s
  scheduled s := s.2.script.scheduled

end Verif.Lgs
