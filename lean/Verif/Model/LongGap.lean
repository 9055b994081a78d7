import Mathlib.Data.Rat.Floor
import Mathlib.Data.String.Basic
import Verif.Model.XReal

/-!
Model of `LongGapSurvey` (`/repo/rubin_scheduler/scheduler/surveys/long_gap_survey.py`): after
the second visit of a pair a third one is scheduled for later in the night.

Simplifications.  Times are exact rationals in days.  The gaps drawn for the nights
(`self.gaps`) are a function of the night, altitudes a function of the visit and the time.  The
script of the scripted survey is the list of what was appended to it; the number that
`set_script` adds to each note is left out.  `none` stands for a
Python exception, or for a loop that does not end within the fuel given.
-/

namespace Verif.Long

/-- A completed visit. -/
structure Seen where
  note : String
  night : ℕ
  mjd : ℚ
  band : String
  ra : ℚ := 0
  dec : ℚ := 0
deriving DecidableEq, Repr

/-- A scheduled visit. -/
structure Sched where
  src : Seen
  mjd : ℚ
  flush : ℚ
  note : String
deriving DecidableEq, Repr

/-- Settings, in days (long_gap_survey.py 46-98). `alt v t` is the altitude of the position
of visit `v` at time `t`. -/
structure Cfg where
  blobNote : String
  longName : String
  gaps : ℕ → ℚ
  tol : ℚ
  flush : ℚ
  block : ℚ
  avoid : Bool
  altMax : ℚ
  step : ℚ
  alt : Seen → ℚ → ℚ

/-- The survey: `night`, `gap` and the script. -/
structure State where
  night : ℤ
  gap : ℚ
  script : List Sched
deriving DecidableEq

/-- A new survey (long_gap_survey.py 74-78). -/
def new : State := { night := -1, gap := 0, script := [] }

/-- `np.max(observations["night"])`. -/
def lastNight (obs : List Seen) : ℕ := (obs.map (·.night)).foldl max 0

/-- `need_to_observe` (long_gap_survey.py 110-124). -/
def second (g : Cfg) (obs : List Seen) : List Seen :=
  obs.filter (fun v => decide (v.note = g.blobNote ++ ", b") && decide (v.night = lastNight obs))

/-- The new script entries with the gap (long_gap_survey.py 131-151, 197-200). -/
def entry (g : Cfg) (gap : ℚ) (v : Seen) : Sched :=
  { src := v, mjd := v.mjd + gap, flush := v.mjd + g.flush + gap, note := g.longName }

/-- `np.arange(lo, hi, step)` (long_gap_survey.py 157-161, 180-184). -/
def arange (lo hi step : ℚ) : List ℚ := (List.range ⌈(hi - lo) / step⌉.toNat).map (fun (k : ℕ) => lo + (k : ℚ) * step)

/-- Smallest and largest of the times of a script. -/
def minT (x : ℚ) (xs : List ℚ) : ℚ := xs.foldl min x
/-- As `minT`. -/
def maxT (x : ℚ) (xs : List ℚ) : ℚ := xs.foldl max x

/-- The times at which altitudes are looked at (long_gap_survey.py 155-161, 179-184). -/
def samples (g : Cfg) : List Sched → List ℚ
  | [] => []
  | e :: es => arange (minT (e.mjd - g.tol) (es.map (fun x => x.mjd - g.tol)))
      (maxT e.mjd (es.map (·.mjd)) + g.step) g.step

/-- `np.max(alts) > self.alt_max` (long_gap_survey.py 164-174): some position is above the
limit at some of the times. -/
def tooHigh (g : Cfg) (l : List Sched) : Bool :=
  (samples g l).any (fun t => l.any (fun e => decide (g.altMax < g.alt e.src t)))

/-- One step later (long_gap_survey.py 176-177). -/
def later (g : Cfg) (l : List Sched) : List Sched :=
  l.map (fun e => { e with mjd := e.mjd + g.step, flush := e.flush + g.step })

/-- The loop (long_gap_survey.py 174-195). -/
def settle (g : Cfg) : ℕ → List Sched → Option (List Sched)
  | 0, _ => none
  | k + 1, l => if tooHigh g l then settle g k (later g l) else some l

/-- The scheduled visits for some completed ones (long_gap_survey.py 105-202). -/
def planned (g : Cfg) (fuel : ℕ) (obs : List Seen) : Option (List Sched) :=
  match (second g obs).map (entry g (g.gaps (lastNight obs))) with
  | [] => some []
  | e :: es => if g.avoid then settle g fuel (e :: es) else some (e :: es)

/-- `_schedule_obs` (long_gap_survey.py 105-202): no visits at all raise (`np.max`). -/
def scheduleObs (g : Cfg) (fuel : ℕ) (obs : List Seen) (s : State) : Option State :=
  match obs with
  | [] => none
  | o :: os =>
    match planned g fuel (o :: os) with
    | none => none
    | some l => some { s with gap := g.gaps (lastNight (o :: os)), script := s.script ++ l }

/-- The part of `calc_reward_function` that changes the survey (long_gap_survey.py 228-235). -/
def newNight (g : Cfg) (night : ℕ) (mjd rising : ℚ) (s : State) : State :=
  if (night : ℤ) ≠ s.night then
    { night := night, script := [],
      gap := if rising - mjd < g.gaps night then rising - mjd - g.block else g.gaps night }
  else s

/-- The reward (long_gap_survey.py 239-242): the larger of the two rewards, nan left out. -/
def reward (r1 r2 : XReal) : XReal := (XReal.nanmax [r1, r2]).getD .nan

/-- What is handed out (long_gap_survey.py 248-262): the script if it has something, else the
blob. -/
def generate {α : Type} (r2 : XReal) (scripted : Option α) (blob : Option α) : Option α :=
  if r2 = .ninf ∨ r2 = .nan then blob
  else
    match scripted with
    | some x => some x
    | none => blob

end Verif.Long
