import Mathlib.Data.Rat.Floor
import Mathlib.Algebra.Order.Floor.Ring

/-!
Model of `ShortExptDetailer` and of the constructor of `PlanAheadSurvey`
(`/repo/rubin_scheduler/scheduler/detailers/short_survey.py`,
`/repo/rubin_scheduler/scheduler/surveys/plan_night_survey.py`).

The sky is a set of pixel numbers. `none` is a Python exception.
-/

namespace Verif.Short

/-- A visit: the columns the detailer reads or writes; `rest` stands for the others. -/
structure Row where
  band : String
  ra : ℚ
  dec : ℚ
  exptime : ℚ
  nexp : ℕ
  note : String
  flush : ℚ
  rest : ℕ := 0
deriving DecidableEq, Repr

/-- The options (short_survey.py 34-63) and the lookup of the pixels of a field (70). -/
structure Cfg where
  exptime : ℚ := 1
  band : String := "r"
  footprint : ℕ → ℚ
  nobs : ℚ := 2
  name : String := "short"
  readApprox : ℚ := 2
  nightMax : Option ℕ := none
  nRepeat : ℕ := 1
  timeScale : Bool := false
  pixels : ℚ → ℚ → List ℕ

/-- The names one can ask of the package `features`: those listed in its two modules
(features.py 1-15, conditions.py 1, features/__init__.py 1-2). -/
def exported : List String :=
  ["BaseFeature", "BaseSurveyFeature", "NObsCount", "LastObservation", "NObservations", "LastObserved", "NObsNight", "PairInNight",
   "NObservationsCurrentSeason", "LastNObsTimes", "NoteInNight", "LastObservationMjd", "LastObservedMatching", "Conditions"]

/-- `features.<name>`: an AttributeError for a name that is not there. -/
def attr (names : List String) (n : String) : Option String := if names.contains n then some n else none

/-- `ShortExptDetailer.__init__` (short_survey.py 34-70): the feature is looked up by name. -/
def new (names : List String) (cfg : Cfg) : Option Cfg := (attr names "N_observations").map (fun _ => cfg)

/-- `PlanAheadSurvey.__init__` up to its feature (plan_night_survey.py 46-55). -/
def planNew (names : List String) : Option Unit := (attr names "Last_observed").map (fun _ => ())

/-- How many short visits there should be by now (short_survey.py 82-85). Dividing by
`night_max = None` raises, and so does dividing by zero. -/
def goal (cfg : Cfg) (night : ℕ) : Option ℚ :=
  if cfg.timeScale then
    match cfg.nightMax with
    | none => none
    | some m => if m = 0 then none else some (cfg.nobs * (⌈(night : ℚ) / m⌉ : ℤ))
  else some cfg.nobs

/-- The pixels of a field that still want short visits (short_survey.py 90-94). -/
def wanting (cfg : Cfg) (count : ℕ → ℚ) (g : ℚ) (o : Row) : List ℕ :=
  ((cfg.pixels o.ra o.dec).filter (fun p => decide (cfg.footprint p > 0))).filter (fun p => decide (count p < g))

/-- How many short visits follow a visit (short_survey.py 89-96). -/
def extra (cfg : Cfg) (count : ℕ → ℚ) (g : ℚ) (o : Row) : ℕ :=
  if o.band = cfg.band then (if (wanting cfg count g o).length > 0 then cfg.nRepeat else 0) else 0

/-- A short visit (short_survey.py 97-100). -/
def short (cfg : Cfg) (o : Row) : Row := { o with exptime := cfg.exptime, nexp := 1, note := cfg.name }

/-- The seconds added (short_survey.py 86, 102). -/
def added (cfg : Cfg) (count : ℕ → ℚ) (g : ℚ) (l : List Row) : ℚ :=
  (l.map (fun o => (extra cfg count g o : ℚ) * (cfg.exptime + cfg.readApprox))).sum

/-- Lengthen the time a visit is valid (short_survey.py 104-105). The rows of the incoming list
are in the outgoing one, so they change there too; the copies do not. -/
def bump (t : ℚ) (o : Row) : Row := { o with flush := o.flush + t / 3600 / 24 }

/-- `ShortExptDetailer.__call__` (short_survey.py 72-106). -/
def call (cfg : Cfg) (count : ℕ → ℚ) (night : ℕ) (l : List Row) : Option (List Row) :=
  match cfg.nightMax with
  | some m => if night > m then some l else
    match goal cfg night with
    | none => none
    | some g => some (l.flatMap (fun o => bump (added cfg count g l) o :: List.replicate (extra cfg count g o) (short cfg o)))
  | none =>
    match goal cfg night with
    | none => none
    | some g => some (l.flatMap (fun o => bump (added cfg count g l) o :: List.replicate (extra cfg count g o) (short cfg o)))

end Verif.Short
