import Mathlib.Data.Rat.Floor
import Mathlib.Analysis.SpecialFunctions.Log.Base
import Mathlib.Analysis.SpecialFunctions.Trigonometric.Basic
import Verif.Model.Sphere

/-!
Model of `/repo/rubin_scheduler/utils/consdb.py`: the query with its retries, the nights asked for, and the columns made from those of the
consolidated database. SQL is modelled by the predicate of its `WHERE` clause; a column is `none` when it is missing or not numeric
(`_have_numeric_values`, 175-191), and its value for a visit is `none` for `nan`.
-/

namespace Verif.Cdb

/-! ### The query -/

/-- What the server answers to a request. -/
structure Reply (α : Type) where
  status : ℕ
  body : α

inductive Outcome (α : Type) where
  | data (a : α)
  | raised (status : ℕ)

/-- Whether `Response.raise_for_status` raises (in the library `requests`). -/
def Reply.isError {α : Type} (r : Reply α) : Bool := decide (400 ≤ r.status ∧ r.status < 600)

/-- The loop of `query_consdb` (113-123) after `sent` requests of which `failed` failed, for at most `fuel` more; `none` when it goes on. With the
outcome comes the number of requests sent. -/
def post {α : Type} (rs : ℕ → Reply α) : (fuel sent failed : ℕ) → Option (ℕ × Outcome α)
  | 0, _, _ => none
  | fuel + 1, sent, failed =>
    if (rs sent).status = 200 then some (sent + 1, .data (rs sent).body)
    else if 2 < failed + 1 ∧ (rs sent).isError then some (sent + 1, .raised (rs sent).status)
    else post rs fuel (sent + 1) (failed + 1)

/-! ### The nights -/

/-- A date of the calendar. -/
structure Date where
  y : ℕ
  m : ℕ
  d : ℕ
  deriving DecidableEq, Repr

/-- Leap years (Python's `calendar.isleap`). -/
def leap (y : ℕ) : Bool := y % 4 == 0 && (y % 100 != 0 || y % 400 == 0)

/-- Days of a month. -/
def monthDays (y m : ℕ) : ℕ := if m = 2 then (if leap y then 29 else 28) else if m = 4 ∨ m = 6 ∨ m = 9 ∨ m = 11 then 30 else 31

/-- The day before (`date - timedelta(days=1)`). -/
def Date.prev (t : Date) : Date :=
  if 1 < t.d then ⟨t.y, t.m, t.d - 1⟩ else if 1 < t.m then ⟨t.y, t.m - 1, monthDays t.y (t.m - 1)⟩ else ⟨t.y - 1, 12, 31⟩

/-- `date - timedelta(days=n)` (339). -/
def Date.back (t : Date) : ℕ → Date
  | 0 => t
  | n + 1 => (t.back n).prev

/-- `int(date.strftime("%Y%m%d"))` (327, 340). -/
def Date.code (t : Date) : ℕ := t.y * 10000 + t.m * 100 + t.d

/-- What the query looks at in a visit. -/
structure Row where
  dayObs : ℕ
  start : Option ℚ
  ra : Option ℚ
  dec : Option ℚ
  rotation : Option ℚ
  band : Option String
  filter : Option String
  deriving DecidableEq

/-- The `WHERE` clause (380-389), with the constraints of the user. -/
def wanted (day : Date) (nights : ℕ) (extra : Row → Bool) (r : Row) : Bool :=
  r.start.isSome && r.ra.isSome && r.dec.isSome && r.rotation.isSome && (r.band.isSome || r.filter.isSome) &&
    decide (r.dayObs ≤ day.code) && decide ((day.back nights).code < r.dayObs) && extra r

/-- `consdb_visits` (330-391) over the rows of the table. -/
def visits (day : Date) (nights : ℕ) (extra : Row → Bool) (table : List Row) : List Row := table.filter (wanted day nights extra)

/-- The columns asked for (369-373): those of the visits, marked `false`, and those of the quick look that are not among them, marked `true`. -/
def columns (visit quick : List String) : List (Bool × String) :=
  visit.map (fun c => (false, c)) ++ (quick.filter fun c => !visit.contains c).map (fun c => (true, c))

/-! ### Columns with replacements -/

/-- A numeric column at one visit. -/
abbrev Cell := Option (Option ℚ)

/-- The mean of two columns. -/
def mean (a b : Option ℚ) : Option ℚ :=
  match a, b with
  | some a, some b => some ((a + b) / 2)
  | _, _ => none

/-- `azimuth` and `altitude` (1157-1168, 1171-1182). -/
def middle (own first last : Cell) : Option ℚ :=
  match own with
  | some v => v
  | none =>
    match first with
    | none => none
    | some a =>
      match last with
      | none => a
      | some b => mean a b

/-- `obs_midpt_mjd` (463-480). -/
def midpoint (own last : Cell) (start : ℚ) (shut : Option ℚ) : Option ℚ :=
  match own with
  | some v => v
  | none =>
    match last with
    | some e => e.map fun e => (start + e) / 2
    | none => shut.map fun s => start + (1 / 2 * s) / 86400

/-- `visit_time` (663). -/
def visitTime (start stop : ℚ) : ℚ := (stop - start) * 24 * 60 * 60

/-- The guess of `observation_id` (1145). -/
def guessId (dayObs seqNum : ℕ) : ℕ := dayObs * 10000 + seqNum

/-- `band` (1225-1229). -/
def bandOf (band filter : Option String) : Option String :=
  match band with
  | some b => some b
  | none => filter.bind fun f => f.toList.head?.map fun c => String.ofList [c]

/-- The earliest of all starts and the start of the survey (795). -/
def refMjd (surveyStart : ℚ) : List ℚ → ℚ
  | [] => surveyStart
  | t :: ts => min t (refMjd surveyStart ts)

/-- `night` (795-796) of a visit among those with the given starts. -/
def night (surveyStart : ℚ) (starts : List ℚ) (t : ℚ) : ℤ := ⌊t - 1 / 2⌋ - ⌊refMjd surveyStart starts - 1 / 2⌋

noncomputable section

open Real

/-- The airmass without one in the database (1194-1195), zenith distance in radians. -/
def airmass (zd : ℝ) : ℝ := let a := 470 * cos zd; sqrt (a ^ 2 + 941) - a

/-- `eff_time_m5` (1218). -/
def effDepth (ref effTime : ℝ) : ℝ := ref + 1.25 * logb 10 (effTime / 30)

/-- `atmospheric_extinction_with_clouds_and_air` (1258-1261); `zpT` is the zero point of the band for one second. -/
def extinction (zpT shut zeroPoint : ℝ) : ℝ := zeroPoint - (zpT + 2.5 * logb 10 shut)

/-- `sky_mag_per_asec` (923-924). -/
def skyMag (zpT shut zeroPoint sky pixel : ℝ) : ℝ := zeroPoint - extinction zpT shut zeroPoint - 2.5 * logb 10 (sky / pixel ^ 2)

/-- `fwhm_eff` (961). -/
def fwhmEff (pixel area : ℝ) : ℝ := 0.663 * pixel * sqrt area

/-- `slew_distance` (685-697), in radians: visits as they were returned, each with right ascension and declination. -/
def slews : Option (ℝ × ℝ) → List (ℝ × ℝ) → List (Option ℝ)
  | _, [] => []
  | none, v :: vs => none :: slews (some v) vs
  | some p, v :: vs => some (Sph.sep p.1 p.2 v.1 v.2) :: slews (some v) vs

end

end Verif.Cdb
