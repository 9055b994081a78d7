import Mathlib.Data.List.Sort
import Mathlib.Data.Rat.Defs
import Mathlib.Algebra.Order.Ring.Rat
import Mathlib.Data.String.Basic

/-!
Model of the sequences of field and deep drilling surveys
(`/repo/rubin_scheduler/scheduler/surveys/field_survey.py` 71-262, `dd_surveys.py` 45-180):
how a sequence is built, how long it is expected to take and what is handed out.

Simplifications.  Times are exact rationals.  Only the columns set by these surveys are kept.
The feasibility check is a flag (see `Model/Reward`).  `none` stands for a Python exception.
-/

namespace Verif.Fld

/-- A visit of a sequence. -/
structure Item where
  band : String
  exptime : ℚ
  nexp : ℕ
  ra : ℚ
  dec : ℚ
  note : String
  flush : ℚ
deriving DecidableEq, Repr

/-- One visit of a field survey (field_survey.py 165-171). `flush_by_mjd` is 0 in a new
observation. -/
def item (ra dec : ℚ) (note band : String) (exptime : ℚ) (nexp : ℕ) : Item :=
  { band := band, exptime := exptime, nexp := nexp, ra := ra, dec := dec, note := note, flush := 0 }

/-- The visits of a field survey for one band of the sequence (field_survey.py 163-172). A
band missing from a dictionary raises `KeyError`; the dictionaries of exposures are only looked
at when there is a visit. -/
def bandItems (ra dec : ℚ) (note : String) (nvisits : String → Option ℕ) (exptimes : String → Option ℚ)
    (nexps : String → Option ℕ) (band : String) : Option (List Item) :=
  match nvisits band with
  | none => none
  | some 0 => some []
  | some (n + 1) =>
    match exptimes band, nexps band with
    | some e, some x => some (List.replicate (n + 1) (item ra dec note band e x))
    | _, _ => none

/-- `self.observations` of a field survey (field_survey.py 152-176): the sequence is a string
or a list of band names. Nothing to concatenate raises. -/
def fieldItems (ra dec : ℚ) (note : String) (nvisits : String → Option ℕ) (exptimes : String → Option ℚ)
    (nexps : String → Option ℕ) (sequence : List String) : Option (List Item) :=
  match (sequence.mapM (bandItems ra dec note nvisits exptimes nexps)).map List.flatten with
  | some (x :: xs) => some (x :: xs)
  | _ => none

/-- One visit of a deep drilling survey (dd_surveys.py 89-98). -/
def ddfItem (ra dec : ℚ) (note : String) (exptime uExptime : ℚ) (nexp : ℕ) (band : String) : Item :=
  item ra dec note band (if band = "u" then uExptime else exptime) nexp

/-- `self.observations` of a deep drilling survey before the sort (dd_surveys.py 85-104). -/
def ddfItems (ra dec : ℚ) (note : String) (exptime uExptime : ℚ) (nexp : ℕ) (nvis : List ℕ) (sequence : List String) :
    List Item :=
  (nvis.zip sequence).flatMap (fun p => List.replicate p.1 (ddfItem ra dec note exptime uExptime nexp p.2))

/-- `self.observations[np.argsort(self.observations["band"])]` (dd_surveys.py 105-106). (The
sort of numpy need not be stable; here it is. Visits in one band only differ if the sequence
was handed over as a list of observations.) -/
def ddfSorted (l : List Item) : List Item := l.insertionSort (fun a b => a.band ≤ b.band)

/-- `n_band_change` (field_survey.py 180, dd_surveys.py 108). -/
def nBands (l : List Item) : ℕ := (l.map (·.band)).dedup.length

/-- The estimate in seconds (field_survey.py 186-189, dd_surveys.py 113-116). -/
def approxSeconds (read change : ℚ) (l : List Item) : ℚ :=
  (l.map (fun v => v.exptime + read * v.nexp)).sum + change * nBands l

/-- `approx_time` of a field survey: the quotient of two numbers is divided by, 150 instead
of 86400 (field_survey.py 186-191). -/
def approxField (read change : ℚ) (l : List Item) : ℚ := approxSeconds read change l / (3600 / 24)

/-- `approx_time` of a deep drilling survey in days (dd_surveys.py 113-116). -/
def approxDdf (read change : ℚ) (l : List Item) : ℚ :=
  (l.map (fun v => v.exptime + read * v.nexp)).sum / 3600 / 24 + change * nBands l / 3600 / 24

/-- `flush_pad` in days from minutes (field_survey.py 130, dd_surveys.py 83). -/
def padDays (pad : ℚ) : ℚ := pad / 60 / 24

/-- Visits in mounted bands, with the time after which they are dropped (field_survey.py
251-258, dd_surveys.py 160-167). -/
def available (mounted : List String) (flush : ℚ) (l : List Item) : List Item :=
  (l.map (fun v => { v with flush := flush })).filter (fun v => decide (v.band ∈ mounted))

/-- `FieldSurvey.generate_observations_rough` (field_survey.py 248-260). -/
def fieldRough (feasible : Bool) (mjd : ℚ) (mounted : List String) (read change pad : ℚ) (l : List Item) : List Item :=
  if feasible then available mounted (mjd + approxField read change l + padDays pad) l else []

/-- The visits in the current band first (dd_surveys.py 169-171). -/
def currentFirst (current : String) (l : List Item) : List Item :=
  l.filter (fun v => decide (v.band = current)) ++ l.filter (fun v => decide (v.band ≠ current))

/-- `DeepDrillingSurvey.generate_observations_rough` (dd_surveys.py 157-173). -/
def ddfRough (feasible : Bool) (mjd : ℚ) (mounted : List String) (current : String) (read change pad : ℚ)
    (l : List Item) : List Item :=
  if feasible then currentFirst current (available mounted (mjd + approxDdf read change l + padDays pad) l) else []

end Verif.Fld
