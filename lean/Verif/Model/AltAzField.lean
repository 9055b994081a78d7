import Verif.Model.Sphere
import Verif.Model.Field
import Verif.Model.Reward

/-!
Model of field surveys in horizontal coordinates
(`FieldAltAzSurvey`, `/repo/rubin_scheduler/scheduler/surveys/field_survey.py` 322-432) and of the detailer that turns
their positions into right ascension and declination (`AltAz2RaDecDetailer`,
`/repo/rubin_scheduler/scheduler/detailers/detailer.py` 509-523).

Times of the queue are rationals as in `Model/Field`, angles real numbers as in `Model/Sphere`.  Of the detailers of the survey the model
keeps whether the conversion is among them.  The number of the pixel of a position (healpy) is an input.
-/

namespace Verif.Azf

open Verif.Fld (Item)

noncomputable section

/-- A visit: the columns of a field survey, the horizontal position, and the position on the sky, `none` for nan. -/
structure AVisit where
  item : Item
  alt : ℝ
  az : ℝ
  sky : Option (ℝ × ℝ)

/-- The place of the telescope: latitude and longitude (radians). -/
structure Place where
  lat : ℝ
  lon : ℝ

/-- The position on the sky at a time (detailer.py 513-519, field_survey.py 398). -/
def skyAt (p : Place) (mjd alt az : ℝ) : ℝ × ℝ := Sph.fromAltAz alt az p.lat (Sph.lmst mjd p.lon)

/-- The observations of the survey have the horizontal position in place of that on the sky (field_survey.py 391-394). -/
def horizontal (alt az : ℝ) (v : Item) : AVisit := ⟨v, alt, az, none⟩

/-- `AltAz2RaDecDetailer.__call__` (detailer.py 512-523) for one visit. -/
def convert (p : Place) (mjd : ℝ) (v : AVisit) : AVisit := { v with sky := some (skyAt p mjd v.alt v.az) }

/-- `generate_observations` (base_survey.py 311-316 with field_survey.py 248-260): the visits handed out. `hasConvert` says whether the
conversion is among the detailers: it is if none are given, and its absence is noticed but not refused (field_survey.py 348-356). -/
def handOut (hasConvert : Bool) (p : Place) (feasible : Bool) (mjd : ℚ) (mounted : List String) (read change pad : ℚ) (alt az : ℝ)
    (l : List Item) : List AVisit :=
  let rough := (Fld.fieldRough feasible mjd mounted read change pad l).map (horizontal alt az)
  if hasConvert then rough.map (convert p mjd) else rough

/-- `roi_hpid` (field_survey.py 396-400): the pixel of the position at the current time. -/
def pixel (hpid : ℝ → ℝ → ℕ) (p : Place) (mjd alt az : ℝ) : ℕ :=
  hpid (skyAt p mjd alt az).1 (skyAt p mjd alt az).2

/-- `calc_reward_function` (field_survey.py 408-432): as for a field, at that pixel. -/
def reward (hpid : ℝ → ℝ → ℕ) (p : Place) (mjd alt az : ℝ) (bs : List (Rew.Basis × ℚ)) : Option Rew.Val :=
  Rew.reward (.field (pixel hpid p mjd alt az)) bs

end

end Verif.Azf
