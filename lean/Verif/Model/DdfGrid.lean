import Verif.Model.Presched
import Verif.Model.LongGap

/-!
Model of the grid of times and conditions for deep drilling fields
(`/repo/rubin_scheduler/scheduler/surveys/generate_ddf_grid.py`). Line numbers refer to that file. Numbers are rational; `none` stands for `nan` in lists of
numbers, and for an exception as the result of a function. Progress messages (88-93) and the types of the columns are not modelled.
-/

namespace Verif.Dgr

/-- What the model of the sky (`rubin_sim.skybrightness`, not in this repository) says of a time: Sun and Moon in radians and per cent, and the brightness in g and
the airmass at each field (95-110). -/
structure Reading where
  sunAlt : ℚ
  moonAlt : ℚ
  moonPhase : ℚ
  mags : List (Option ℚ)
  airmass : List (Option ℚ)
deriving DecidableEq, Repr

/-- The models used: the sky (95-98; `none` for a `ValueError`, which is taken to leave the reading before in place), the next morning twilight (106-108) and the depth
from sky and airmass by the model of seeing and `m5_flat_sed` (122-126; `none` when not finite). -/
structure Models where
  read : ℚ → Option Reading
  rising : ℚ → ℚ
  depth : Option ℚ → Option ℚ → Option ℚ

/-- A row of the table (69-77, 112-126). -/
structure Row where
  mjd : ℚ
  sunAlt : ℚ
  rising : ℚ
  moonPhase : ℚ
  moonAlt : ℚ
  airmass : List (Option ℚ)
  sky : List (Option ℚ)
  m5 : List (Option ℚ)
deriving DecidableEq, Repr

/-- Times zero (100-101). -/
def timesZero (x : Option ℚ) : Option ℚ := x.map (· * 0)

/-- The sky model after it was set to a time (95-98). -/
def after (M : Models) (st : Option Reading) (mjd : ℚ) : Option Reading :=
  match M.read mjd with
  | some r => some r
  | none => st.map fun r => { r with sunAlt := 12 }

/-- The row of a time (99-110, 117-126). -/
def rowOf (M : Models) (limit mjd : ℚ) (r : Reading) : Row :=
  let mags := if limit < r.sunAlt then r.mags.map timesZero else r.mags
  let air := if limit < r.sunAlt then r.airmass.map timesZero else r.airmass
  ⟨mjd, r.sunAlt, M.rising mjd, r.moonPhase, r.moonAlt, air, mags, List.zipWith M.depth mags air⟩

/-- The loop over times (87-110). A sky model that was never set raises (100). -/
def loop (M : Models) (limit : ℚ) : Option Reading → List ℚ → Option (List Row)
  | _, [] => some []
  | st, t :: ts =>
    match after M st t with
    | none => none
    | some r => (loop M limit (some r) ts).map fun rows => rowOf M limit t r :: rows

/-- `generate_ddf_grid` (16-128): `deltaT` in minutes, `years` of 365.25 days, the limit on the Sun in radians. -/
def grid (M : Models) (mjd0 deltaT years limit : ℚ) : Option (List Row) :=
  loop M limit none (Long.arange mjd0 (mjd0 + years * 365.25) (deltaT / 60 / 24))

/-- The columns of one field, as `optimize_ddf_times` reads them, with the nights of the almanac (lsst_ddf_presched.py 319-361). -/
def fieldRow (night : ℚ → ℤ) (k : ℕ) (r : Row) : Pre.Row :=
  ⟨r.mjd, night r.mjd, r.sunAlt, (r.airmass[k]?).getD none, (r.sky[k]?).getD none, (r.m5[k]?).getD none, r.moonPhase⟩

end Verif.Dgr
