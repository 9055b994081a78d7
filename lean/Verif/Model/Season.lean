import Verif.Model.IntRounded
import Verif.Model.Angles

/-!
Model of the season arithmetic
(`/repo/rubin_scheduler/scheduler/utils/utils.py` 889-941 and
`/repo/rubin_scheduler/utils/season_utils.py` 10-101).
-/

namespace Verif.Season

open Ang

/-- `season_calc` (utils.py 889-928).  `xs` are the pairs (night, offset) after numpy has
broadcast `night + offset` (lines 911-913); the optional arguments are as in the code.  The
result is kept as rationals; with `floor` all of them are whole numbers, and line 926-927
only changes their type. -/
def seasonCalc (xs : List (ℚ × ℚ)) (modulo : Option ℚ) (maxSeason : Option ℚ) (len : ℚ) (floor : Bool) : List ℚ :=
  -- 913-916
  let r := xs.map (fun x => let y := (x.1 + x.2) / len; if floor then (⌊y⌋ : ℚ) else y)
  -- 917-918
  let over : List Bool := match maxSeason with
    | none => r.map (fun _ => false)
    | some m => geA Tol.default (r.map (fun y => (y, m)))
  -- 920-923
  let r' := match modulo with
    | none => r
    | some m => List.zipWith (fun neg y => if neg then -1 else md m y) (ltA Tol.default (r.map (fun y => (y, 0)))) r
  -- 924-925
  List.zipWith (fun o y => if o then -1 else y) over r'

/-- `create_season_offset` (utils.py 931-941) for one position: the right ascension and the
right ascension of the sun, with a full turn `T` (the code has `2 * np.pi`). -/
def seasonOffset (T ra sunRa : ℚ) : ℚ := -(md T (ra - sunRa + T) * 365.25 / T) - 365.25

/-- The day of the reference year on which a season begins at this right ascension
(season_utils.py 75-82), in degrees. -/
def refBegan (ra : ℚ) : ℚ := 60940 + (ra - 178.98403541421598) / 360 * 365.25

/-- `calc_season` (season_utils.py 10-101) for one position (degrees) and one time. -/
def calcSeason (ra mjd mjdStart : ℚ) : ℚ :=
  let began := refBegan ra
  let began := began - ⌊(began - mjdStart) / 365.25⌋ * 365.25
  (mjd - began) / 365.25

end Verif.Season
