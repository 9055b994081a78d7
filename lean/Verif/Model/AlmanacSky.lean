import Verif.Model.Sphere

/-!
Model of the positions of sun, moon and planets in the almanac (`/repo/rubin_scheduler/site_models/almanac.py`).

Interpolation (`scipy.interpolate.interp1d`, of a kind chosen by the caller, quadratic splines without a choice) is a parameter: a function of the samples and
the time, `none` where it raises.  Linear interpolation is modelled.  Angles are radians.  Positions are asked for at one time.
-/

namespace Verif.Alm

open Real Sph

noncomputable section

/-- A row of the table of sun and moon (30-33). -/
structure Row where
  mjd : ℝ
  sunAlt : ℝ
  sunAz : ℝ
  sunRA : ℝ
  sunDec : ℝ
  moonAlt : ℝ
  moonAz : ℝ
  moonRA : ℝ
  moonDec : ℝ
  moonPhase : ℝ

/-- What the answer holds (181-201). -/
structure Pos where
  sunAlt : ℝ
  sunAz : ℝ
  sunRA : ℝ
  sunDec : ℝ
  moonAlt : ℝ
  moonAz : ℝ
  moonRA : ℝ
  moonDec : ℝ
  moonPhase : ℝ

/-- Interpolation of samples, at rising positions. -/
abbrev Interp := List (ℝ × ℝ) → ℝ → Option ℝ

/-- The interval of samples that holds a position, and the values at its ends on the line between. -/
def piece : List (ℝ × ℝ) → ℝ → Option ℝ
  | p :: q :: rest, x =>
    if x ≤ q.1 then some (p.2 + (x - p.1) / (q.1 - p.1) * (q.2 - p.2)) else piece (q :: rest) x
  | _, _ => none

/-- `interp1d` with `kind="linear"`: outside the samples it raises. -/
def linear : Interp
  | p :: rest, x => if x < p.1 then none else piece (p :: rest) x
  | [], _ => none

/-- The samples of one quantity (34-48, 57-65). -/
def column {R : Type} (t : List R) (m f : R → ℝ) : List (ℝ × ℝ) := t.map fun r => (m r, f r)

/-- Negative angles go up by a full turn (80-81, 197-198). -/
def up (a : ℝ) : ℝ := if a < 0 then 2 * π + a else a

/-- An angle, interpolated by its sine and cosine (72-82, 187-199). -/
def angle {R : Type} (I : Interp) (t : List R) (m f : R → ℝ) (x : ℝ) : Option ℝ :=
  match I (column t m (fun r => sin (f r))) x, I (column t m (fun r => cos (f r))) x with
  | some s, some c => some (up (atan2 s c))
  | _, _ => none

/-- `get_sun_moon_positions` (177-201). -/
def sunMoon (I : Interp) (t : List Row) (x : ℝ) : Option Pos := do
  let sunAlt ← I (column t Row.mjd Row.sunAlt) x
  let sunDec ← I (column t Row.mjd Row.sunDec) x
  let moonAlt ← I (column t Row.mjd Row.moonAlt) x
  let moonDec ← I (column t Row.mjd Row.moonDec) x
  let moonPhase ← I (column t Row.mjd Row.moonPhase) x
  let sunAz ← angle I t Row.mjd Row.sunAz x
  let moonAz ← angle I t Row.mjd Row.moonAz x
  let sunRA ← angle I t Row.mjd Row.sunRA x
  let moonRA ← angle I t Row.mjd Row.moonRA x
  some ⟨sunAlt, sunAz, sunRA, sunDec, moonAlt, moonAz, moonRA, moonDec, moonPhase⟩

/-- A row of the table of planets (50-54): the planets are numbered. -/
structure PRow where
  mjd : ℝ
  ra : ℕ → ℝ
  dec : ℕ → ℝ

/-- `get_planet_positions` (67-83) for one planet: right ascension and declination. -/
def planet (I : Interp) (t : List PRow) (k : ℕ) (x : ℝ) : Option (ℝ × ℝ) := do
  let dec ← I (column t PRow.mjd (fun r => r.dec k)) x
  let ra ← angle I t PRow.mjd (fun r => r.ra k) x
  some (ra, dec)

end

end Verif.Alm
