import Verif.Model.PreschedObs

/-!
Specification for the scheduled visits of the deep drilling fields.
-/

namespace Verif

open Pre

/-- The fields a row of the table asks for: the one it names, and for the Euclid pair also the second. -/
def FieldOf (w : Want) (field : String) : Prop := field = w.name ∨ Feat.isIn "EDFS" w.name = true ∧ field = other w.name

/-- Visit `v` is one a row asks for, at time `t` in band `b` of `field`. -/
structure Asked (o : Opts) (locs : String → Option (ℚ × ℚ)) (w : Want) (t : ℚ) (b field : String) (v : Sv) : Prop where
  known : FieldOf w field
  place : locs field = some (v.ra, v.dec)
  note : v.note = "DD:" ++ field
  time : v.mjd = t
  flush : v.flushBy = t + w.flush
  band : v.band = b
  exptime : v.exptime = o.expt b
  nexp : v.nexp = o.snaps b
  tol : v.mjdTol * 24 * 60 = o.mjdTol ∧ v.distTol = o.distTol
  limits : v.haMin = o.haMin ∧ v.haMax = o.haMax ∧ v.altMin = o.altMin ∧ v.altMax = o.altMax ∧ v.sunAltMax = o.sunAltMax

/-- The number of visits in a band in one sequence. -/
def visitsOf (w : Want) (b : String) : ℕ := if Feat.isIn "EDFS" w.name = true then w.visits b + w.visits b % 2 else w.visits b

end Verif
