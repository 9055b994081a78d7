import Verif.Model.Schema

/-! What an array of visits is, and what the columns of the output mean. -/

namespace Verif.Sch

/-- A value that a column of this kind can hold. -/
def Fits : Kind → Val → Prop
  | .int, v => ∃ z : ℤ, v = .num z
  | .float, v => (∃ x, v = .num x) ∨ v = .nan
  | .text n, v => ∃ s : String, v = .str s ∧ s.toList.length ≤ n

/-- An array of visits: the columns of `ObservationArray`, in order, filled with fitting values. -/
structure Visits (o : Frame) : Prop where
  names : o.names = dtype.map Prod.fst
  fits : ∀ k t v, (k, t) ∈ dtype → o.col k = some v → v.length = o.rows ∧ ∀ x ∈ v, Fits t x

/-- The columns of the output as documented (docs/output_schema): name, column of the visits, and what
the numbers are multiplied with (`deg` turns radians into degrees, 15 hours into degrees). -/
def meaning (deg : ℚ) : List (String × String × ℚ) := [("observationId", "ID", 1), ("fieldRA", "RA", deg), ("fieldDec", "dec", deg),
  ("observationStartMJD", "mjd", 1), ("flush_by_mjd", "flush_by_mjd", 1), ("visitExposureTime", "exptime", 1), ("rotSkyPos", "rotSkyPos", deg),
  ("rotSkyPos_desired", "rotSkyPos_desired", deg), ("numExposures", "nexp", 1), ("airmass", "airmass", 1), ("seeingFwhm500", "FWHM_500", 1),
  ("seeingFwhmEff", "FWHMeff", 1), ("seeingFwhmGeom", "FWHM_geometric", 1), ("skyBrightness", "skybrightness", 1), ("night", "night", 1),
  ("slewTime", "slewtime", 1), ("visitTime", "visittime", 1), ("slewDistance", "slewdist", deg), ("fiveSigmaDepth", "fivesigmadepth", 1),
  ("altitude", "alt", deg), ("azimuth", "az", deg), ("paraAngle", "pa", deg), ("pseudoParaAngle", "pseudo_pa", deg), ("cloud", "clouds", 1),
  ("moonAlt", "moonAlt", deg), ("sunAlt", "sunAlt", deg), ("target_id", "target_id", 1), ("observationStartLST", "lmst", 15),
  ("rotTelPos", "rotTelPos", deg), ("rotTelPos_backup", "rotTelPos_backup", deg), ("moonAz", "moonAz", deg), ("sunAz", "sunAz", deg),
  ("sunRA", "sunRA", deg), ("sunDec", "sunDec", deg), ("moonRA", "moonRA", deg), ("moonDec", "moonDec", deg), ("moonDistance", "moonDist", deg),
  ("solarElong", "solarElong", deg), ("moonPhase", "moonPhase", 1), ("cummTelAz", "cummTelAz", deg), ("cloud_extinction", "cloud_extinction", 1)]

/-- The columns with text keep their names. -/
def texts : List String := ["band", "filter", "scheduler_note", "target_name", "observation_reason", "science_program"]

/-- A number multiplied; nan stays. -/
def times (c : ℚ) : Val → Val
  | .num x => .num (x * c)
  | v => v

end Verif.Sch
