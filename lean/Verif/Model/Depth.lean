import Mathlib.Analysis.SpecialFunctions.Log.Base
import Mathlib.Analysis.SpecialFunctions.Pow.Real
import Mathlib.Analysis.SpecialFunctions.Sqrt

/-!
Model of the delivered image quality (`/repo/rubin_scheduler/site_models/seeing_model.py`) and of the depth of
visits (`/repo/rubin_scheduler/utils/m5_flat_sed.py`), over the real numbers and for one band.
-/

namespace Verif.Depth

/-- Contributions of the system (seeing_model.py 87-95). -/
noncomputable def system (telescope optics camera : ℝ) : ℝ := Real.sqrt (telescope ^ 2 + optics ^ 2 + camera ^ 2)

/-- `SeeingModel.__call__`, effective (133-148): `sys` at zenith, `raw` the wavelength of the measured seeing. -/
noncomputable def fwhmEff (sys raw wavelen seeing airmass : ℝ) : ℝ :=
  let airmassCorrection := airmass ^ (0.6 : ℝ)
  let wavelenCorrection := (raw / wavelen) ^ (0.3 : ℝ)
  let fwhmSystem := sys * airmassCorrection
  let fwhmAtmo := seeing * wavelenCorrection * airmassCorrection
  1.16 * Real.sqrt (fwhmSystem ^ 2 + 1.04 * fwhmAtmo ^ 2)

/-- `fwhm_eff_to_fwhm_geom` (153-165). -/
noncomputable def effToGeom (x : ℝ) : ℝ := 0.822 * x + 0.052

/-- `fwhm_geom_to_fwhm_eff` (167-179). -/
noncomputable def geomToEff (x : ℝ) : ℝ := (x - 0.052) / 0.822

/-- `SeeingModel.__call__`, geometric (149-150). -/
noncomputable def fwhmGeom (sys raw wavelen seeing airmass : ℝ) : ℝ := effToGeom (fwhmEff sys raw wavelen seeing airmass)

/-- Constants of a band. -/
structure Band where
  cm : ℝ
  dCmInfinity : ℝ
  kAtm : ℝ
  darkSky : ℝ
  baseExptime : ℝ

/-- `m5_scale` and `m5_flat_sed` for one exposure (m5_flat_sed.py 57-74, 136-154). -/
noncomputable def single (b : Band) (musky fwhm exptime airmass cloud : ℝ) : ℝ :=
  let tscale := exptime / b.baseExptime * (10 : ℝ) ^ (-0.4 * (musky - b.darkSky))
  let dCm := 0 + b.dCmInfinity - 1.25 * Real.logb 10 (1 + ((10 : ℝ) ^ (0.8 * b.dCmInfinity) - 1) / tscale)
  b.cm + dCm + 0.50 * (musky - 21) + 2.5 * Real.logb 10 (0.7 / fwhm) + 1.25 * Real.logb 10 (exptime / 30) -
    b.kAtm * (airmass - 1) - 1.1 * cloud

/-- With the exposures of a visit (75-77, 155-158). -/
noncomputable def m5 (b : Band) (musky fwhm exptime airmass : ℝ) (nexp : ℕ) (cloud : ℝ) : ℝ :=
  if 1 < nexp then 1.25 * Real.logb 10 (nexp * (10 : ℝ) ^ (0.8 * single b musky fwhm exptime airmass cloud))
  else single b musky fwhm exptime airmass cloud

end Verif.Depth
