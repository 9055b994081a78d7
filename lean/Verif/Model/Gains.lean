import Verif.Model.Depth
import Verif.Model.Fov

/-!
Model of basis functions of depth, wind and planets: `M5DiffBasisFunction`, `AvoidDirectWind`, `WindPressureBasisFunction`, `az_rel_point`
(`/repo/rubin_scheduler/scheduler/basis_functions/basis_functions.py` 478-486, 816-827, 1377-1391, 1409-1432), `PlanetMaskBasisFunction`
(`mask_basis_funcs.py` 374-393), `dark_m5` (`/repo/rubin_scheduler/skybrightness_pre/dark_sky.py` 62-78), the airmass of `Conditions`
(`features/conditions.py` 417-426) and the altitudes of `calc_target_m5s` (`detailers/vary_exptime.py` 35-36). For one pixel, over the real numbers;
`none` is `nan`.
-/

namespace Verif.Gain

open Real Depth Sph

noncomputable section

/-- The constants of the seeing model (seeing_model.py 60-76). -/
structure Seeing where
  sys : ℝ
  raw : ℝ
  wavelen : ℝ

/-- `calc_airmass` (conditions.py 417-426). -/
def airmass (limit alt : ℝ) : Option ℝ := if limit < alt then some (1 / cos (π / 2 - alt)) else none

/-- The least airmass of a declination (dark_sky.py 64-66). -/
def airmassMin (dec lat : ℝ) : Option ℝ := let a := 1 / cos |dec - lat|; if a < 0 then none else some a

/-- `dark_m5` (dark_sky.py 62-78), with `dark` the dark sky there. -/
def darkM5 (b : Band) (s : Seeing) (dark dec lat fiducial exptime : ℝ) (nexp : ℕ) : Option ℝ :=
  (airmassMin dec lat).map fun x => m5 b dark (fwhmEff s.sys s.raw s.wavelen fiducial x) exptime x nexp 0

/-- The depth in the conditions (conditions.py 535-546), with the image quality of the seeing model (model_observatory.py) for a seeing at zenith. -/
def depthNow (b : Band) (s : Seeing) (sky limit alt seeing exptime : ℝ) : Option ℝ :=
  (airmass limit alt).map fun x => m5 b sky (fwhmEff s.sys s.raw s.wavelen seeing x) exptime x 1 0

/-- `M5DiffBasisFunction._calc_value` (816-827): `cloud` is the extinction when that is to be applied and there is a map of clouds. -/
def m5Diff (depth dark : Option ℝ) (cloud : Option ℝ) : Option ℝ :=
  match depth, dark with
  | some d, some k => some (d - k - cloud.getD 0)
  | _, _ => none

/-- Speed and direction of the wind, when known. -/
abbrev Wind := Option ℝ × Option ℝ

/-- `AvoidDirectWind._calc_value` (1377-1391). -/
def avoidWind (maxSpeed : ℝ) (w : Wind) (az : ℝ) : Option ℝ :=
  match w with
  | (some speed, some dir) => let p := speed * cos (az - dir); if maxSpeed < p then none else some (0 - p ^ 2)
  | _ => some 0

/-- `WindPressureBasisFunction._calc_value` (1420-1432): the greatest speed is kept and not used. -/
def windPressure (_maxSpeed minSpeed : ℝ) (w : Wind) (az : ℝ) : Option ℝ :=
  match w with
  | (some speed, some dir) => if speed < minSpeed then some 0 else some (0 - (speed * cos (az - dir)) ^ 2)
  | _ => some 0

/-- `az_rel_point` (478-486). -/
def azRel (az point : ℝ) : ℝ := let d := fmod (az - point) (2 * π); if π < d then 2 * π - d else d

/-- `PlanetMaskBasisFunction._calc_value` (384-393): `none` marks the pixels masked. -/
def planetMask (f : Fov.Lsst) (npix : ℕ) (planets : List (ℝ × ℝ)) : List (Option ℝ) :=
  planets.foldl (fun m p => (f.one p.1 p.2).foldl (fun m i => m.set i none) m) (List.replicate npix (some 0))

/-- The altitude at which a declination culminates, as `calc_target_m5s` has it (vary_exptime.py 35-36), in degrees. -/
def targetAlt (lat dec : ℝ) : ℝ := let a := lat - dec + 90; if 90 < a then a - 90 else a

end

end Verif.Gain
