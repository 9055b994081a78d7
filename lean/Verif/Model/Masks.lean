import Verif.Model.Features

/-!
Model of the basis functions that hide parts of the sky
(`/repo/rubin_scheduler/scheduler/basis_functions/mask_basis_funcs.py`, and the azimuth, declination and map
patterns of `basis_functions.py` 1179-1299, 1512-1550).

A map of the sky is the list of its pixel values; `none` is `nan`, a hidden pixel.  Angles are in an unspecified
unit with full turn `T` (`2 pi`) and `rad` units in a degree.  Not modelled: `PlanetMaskBasisFunction`
(the pixels near a planet come from the field-of-view lookup), `AltAzShadowMaskBasisFunction`
(computed by the conditions), `MapCloudBasisFunction` and `MaskAllButNES` (134-159), which
computes a region and returns a map of zeros.
-/

namespace Verif.Mask

open Verif.Feat (Vis)

/-- The hour angle map (`Conditions.calc_ha`, features/conditions.py 395-397); `lmst` in hours. -/
def hourAngle (T lmst ra : ℚ) : ℚ :=
  let ha := lmst * T / 24 - ra
  if ha < 0 then ha + T else ha

/-- `result[np.where(flags)] = v`. -/
def put {α : Type} (flags : List Bool) (v : α) (base : List α) : List α :=
  List.zipWith (fun f b => if f then v else b) flags base

/-- Index of a pattern by night, `night % len` (basis_functions.py 1228, 1276, 1297); an empty pattern raises. -/
def byNight {α : Type} (pattern : List α) (night : ℤ) : Option α :=
  pattern[(night % (pattern.length : ℤ)).toNat]?

/-- The pixels out of the azimuth range (1230-1239): both branches make the same test. -/
def azOut (lim : ℚ × ℚ) (az : List ℚ) : List Bool :=
  if lim.1 < lim.2 then
    List.zipWith (· || ·) (ltA Tol.default (az.map (fun a => (a, lim.1)))) (gtA Tol.default (az.map (fun a => (a, lim.2))))
  else
    List.zipWith (· || ·) (ltA Tol.default (az.map (fun a => (a, lim.1)))) (gtA Tol.default (az.map (fun a => (a, lim.2))))

/-- `AzModuloBasisFunction` (1209-1241); limits in degrees. -/
def azModulo (rad : ℚ) (limits : List (ℚ × ℚ)) (oob : ℚ) (night : ℤ) (az : List ℚ) : Option (List ℚ) :=
  (byNight limits night).map (fun l => put (azOut (l.1 * rad, l.2 * rad) az) oob (az.map (fun _ => 1)))

/-- Default limits (1213-1220). -/
def azDefault : List (ℚ × ℚ) := [(360 - 50, 50), (90 - 50, 90 + 50), (180 - 50, 180 + 50)]

/-- `DecModuloBasisFunction` (1253-1279): 1 in the band, 0 out of it. -/
def decModulo (rad : ℚ) (limits : List (ℚ × ℚ)) (night : ℤ) (dec : List ℚ) : Option (List ℚ) :=
  byNight (limits.map (fun l => dec.map (fun d => if l.1 * rad ≤ d ∧ d < l.2 * rad then 1 else 0))) night

/-- `MapModuloBasisFunction` (1296-1299). -/
def mapModulo (maps : List (List ℚ)) (night : ℤ) : Option (List ℚ) := byNight maps night

/-- One side of an hour-angle limit (mask_basis_funcs.py 290-295, 210-215). -/
def below (T : ℚ) (lim : Option ℚ) (ha : ℚ) : Bool :=
  match lim with
  | none => false
  | some h => decide (ha < h * T / 24)

/-- The other side. -/
def above (T : ℚ) (lim : Option ℚ) (ha : ℚ) : Bool :=
  match lim with
  | none => false
  | some h => decide (h * T / 24 < ha)

/-- `HaMaskBasisFunction` (269-297); limits in hours. -/
def haMask (T : ℚ) (lo hi : Option ℚ) (ha : List ℚ) : List (Option ℚ) :=
  put (ha.map (above T hi)) none (put (ha.map (below T lo)) none (ha.map (fun _ => some 0)))

/-- `RevHaMaskBasisFunction` (189-216). -/
def revHaMask (T : ℚ) (lo hi : Option ℚ) (ha : List ℚ) : List (Option ℚ) :=
  put (ha.map (above T hi)) (some 0) (put (ha.map (below T lo)) (some 0) (ha.map (fun _ => none)))

/-- `RewardRisingBasisFunction` (basis_functions.py 1536-1550). -/
def rewardRising (T slope : ℚ) (penalty : Option ℚ) (ha : List ℚ) : List (Option ℚ) :=
  ha.map (fun h => if h < T / 2 then penalty else some (slope * h))

/-- Distance in azimuth, as share of half a turn (`AzimuthBasisFunction`, 1189-1196). -/
def azimuth (T telAz : ℚ) (az : List ℚ) : List ℚ :=
  az.map (fun a =>
    let d := (a - telAz) - T * ⌊(a - telAz) / T⌋
    (if T / 2 < d then T - d else d) / (T / 2))

/-! ### Limits -/

/-- `MaskDirectWindBasisFunction` (31-56), given the map `wind_pressure`, `none` without wind data. -/
def directWind (limit : ℚ) (n : ℕ) (pressure : Option (List ℚ)) : List (Option ℚ) :=
  match pressure with
  | none => List.replicate n (some 0)
  | some p => p.map (fun x => if limit < x then none else some 0)

/-- `MaskPoorSeeing` (59-80). -/
def poorSeeing (limit : ℚ) (fwhm : List ℚ) : List (Option ℚ) := fwhm.map (fun x => if limit < x then none else some 0)

/-- `SolarElongMaskBasisFunction` (243-266). -/
def solarElong (rad limit : ℚ) (elong : List ℚ) : List (Option ℚ) :=
  put (gtA Tol.default (elong.map (fun x => (x, limit * rad)))) none (elong.map (fun _ => some 0))

/-- `SolarElongationMaskBasisFunction` (330-356). -/
def solarElongation (rad lo hi : ℚ) (penalty : Option ℚ) (elong : List ℚ) : List (Option ℚ) :=
  put (List.zipWith (· && ·) (geA Tol.default (elong.map (fun x => (x, lo * rad))))
    (leA Tol.default (elong.map (fun x => (x, hi * rad))))) (some 1) (elong.map (fun _ => penalty))

/-- `MoonAvoidanceBasisFunction` (520-555), given the distances from the moon. -/
def moonAvoid (rad limit : ℚ) (dist : List ℚ) : List (Option ℚ) :=
  put (ltA Tol.default (dist.map (fun x => (x, limit * rad)))) none (dist.map (fun _ => some 1))

/-- `BulkCloudBasisFunction` (558-603). -/
def bulkCloud (maxCloud : List ℚ) (oob : Option ℚ) (cloud : ℚ) : List (Option ℚ) :=
  maxCloud.map (fun m => if m ≤ cloud then oob else some 1)

/-! ### Counts -/

/-- A pixel is hidden from its `n`-th visit on (129-131, 183-186, 236-239). -/
def hideFrom (npix n : ℕ) (counts : ℕ → ℕ) : List (Option ℚ) :=
  (List.range npix).map (fun p => if n ≤ counts p then none else some 0)

/-- `MaskAfterNObsBasisFunction` (219-240) after the visits `h`. -/
def afterN (npix n : ℕ) (band : Option String) (h : List Vis) : List (Option ℚ) :=
  hideFrom npix n (h.foldl (Feat.NObservations.one ⟨band, none, none, 0⟩) (fun _ => 0))

/-- `NInNightMaskBasisFunction` (162-186) after the visits `h`. -/
def nInNight (npix n : ℕ) (band : Option String) (h : List Vis) : List (Option ℚ) :=
  hideFrom npix n (h.foldl (Feat.NObsNight.one band) Feat.NObsNight.init).count

/-! ### Several masks with an area check (299-327) -/

/-- `0 * x` for a pixel value or `nan`. -/
def zeroTimes (r x : Option ℚ) : Option ℚ :=
  match r, x with
  | some a, some b => some (a * b)
  | _, _ => none

/-- The product of the maps, from zero (313-315, 323-327). -/
def areaValue (npix : ℕ) (maps : List (List (Option ℚ))) : List (Option ℚ) :=
  maps.foldl (fun r m => List.zipWith zeroTimes r m) (List.replicate npix (some 0))

/-- `check_feasibility` (307-321): each member is feasible and the area left is at least the minimum. -/
def areaFeasible (npix : ℕ) (pixArea minArea : ℚ) (members : List (Bool × List (Option ℚ))) : Bool :=
  if members.all (·.1) then
    !decide (pixArea * (((areaValue npix (members.map (·.2))).countP (fun x => x == some 0) : ℕ) : ℚ) < minArea)
  else false

/-- `add_observation` of a basis function (basis_functions.py 119-132) passes the visit to its own features;
the members of the list are not among them, so a member keeps the state it started with. -/
def areaAfter {σ : Type} (_update : σ → Vis → σ) (members : List σ) (_h : List Vis) : List σ := members

end Verif.Mask
