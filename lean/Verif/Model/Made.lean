import Verif.Model.Generators
import Verif.Model.Masks
import Verif.Model.Shadow
import Verif.Model.Reward

/-!
The values of the safety masks of generated surveys (`safety_masks`, `/repo/rubin_scheduler/scheduler/example/lsst_surveys.py` 111-148): the basis functions
of `Model/Generators`, known there by their names and parameters, are given the values of `Model/Masks` and `Model/Shadow`
(`/repo/rubin_scheduler/scheduler/basis_functions/mask_basis_funcs.py`, to which line numbers refer). A survey keeps the basis functions and weights it is made with
(`/repo/rubin_scheduler/scheduler/surveys/base_survey.py` 99, 559).
-/

namespace Verif.Made

open Verif.Gen Verif.Shadow Verif.Rew

/-- What the conditions hold on the pixels of one resolution (conditions.py): distances from the moon (550-552), the planets and the pixels the
field-of-view lookup finds around a planet (`Gain.planetMask`, C158), the pressure of the wind, the sky now and some days later, open ranges, the limits of
the telescope, the time and the time of sunrise. `rad` is the length of a degree in the unit of angles, `close` the search of `_hp_grow_mask`. -/
structure Heaven (C : Type) where
  npix : ℕ
  rad : ℚ
  close : ℕ → ℕ → Bool
  moon : C → List ℚ
  planets : C → List ℕ
  found : ℕ → List ℕ
  wind : C → Option (List ℚ)
  sky : C → Sky
  later : C → ℚ → Sky
  skyAlt : C → List (ℚ × ℚ) := fun _ => []
  skyAz : C → List (ℚ × ℚ) := fun _ => []
  telAlt : C → Option (ℚ × ℚ) := fun _ => none
  telAz : C → Option (ℚ × ℚ) := fun _ => none
  mjd : C → ℚ
  sunrise : C → ℚ

variable {C F : Type}

/-- A value of a map with nan for masked pixels. -/
def nanned : Option ℚ → XReal
  | none => .nan
  | some q => .fin q

/-- `PlanetMaskBasisFunction._calc_value` (384-393), with numbers for planets. -/
def planetMask (h : Heaven C) (c : C) : List (Option ℚ) :=
  (h.planets c).foldl (fun m p => (h.found p).foldl (fun m i => m.set i none) m) (List.replicate h.npix (some 0))

/-- `AvoidDirectWind._calc_value` (basis_functions.py 1377-1391), given the pressure of the wind at the pixels (C157). -/
def windMask (h : Heaven C) (c : C) (most : ℚ) : List (Option ℚ) :=
  match h.wind c with
  | none => List.replicate h.npix (some 0)
  | some ps => ps.map fun p => if most < p then none else some (0 - p ^ 2)

/-- The limits that `AltAzShadowMaskBasisFunction` hands to the conditions, in radians (448-451), and those the conditions have. -/
def limits (h : Heaven C) (c : C) (minAlt maxAlt minAz maxAz : ℚ) : Lims :=
  ⟨(minAlt * h.rad, maxAlt * h.rad), (minAz * h.rad, maxAz * h.rad), h.skyAlt c, h.skyAz c, h.telAlt c, h.telAz c⟩

/-- `AltAzShadowMaskBasisFunction._calc_value` (460-480) with the defaults for `pad` and `time_step` (443, 445): minutes are turned into days (452-453). `none` when the
mask raises. -/
def shadow (h : Heaven C) (c : C) (minAlt maxAlt minAz maxAz minutes : ℚ) : Option (List Bool) :=
  shadowMask (360 * h.rad) h.npix h.close (3 * h.rad) (limits h c minAlt maxAlt minAz maxAz) (h.sky c) (h.later c) (minutes / 60 / 24) (10 / 60 / 24)

/-- A mask as the array of the code: nan or 0. -/
def flags (m : List Bool) : Val := .map (m.map fun b => if b then .nan else .fin 0)

/-- The value of a safety mask, `none` when it raises or the basis function is another one. For the mask near sunrise see 508-517: hours are turned into days (504), the
list of events has sunrise only (lsst_surveys.py 145). -/
def value (h : Heaven C) (c : C) : Term → Option Val
  | .moon _ distance => some (.map ((Mask.moonAvoid h.rad distance (h.moon c)).map nanned))
  | .planets _ => some (.map ((planetMask h c).map nanned))
  | .wind _ most => some (.map ((windMask h c most).map nanned))
  | .altAz _ a b z y minutes => (shadow h c a b z y minutes).map flags
  | .sunrise _ a b z y minutes hours =>
    match timeLimited (hours / 24) (h.mjd c) [h.sunrise c] () with
    | none => none
    | some none => some (.scalar (.fin 0))
    | some (some _) => (shadow h c a b z y minutes).map flags
  | _ => none

/-- The resolution of a safety mask. -/
def grid : Term → ℕ
  | .moon n _ | .planets n | .wind n _ | .altAz n _ _ _ _ _ | .sunrise n _ _ _ _ _ _ => n
  | _ => 0

/-- The basis functions of a survey at some conditions, with their weights, from the list it is made with. `H` has the conditions on every resolution; the other
basis functions are `rest`. The safety masks have the `check_feasibility` of the base class, which is always true (basis_functions.py 134-140). -/
def basis (H : ℕ → Heaven C) (rest : F → C → Term → Basis) (ts : List (Term × ℚ)) (f : F) (c : C) : List (Basis × ℚ) :=
  ts.map fun t =>
    match value (H (grid t.1)) c t.1 with
    | some v => (⟨true, v⟩, t.2)
    | none => (rest f c t.1, t.2)

end Verif.Made
