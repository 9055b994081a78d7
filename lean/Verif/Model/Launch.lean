import Mathlib.Analysis.SpecialFunctions.Trigonometric.Inverse
import Mathlib.Data.List.Sort
import Verif.Model.Detailers
import Verif.Model.Spots
import Verif.Model.Too

/-!
Model of how an example scheduler is put together: the dates and resolutions of its parts (`/repo/rubin_scheduler/scheduler/example/example_scheduler.py`), the
saved table of deep drilling visits (`lsst_ddf_gen.py` 351-412), the move to a sunset (`simple_examples.py` 150-168), the random alerts
(`/repo/rubin_scheduler/scheduler/targetofo/gen_events.py`) and the surveys that follow them (`example/too_surveys.py`).
-/

namespace Verif.Lau

/-! ### Dates and resolutions -/

/-- `SURVEY_START_MJD` (utils/constants.py 8): noon of 2025-11-01. -/
def surveyStart : ℚ := 121961 / 2

/-- `DEFAULT_NSIDE` (utils/constants.py 7). -/
def defaultNside : ℕ := 32

/-- The parsed arguments (405-441). `start` is the attribute `survey_start_mjd` set at line 92; the parser has none. -/
structure Args where
  nside : ℕ
  mjdPlus : ℚ
  start : Option ℚ

/-- The first date of the parts of a scheduler: the scheduler itself (383), its rolling footprints (241-252), the counts of visits of good
seeing (295-301), the footprint of the templates (316) and the table of deep drilling visits (279-282). -/
structure Starts where
  scheduler : ℚ
  rolling : ℚ
  goodSeeing : ℚ
  templates : ℚ
  drilling : ℚ
  deriving DecidableEq

/-- `gen_scheduler` (200, 241-243, 279-282, 295-301, 316, 383): `args.survey_start_mjd` is not read. -/
def starts (a : Args) : Starts :=
  let start := surveyStart + a.mjdPlus
  ⟨start, start, start, surveyStart, surveyStart⟩

/-- The resolution of the parts: the scheduler (383), the map of the sky (222), the surveys of the Roman field (310-313, which are not given one) and the
pairs (295-308, whose surveys take that of `BLOB_SURVEY_PARAMS_DEFAULTS`, lsst_surveys.py 39). -/
structure Grids where
  scheduler : ℕ
  footprint : ℕ
  roman : ℕ
  pairs : ℕ
  deriving DecidableEq

/-- `gen_scheduler` (175, 222, 295-313, 383). -/
def grids (a : Args) : Grids := ⟨a.nside, a.nside, defaultNside, defaultNside⟩

/-- `generate_baseline_coresched` (85-94): the default arguments with these put in. -/
def baseline (nside : ℕ) (start : ℚ) : Args := ⟨nside, 0, some start⟩

/-- `example_scheduler` (56-61): `old` is the keyword `survey_start_mjd` if given. -/
def example_ (mjdStart : ℚ) (old : Option ℚ) (nside : ℕ) : Args := baseline nside (old.getD mjdStart)

/-- The nights for visits near the sun and for short pairs (208-220, 287, 307). -/
def eiPattern : List Bool := [true, false, false, false]

/-- `reverse_ei_night_pattern` (220). -/
def reversed (pattern : List Bool) : List Bool := pattern.map fun v => !v

/-! ### The saved table of deep drilling visits (lsst_ddf_gen.py) -/

/-- What the table is computed from: the two files of code whose checksum is kept (359), all other code and data, and the arguments (360-366). -/
structure Source (F R K : Type) where
  files : F
  rest : R
  kwargs : K

/-- The saved file (403-412). -/
structure Saved (D K A : Type) where
  digest : D
  kwargs : K
  table : A

/-- The file serves (372-379). -/
def serves {D F R K A : Type} [DecidableEq D] [DecidableEq K] (digest : F → D) (src : Source F R K) (f : Saved D K A) : Bool :=
  decide (f.digest = digest src.files) && decide (f.kwargs = src.kwargs)

/-- `gen_ddf_surveys` (368-412): the table, and the file afterwards. `compute` is `generate_ddf_scheduled_obs`. -/
def ddfTable {D F R K A : Type} [DecidableEq D] [DecidableEq K] (digest : F → D) (compute : Source F R K → A) (save : Bool) (src : Source F R K)
    (file : Option (Saved D K A)) : A × Option (Saved D K A) :=
  match file.filter (serves digest src) with
  | some f => (f.table, file)
  | none => (compute src, if save then some ⟨digest src.files, src.kwargs, compute src⟩ else file)

/-- A history of calls: the tables returned. -/
def ddfRun {D F R K A : Type} [DecidableEq D] [DecidableEq K] (digest : F → D) (compute : Source F R K → A) :
    List (Bool × Source F R K) → Option (Saved D K A) → List A
  | [], _ => []
  | (save, src) :: rest, file => (ddfTable digest compute save src file).1 :: ddfRun digest compute rest (ddfTable digest compute save src file).2

/-! ### The next sunset (simple_examples.py) -/

/-- `np.searchsorted(a, x, side="right")` for sorted `a`. -/
def searchRight (a : List ℚ) (x : ℚ) : ℕ := (a.takeWhile (fun b => decide (b ≤ x))).length

/-- `update_model_observatory_sunset` (simple_examples.py 151-159), the new time: `none` is an `IndexError`. -/
def nextSunset (sunsets : List ℚ) (mjd : ℚ) : Option ℚ :=
  let k : ℤ := (searchRight sunsets mjd : ℤ) - 1
  match Det.pyGet sunsets k with
  | none => none
  | some t => if t < mjd then Det.pyGet sunsets (k + 1) else some t

/-! ### Random alerts (gen_events.py) -/

noncomputable section

open Real

/-- A row of the table of alerts (54-55). -/
structure Event where
  start : ℝ
  ra : ℝ
  dec : ℝ
  expires : ℝ
  radius : ℝ
  label : String

/-- O5_START_MJD and O5_END_MJD (15-16). -/
def o5Start : ℝ := 61557

def o5End : ℝ := 62502

/-- The radius of a region of so many square degrees (60, 115, 209). -/
def radiusOf (area : ℝ) : ℝ := √(area / π) * π / 180

/-- Names, areas and numbers of the cases of mergers (44-45, 101-102, 195-196). -/
def gwCases : List (String × ℚ × ℕ) := [("A", 30, 9), ("B", 50, 15), ("C", 100, 24), ("D", 250, 6), ("E", 500, 12)]

def bbhCases : List (String × ℚ × ℕ) := [("A", 10, 9), ("B", 20, 6), ("C", 30, 6)]

def bnsCases : List (String × ℚ × ℕ) := [("A", 900, 1), ("B", 15, 1)]

/-- The labels and radii of the rows (57-64, 112-119, 206-213): `int(n)` of each case. -/
def caseRows (kind : String) (cases : List (String × ℚ × ℕ)) (scale : ℚ) : List (String × ℝ) :=
  cases.flatMap fun c => List.replicate ⌊(c.2.2 : ℚ) * scale⌋.toNat (kind ++ "_case_" ++ c.1, radiusOf c.2.1)

/-- Three random numbers for a row (69-71, 124-126, 164-166, 218-220). -/
structure Draw where
  ra : ℝ
  dec : ℝ
  time : ℝ

/-- A row filled in (69-72, 124-127, 164-169, 218-221). The position is that of `Spot.uniformSphere`. -/
def row (first last : ℝ) (label : String) (radius : ℝ) (d : Draw) : Event where
  start := d.time * (last - first) + first
  ra := d.ra * π * 2
  dec := arccos (2 * d.dec - 1) - π / 2
  expires := d.time * (last - first) + first + 3
  radius := radius
  label := label

/-- `gen_gw_events`, `gen_bbh_events` and `gen_lensed_BNS` (19-129, 174-223) for the rows and as many draws. -/
def mergers (first last : ℝ) (rows : List (String × ℝ)) (draws : List Draw) : List Event :=
  (rows.zip draws).map fun q => row first last q.1.1 q.1.2 q.2

/-- `gen_neutrino_events` (132-171), with as many draws as `n_trigger * scale`. -/
def neutrinos (first last radius : ℝ) (draws : List Draw) : List Event := draws.map fun d => row first last "neutrino" (radius * π / 180) d

/-- A solar system alert (305-308, 332-339): night and position are chosen at random. -/
def sso (label : String) (radius : ℝ) (q : ℝ × ℝ × ℝ) : Event := ⟨q.1, q.2.1, q.2.2, q.1 + 3, radius * π / 180, label⟩

/-- Draws for all alerts: those of mergers (three sorts), of neutrinos, and nights and places of both sorts of solar system alerts. -/
structure Draws where
  gw : List Draw
  bbh : List Draw
  bns : List Draw
  neutrino : List Draw
  twilight : List (ℝ × ℝ × ℝ)
  night : List (ℝ × ℝ × ℝ)

/-- The table of `gen_all_events` (375-388): mergers are made without the dates of the caller (377-379). -/
def allRows (scale : ℚ) (gw nu ss : Bool) (first last : ℝ) (d : Draws) : List Event :=
  (if gw then mergers o5Start o5End (caseRows "GW" gwCases (3 * scale)) d.gw ++ mergers o5Start o5End (caseRows "BBH" bbhCases (3 * scale)) d.bbh
      ++ mergers o5Start o5End (caseRows "lensed_BNS" bnsCases (3 * scale)) d.bns else [])
  ++ (if nu then neutrinos first last 0 d.neutrino else [])
  ++ (if ss then d.twilight.map (sso "SSO_twilight" 2) ++ d.night.map (sso "SSO_night" 2) else [])

open Classical in
/-- The table in order of time (390). -/
def eventTable (rows : List Event) : List Event := rows.insertionSort fun a b => a.start ≤ b.start

/-- An alert as given to the server (393-408). -/
structure Alert where
  id : ℕ
  start : ℝ
  duration : ℝ
  kind : String
  ra : ℝ
  dec : ℝ

/-- Lines 392-408; the map of the alert is left out. -/
def alerts (table : List Event) : List Alert := table.zipIdx.map fun q => ⟨q.2, q.1.start, q.1.expires - q.1.start, q.1.label, q.1.ra, q.1.dec⟩

end

/-! ### The number of solar system alerts (gen_events.py 263, 283-288, 310-313, 386) -/

/-- Their number for a span of days (386). -/
def ssoNumber (days : ℚ) : ℤ := roundHalfEven (900 / (7305 / 2) * days)

/-- The number of neutrino alerts for a span of days (135, 157, 382-383): `n_events` is computed and not used. -/
def neutrinoNumber (_days : ℚ) : ℤ := 160

/-- Those near the sun (283, 285), for the fraction 0.75. -/
def ssoInner (days : ℚ) : ℤ := ⌊(ssoNumber days : ℚ) * (3 / 4)⌋

/-- Nights that alerts near the sun may have: every fourth (263, 287). -/
def innerNights (days : ℚ) : ℤ := ⌈(⌊days⌋ : ℚ) / 4⌉

/-- Nights that other alerts may have (263, 312). -/
def otherNights (days : ℚ) : ℤ := ⌊days⌋

/-! ### Surveys that follow alerts (too_surveys.py) -/

/-- The part of a survey's settings that its plan is made from. -/
structure Follow where
  kinds : List String
  times : List ℚ
  bands : List String
  nvis : List ℕ
  exptimes : List ℚ
  name : String

/-- `gen_too_surveys` (72-398). -/
def tooSurveys : List Follow := [
  ⟨["GW_case_A"], [0, 24, 48], ["ugrizy", "ugrizy", "ugrizy"], [3, 1, 1], [120, 120, 120], "ToO, GW_case_A"⟩,
  ⟨["GW_case_B", "GW_case_C"], [0, 2, 4, 24, 48, 72], ["gri", "gri", "gri", "ri", "ri", "ri"], [4, 4, 4, 6, 6, 6], [30, 30, 30, 30, 30, 30], "ToO, GW_case_B_C"⟩,
  ⟨["GW_case_D", "GW_case_E"], [0, 24, 48, 72], ["gi", "gi", "gi", "gi"], [1, 4, 4, 4], [30, 30, 30, 30], "ToO, GW_case_D_E"⟩,
  ⟨["BBH_case_A", "BBH_case_B", "BBH_case_C"], [0, 48, 168, 216, 936], List.replicate 5 "rzi", List.replicate 5 1, List.replicate 5 30, "ToO, BBH"⟩,
  ⟨["lensed_BNS_case_A"], [1, 1, 25, 25, 49, 49], ["g", "r", "g", "r", "g", "r"], [1, 3, 1, 3, 1, 3], List.replicate 6 30, "ToO, LensedBNS_A"⟩,
  ⟨["lensed_BNS_case_B"], [1, 1, 25, 25, 49, 49], ["g", "r", "g", "r", "g", "r"], [180, 120, 180, 120, 180, 120], List.replicate 6 30, "ToO, LensedBNS_B"⟩,
  ⟨["neutrino"], [0, 0, 1 / 4, 0, 24, 24, 144, 144], ["u", "g", "r", "z", "g", "r", "g", "rz"], [1, 4, 1, 1, 4, 1, 4, 1], List.replicate 8 30, "ToO, neutrino"⟩,
  ⟨["SSO_night"], [0, 33 / 60, 66 / 60], List.replicate 3 "r", List.replicate 3 1, List.replicate 3 30, "ToO, SSO_night"⟩,
  ⟨["SSO_twilight"], [0, 10 / 60, 20 / 60], List.replicate 3 "z", List.replicate 3 2, List.replicate 3 15, "ToO, SSO_twi"⟩,
  ⟨["SN_Galactic"], List.replicate 16 0, List.replicate 16 "i", List.replicate 16 1, (List.replicate 4 [1, 15, 1, 15]).flatten, "ToO, galactic SN"⟩]

/-- A survey takes up an alert (too_scripted_surveys.py 346-350, as `Too.follows`). -/
def takes (f : Follow) (kind : String) : Bool := f.kinds.any fun t => Feat.isIn t kind

end Verif.Lau
