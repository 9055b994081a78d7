import Mathlib.Algebra.Order.Field.Rat

/-!
Model of the functions that make example surveys (`/repo/rubin_scheduler/scheduler/example/lsst_surveys.py`, `simple_examples.py`
and `roman_surveys.py`). Unless another file is named, line numbers refer to `lsst_surveys.py`. A basis function is its name and the
parameters it is made with, a survey the list of its basis functions with their weights and some of its other settings.
Numbers are exact. Footprints, dithers and the other detailers are left out.
-/

namespace Verif.Gen

/-- `DEFAULT_NSIDE` (utils/constants.py 7). -/
def defaultNside : ℕ := 32

/-- The dictionary `safety_mask_params`: a key that is not there is `none` (46-59). -/
structure Params where
  nside : Option ℕ := none
  moon : Option ℚ := none
  wind : Option ℚ := none
  minAlt : Option ℚ := none
  maxAlt : Option ℚ := none
  minAz : Option ℚ := none
  maxAz : Option ℚ := none
  shadow : Option ℚ := none
  minAzSun : Option ℚ := none
  maxAzSun : Option ℚ := none
  timeSun : Option ℚ := none
  limited : Option Bool := none
  deriving DecidableEq

/-- A basis function and what it is made with. -/
inductive Term where
  | moon (nside : ℕ) (distance : ℚ)
  | planets (nside : ℕ)
  | wind (nside : ℕ) (most : ℚ)
  | altAz (nside : ℕ) (minAlt maxAlt minAz maxAz shadow : ℚ)
  | sunrise (nside : ℕ) (minAlt maxAlt minAz maxAz shadow timeToSun : ℚ)
  | depth (nside : ℕ) (band : String)
  | footprint (nside : ℕ) (band : String)
  | slew (nside : ℕ) (band : String)
  | strictBand (band : String)
  | bandChange (band : String)
  | bandDist (band : String)
  | loaded (bands : List String)
  | repeats (nside : ℕ) (gapMax : ℚ)
  | goodSeeing (nside : ℕ) (band : String) (n : ℕ)
  | toScheduled (minutes : ℚ)
  | toTwilight (minutes : ℚ)
  | notTwilight
  | afterTwilight (minutes : ℚ)
  | ha (nside : ℕ) (least most : ℚ)
  | notHa (nside : ℕ) (least most : ℚ)
  | inNight (nside : ℕ) (n : ℕ)
  | moonDown (alt : ℚ)
  | beforeNight (n : ℕ)
  | poorSeeing (nside : ℕ) (band : String) (most : ℚ)
  | afterVisits (nside : ℕ) (band : String) (n : ℕ)
  | nights (pattern : List Bool)
  | once (notes : List String)
  | nearSun (nside : ℕ) (airmass : ℚ)
  | elongation (nside : ℕ) (most : ℚ)
  | closeToTwilight (sunAlt minutes : ℚ)
  | haLimit (limits : List (ℚ × ℚ))
  | delay (days : ℚ)
  | window (windows : List (ℚ × ℚ))
  deriving DecidableEq

/-- `safety_masks` (46-59, 111-148) called with the keys of a dictionary. -/
def safetyMasks (p : Params) : List Term :=
  let n := p.nside.getD defaultNside
  let shadow := p.shadow.getD 70
  [.moon n (p.moon.getD 30), .planets n, .wind n (p.wind.getD 20),
    .altAz n (p.minAlt.getD 20) (p.maxAlt.getD (173 / 2)) (p.minAz.getD 0) (p.maxAz.getD 360) shadow]
  ++ if p.limited.getD true then
      [.sunrise n (p.minAlt.getD 20) (p.maxAlt.getD (173 / 2)) (p.minAzSun.getD 120) (p.maxAzSun.getD 290) shadow (p.timeSun.getD 3 + shadow / 60)]
    else []

/-- The shadow is made at least so many minutes (406-408, 641-642, 956-957, 1154-1155, 1626-1631; roman_surveys.py 97-98, 208-209;
lsst_ddf_gen.py 336-337). -/
def raiseShadow (p : Params) (need : ℚ) : Params :=
  match p.shadow with
  | none => { p with shadow := some need }
  | some s => if s < need then { p with shadow := some need } else p

/-- The dictionary is that of the caller or one with the resolution only (401-405, 635-638, 952-955, 1148-1151, 1412-1415, 1622-1625). -/
def orGrid (p : Option Params) (nside : ℕ) : Params :=
  match p with
  | none => { nside := some nside }
  | some q => q

/-- Lines 401-408 and the like. -/
def prepare (p : Option Params) (nside : ℕ) (need : ℚ) : Params := raiseShadow (orGrid p nside) need

/-- The masks are added with weight 0 (485-487, 702-704, 1003-1005, 1266-1268, 1489-1491, 1702-1704). -/
def weightless (ts : List Term) : List (Term × ℚ) := ts.map fun t => (t, 0)

/-- Weights of the rewards of a survey. -/
structure Weights where
  depth : ℚ
  footprint : ℚ
  slew : ℚ
  stay : ℚ

/-- Rewards for one or for two bands (223-282). -/
def perBand (f : String → Term) (b : String) (b2 : Option String) (w : ℚ) : List (Term × ℚ) :=
  match b2 with
  | some b' => [(f b, w / 2), (f b', w / 2)]
  | none => [(f b, w)]

/-- `[fn for fn in [bandname, bandname2] if fn is not None]` (295). -/
def bandList (b : String) (b2 : Option String) : List String := b :: b2.toList

/-- `standard_bf` (221-298). The arguments `season`, `season_start_hour` and `season_end_hour` are not used there. -/
def standardBf (nside : ℕ) (b : String) (b2 : Option String) (w : Weights) (strict : Bool) : List (Term × ℚ) :=
  perBand (.depth nside) b b2 w.depth ++ perBand (.footprint nside) b b2 w.footprint
  ++ [(.slew nside b, w.slew), (if strict then .strictBand b else .bandChange b, w.stay), (.loaded (bandList b b2), 0)]

/-- What is kept of a survey. `grid` is the resolution it is made with, `uSnaps` the number of exposures of its visits in u when a detailer
sets one. -/
structure Survey where
  terms : List (Term × ℚ)
  band1 : String
  band2 : Option String
  name : String
  reason : String
  grid : ℕ
  uSnaps : Option ℕ

/-- The value of `"nside"` in `blob_survey_params`, which is `BLOB_SURVEY_PARAMS_DEFAULTS` when not given (33-43, 398-399, 633-634, 1146-1147,
1410-1411). Here that value alone stands for the dictionary. -/
def blobGrid (blobNside : Option ℕ) : ℕ := blobNside.getD defaultNside

/-- The mask of altitudes made apart from the safety masks (441-443, 682-684, 996-998, 1469-1474): limits not given are those of the
basis function (mask_basis_funcs.py `AltAzShadowMaskBasisFunction`: 20 and 0 to 360). -/
def ownAltAz (nside : ℕ) (shadow maxAlt : ℚ) : Term := .altAz nside 20 maxAlt 0 360 shadow

/-- Both letters of a pair, as in `"%s%s"` (1278, 1282-1284). -/
def letters (b : String) (b2 : Option String) : String := b ++ b2.getD ""

/-- One survey of `gen_template_surveys` (412-512). `shown` is `pair_time` as printed by `.1f`. -/
def template (nside : ℕ) (w : Weights) (seeing pairTime haMin haMax maxAlt : ℚ) (shown : String) (darkOnly : List String) (nObs : String → ℕ)
    (uNexp : ℕ) (blob : Option ℕ) (p : Option Params) (b : String) : Survey where
  terms := standardBf nside b none w true
    ++ [(ownAltAz nside pairTime maxAlt, 0), (.toTwilight pairTime, 0), (.notTwilight, 0), (.notHa nside haMin haMax, 0), (.inNight nside 1, 0)]
    ++ (if darkOnly.contains b then [(.moonDown (-5), 0)] else [])
    ++ [(.beforeNight 366, 0), (.poorSeeing nside b seeing, 0), (.afterVisits nside b (nObs b), 0)]
    ++ weightless (safetyMasks (prepare p nside pairTime))
  band1 := b
  band2 := none
  name := "templates, " ++ b
  reason := "template_blob_" ++ b ++ "_" ++ shown
  grid := blobGrid blob
  uSnaps := some uNexp

/-- `times_needed` (648, 688-691, 1258-1261, 1478-1481). -/
def timeNeeded (pairTime : ℚ) (b2 : Option String) : ℚ :=
  match b2 with
  | none => pairTime
  | some _ => pairTime * 2

/-- The reason of one turn of the loop of `blob_for_long` (716-717): `None` is printed as such. -/
def longReason (shown : String) (reason : Option String) (b : String) (b2 : Option String) : String :=
  reason.getD ("triplet_pairs_" ++ b ++ b2.getD "None" ++ "_" ++ shown)

/-- Settings of `blob_for_long`. -/
structure LongCfg where
  nside : ℕ
  weights : Weights
  pairTime : ℚ
  pad : ℚ
  shown : String
  haMin : ℚ
  haMax : ℚ
  maxAlt : ℚ
  respect : ℚ
  after : ℚ
  pattern : List Bool
  names : List String
  uNexp : ℕ
  blob : Option ℕ
  params : Option Params

/-- One survey of `blob_for_long` (650-735). -/
def longOne (c : LongCfg) (reason : String) (b : String) (b2 : Option String) : Survey where
  terms := standardBf c.nside b b2 c.weights true
    ++ [(.toScheduled c.respect, 0), (ownAltAz c.nside (c.pairTime * 2 + c.pad) c.maxAlt, 0), (.toTwilight (timeNeeded c.pairTime b2), 0),
      (.notTwilight, 0), (.afterTwilight c.after, 0), (.ha c.nside c.haMin c.haMax, 0), (.nights c.pattern, 0), (.once c.names, 0)]
    ++ weightless (safetyMasks (prepare c.params c.nside (c.pairTime * 2 + c.pad)))
  band1 := b
  band2 := b2
  name := "blob_long, " ++ letters b b2
  reason := reason
  grid := blobGrid c.blob
  uSnaps := some c.uNexp

/-- The loop of `blob_for_long` (649-735): the argument `observation_reason` is itself assigned (716-717). -/
def longLoop (c : LongCfg) : Option String → List (String × Option String) → List Survey
  | _, [] => []
  | reason, (b, b2) :: rest =>
    let r := longReason c.shown reason b b2
    longOne c r b b2 :: longLoop c (some r) rest

/-- `blob_for_long` (633-737). -/
def blobForLong (c : LongCfg) (reason : Option String) (band1s : List String) (band2s : List (Option String)) : List Survey :=
  longLoop c reason (band1s.zip band2s)

/-- The masks of the repeats in `gen_long_gaps_survey` (822-830, 866). -/
def scriptedMasks (p : Option Params) (nside : ℕ) (pairTime : ℚ) : List Term :=
  safetyMasks (raiseShadow
    (match p with
      | none => { nside := some nside }
      | some q => { q with nside := some (q.nside.getD nside) }) pairTime)

/-- One survey of `gen_greedy_surveys` (952-1024). The dictionary prepared from `safety_mask_params` (952-957) is not used: line 1003 names the two
arguments itself. -/
def greedy (nside : ℕ) (w : Weights) (repeatWeight shadow maxAlt : ℚ) (uNexp : ℕ) (bands : List String) (_p : Option Params) (b : String) : Survey where
  terms := standardBf nside b none w false
    ++ [(.repeats nside (2 * 60), repeatWeight), (ownAltAz nside shadow maxAlt, 0)]
    ++ weightless (safetyMasks { nside := some nside, shadow := some shadow })
  band1 := b
  band2 := none
  name := "greedy " ++ b
  reason := "singles_" ++ b
  grid := nside
  uSnaps := if bands.contains "u" then some uNexp else none

/-- The ceiling of `generate_blobs` (1156-1157): set only when the dictionary has one. -/
def lowerCeiling (p : Params) (maxAlt : ℚ) : Params :=
  match p.maxAlt with
  | some a => if maxAlt < a then { p with maxAlt := some maxAlt } else p
  | none => p

/-- Terms for good seeing (1208-1254): a band that is not a key has none. -/
def goodSeeing (nside : ℕ) (good : String → Option ℕ) (weight : ℚ) (b : String) : List (Term × ℚ) :=
  match good b with
  | some n => [(.goodSeeing nside b n, weight)]
  | none => []

/-- Settings of `generate_blobs` and `generate_short_blobs`. `truncated` is `pair_time` as printed by `%i`, `shown` by `.1f`. -/
structure BlobCfg where
  nside : ℕ
  weights : Weights
  repeatWeight : ℚ
  pairTime : ℚ
  pad : ℚ
  truncated : String
  shown : String
  maxAlt : ℚ
  respect : ℚ
  pattern : List Bool
  good : String → Option ℕ
  goodWeight : ℚ
  /-- `U_NEXP` (26) -/
  uConstant : ℕ
  uNexp : ℕ
  blob : Option ℕ
  params : Option Params

/-- One survey of `generate_blobs` (1146-1303). The detailer is given `U_NEXP`, not the argument (1172). -/
def blob (c : BlobCfg) (b : String) (b2 : Option String) : Survey where
  terms := standardBf c.nside b b2 c.weights true
    ++ [(.repeats c.nside (3 * 60), c.repeatWeight)]
    ++ (bandList b b2).flatMap (goodSeeing c.nside c.good c.goodWeight)
    ++ [(.toScheduled c.respect, 0), (.toTwilight (timeNeeded c.pairTime b2), 0), (.notTwilight, 0)]
    ++ weightless (safetyMasks (lowerCeiling (prepare c.params c.nside (c.pairTime * 2 + c.pad)) c.maxAlt))
  band1 := b
  band2 := b2
  name := "pair_" ++ c.truncated ++ ", " ++ letters b b2
  reason := "pairs_" ++ letters b b2 ++ "_" ++ c.shown
  grid := blobGrid c.blob
  uSnaps := if b = "u" ∨ b2 = some "u" then some c.uConstant else none

/-- `generate_blobs` (1164-1305). -/
def blobs (c : BlobCfg) (band1s : List String) (band2s : List (Option String)) : List Survey :=
  (band1s.zip band2s).map fun q => blob c q.1 q.2

/-- The dictionary of `generate_short_blobs` (1412-1419): the test asks whether the number `shadow_minutes` is a key, which it never is, so the
entry is always replaced. -/
def prepareShort (p : Option Params) (nside : ℕ) (need : ℚ) : Params := { orGrid p nside with shadow := some need }

/-- One survey of `generate_short_blobs` (1410-1526). -/
def shortBlob (c : BlobCfg) (b : String) (b2 : Option String) : Survey where
  terms := standardBf c.nside b b2 c.weights true
    ++ [(.repeats c.nside (2 * 60), c.repeatWeight), (.toScheduled c.respect, 0), (ownAltAz c.nside (c.pairTime * 2 + c.pad) c.maxAlt, 0),
      (.toTwilight (timeNeeded c.pairTime b2), 0), (.nights c.pattern, 0)]
    ++ weightless (safetyMasks (prepareShort c.params c.nside (c.pairTime * 2 + c.pad)))
  band1 := b
  band2 := b2
  name := "pair_" ++ c.truncated ++ ", " ++ letters b b2
  reason := "pairs_" ++ letters b b2 ++ "_" ++ c.shown
  grid := blobGrid c.blob
  uSnaps := none

/-- One survey of `generate_twilight_near_sun` (1622-1731). -/
def nearSun (nside : ℕ) (w : Weights) (distWeight pairTime airmass elong sunAlt to12 : ℚ) (pattern : List Bool) (p : Option Params) (b : String) : Survey where
  terms := [(.footprint nside b, w.footprint), (.slew nside b, w.slew), (.strictBand b, w.stay), (.bandDist b, distWeight), (.nearSun nside airmass, 0),
      (.loaded [b], 0), (.elongation nside elong, 0), (.nights pattern, 0), (.closeToTwilight sunAlt to12, 0)]
    ++ weightless (safetyMasks (prepare p nside (pairTime * 4)))
  band1 := b
  band2 := none
  name := "twilight_near_sun"
  reason := "twilight_near_sun"
  grid := nside
  uSnaps := none

/-! ### The Roman field (roman_surveys.py) -/

/-- The middles of the seasons (roman_surveys.py 32). -/
def romanMids : List ℚ := [619473 / 10, 623188 / 10, 626703 / 10, 630672 / 10, 633814 / 10, 637732 / 10]

/-- `seasons_on` (roman_surveys.py 34). -/
def seasonsOn : List (ℚ × ℚ) := romanMids.map fun v => (v - 32, v + 32)

/-- The gaps between the seasons (roman_surveys.py 36-40). -/
def gaps : List (ℚ × ℚ) → List (ℚ × ℚ)
  | a :: b :: rest => (a.2 + 1, b.1 - 1) :: gaps (b :: rest)
  | _ => []

/-- `seasons_off` (roman_surveys.py 36-40). -/
def seasonsOff : List (ℚ × ℚ) := gaps seasonsOn

/-- The basis functions of `gen_roman_on_season` (roman_surveys.py 90-117). -/
def romanOn (nside : ℕ) (p : Option Params) : List Term :=
  safetyMasks (prepare p nside 12) ++ [.haLimit [(20, 24), (0, 4)], .notTwilight, .delay (4 / 5), .window seasonsOn]

/-- The basis functions of `gen_roman_off_season` (roman_surveys.py 201-229), without the range of airmass (229). -/
def romanOff (nside : ℕ) (p : Option Params) : List Term :=
  safetyMasks (prepare p nside 11) ++ [.haLimit [(20, 24), (0, 4)], .notTwilight, .delay 3, .window seasonsOff]

/-! ### The simple examples (simple_examples.py) -/

/-- `standard_masks` (simple_examples.py 171-236), with its defaults. -/
def standardMasks (nside : ℕ) : List Term := [.moon nside 30, .planets nside, .wind nside 20, .altAz nside 20 (173 / 2) 0 360 30]

/-- `simple_rewards` (simple_examples.py 288-328). -/
def simpleRewards (nside : ℕ) (b : String) (w : Weights) (repeatWeight : ℚ) : List (Term × ℚ) :=
  [(.depth nside b, w.depth), (.footprint nside b, w.footprint), (.slew nside b, w.slew), (.bandChange b, w.stay), (.loaded [b], 0),
    (.repeats nside (3 * 60), repeatWeight)]

/-- The default weights of `simple_pairs_survey` (simple_examples.py 436-440). -/
def simpleWeights : Weights := ⟨6, 3 / 2, 3, 3⟩

/-- The rewards of `simple_pairs_survey` when none are given (simple_examples.py 434-488). -/
def pairRewards (nside : ℕ) (b : String) (b2 : Option String) : List (Term × ℚ) :=
  match b2 with
  | none => simpleRewards nside b simpleWeights (-20)
  | some b' =>
    (simpleRewards nside b ⟨3, 3 / 4, 3, 3⟩ (-20)).filter (fun t => decide (0 < t.2))
    ++ (simpleRewards nside b' ⟨3, 3 / 4, 0, 0⟩ 0).filter (fun t => decide (0 < t.2))
    ++ [(.loaded (bandList b b2), 0)]

/-- The list of masks after `simple_pairs_survey` has extended it in place (simple_examples.py 421-429): it is the list of the caller when
one is given. -/
def pairMasks (nside : ℕ) (pairTime : ℚ) (b2 : Option String) (requireTime : Bool) (given : Option (List Term)) : List Term :=
  given.getD (standardMasks nside) ++ if requireTime then [.toTwilight (timeNeeded pairTime b2)] else []

/-- `simple_pairs_survey` (simple_examples.py 407-548): the terms of the survey and what the list of the caller is afterwards. -/
def simplePairs (nside : ℕ) (pairTime : ℚ) (b : String) (b2 : Option String) (requireTime : Bool) (given : Option (List Term)) :
    List (Term × ℚ) × Option (List Term) :=
  (pairRewards nside b b2 ++ weightless (pairMasks nside pairTime b2 requireTime given),
    given.map fun _ => pairMasks nside pairTime b2 requireTime given)

/-- Several surveys made with one list of masks. -/
def simpleMany (nside : ℕ) (pairTime : ℚ) (requireTime : Bool) : List (String × Option String) → List Term → List (List (Term × ℚ))
  | [], _ => []
  | (b, b2) :: rest, masks =>
    (simplePairs nside pairTime b b2 requireTime (some masks)).1
      :: simpleMany nside pairTime requireTime rest (pairMasks nside pairTime b2 requireTime (some masks))

end Verif.Gen
