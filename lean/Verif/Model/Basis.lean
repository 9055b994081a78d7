import Verif.Model.Features
import Verif.Model.Masks
import Verif.Model.XReal

/-!
Model of the basis functions that give rewards
(`/repo/rubin_scheduler/scheduler/basis_functions/basis_functions.py` and `rolling_funcs.py`).

A map of the sky is the list of its pixel values; `none` in a map is `nan`.  The features are those of
`Model/Features`; the state of a feature is an argument.  Angles are in an unspecified unit with full turn `T`.
An outer `none` stands for an exception.  Labels, deprecation warnings and the argument `indx`, which limits some functions
to some pixels, are left out.  `CadenceInSeasonBasisFunction` (506-551) and `CadenceEnhanceTrapezoidBasisFunction` (1083-1176)
are not modelled beyond the trapezoid: both read `conditions.sunRA`, which does not exist.
-/

namespace Verif.Bf

open Verif.Feat (Vis isIn)
open Verif.Mask (put)

/-! ### The protocol (66-95, 119-132, 142-173) -/

/-- A basis function: what it computes from its features and the conditions, what computing does to the
features (`season_update`), its feasibility, and the flags. `marks`: `_calc_value` notes the time and clears
`recalc`; of all classes only the base class does (142-147). -/
structure Fn (σ κ ν : Type) where
  compute : σ → κ → ν
  touch : σ → κ → σ
  learn : σ → Vis → σ
  feasible : σ → κ → Bool
  mjd : κ → ℚ
  marks : Bool
  onNewObs : Bool
  onMjd : Bool

/-- The state; `value` starts as `v0`, which is 0. -/
structure St (σ ν : Type) where
  feat : σ
  recalc : Bool
  mjdLast : Option ℚ
  value : ν

/-- `__init__` (66-95). -/
def St.start {σ ν : Type} (s : σ) (v0 : ν) : St σ ν := ⟨s, true, none, v0⟩

variable {σ κ ν : Type}

/-- `self.value = self._calc_value(conditions)`. -/
def calcStep (f : Fn σ κ ν) (c : κ) (s : St σ ν) : St σ ν :=
  { feat := f.touch s.feat c, recalc := if f.marks then false else s.recalc,
    mjdLast := if f.marks then some (f.mjd c) else s.mjdLast, value := f.compute s.feat c }

/-- The first test of `__call__` (168-169). -/
def callRecalc (f : Fn σ κ ν) (c : κ) (s : St σ ν) : St σ ν := if s.recalc then calcStep f c s else s

/-- The second test (170-172). -/
def callMjd (f : Fn σ κ ν) (c : κ) (s : St σ ν) : St σ ν := if f.onMjd && decide (some (f.mjd c) ≠ s.mjdLast) then calcStep f c s else s

/-- `__call__` (156-173): the value, `none` for the `-inf` of what is not feasible, and the new state. -/
def call (f : Fn σ κ ν) (c : κ) (s : St σ ν) : Option ν × St σ ν :=
  if f.feasible s.feat c then (some (callMjd f c (callRecalc f c s)).value, callMjd f c (callRecalc f c s)) else (none, s)

/-- `add_observation` (119-132). -/
def add (f : Fn σ κ ν) (v : Vis) (s : St σ ν) : St σ ν :=
  { s with feat := f.learn s.feat v, recalc := if f.onNewObs then true else s.recalc }

/-- What happens to a basis function. -/
inductive Op (κ : Type) where
  | see (v : Vis)
  | ask (c : κ)

/-- One of these. -/
def opStep (f : Fn σ κ ν) (s : St σ ν) : Op κ → St σ ν
  | .see v => add f v s
  | .ask c => (call f c s).2

/-- `HealpixLimitedBasisFunctionMixin.check_feasibility` (201-225) and `_calc_value` (227-239) for a map: the
value at the pixels and whether one of them has a reward; no pixels raise. -/
def limited (hpid : List ℕ) (sky : List XReal) : Option (List XReal × Bool) :=
  (hpid.mapM (fun p => sky[p]?)).bind (fun v => (XReal.nanmax v).map (fun m => (v, XReal.ltB .ninf m)))

/-! ### Time since the last visit -/

/-- Days of minutes. -/
def minutes (m : ℚ) : ℚ := m / 60 / 24

/-- `AvoidFastRevisitsBasisFunction` (657-677); the times are filled with 0. -/
def avoidFast (npix : ℕ) (gap : ℚ) (penalty : Option ℚ) (last : ℕ → Option ℚ) (t : ℚ) : List (Option ℚ) :=
  put (ltA Tol.default ((List.range npix).map (fun p => (t - (last p).getD 0, minutes gap)))) penalty ((List.range npix).map (fun _ => some 1))

/-- `VisitGap.check_feasibility` (1344-1352), given the time of the last visit for each band. -/
def visitGap (gap : ℚ) (lasts : List (Option ℚ)) (t : ℚ) : Bool :=
  if lasts.any Option.isNone then true else lasts.all (fun l => decide (minutes gap < t - l.getD 0))

/-- The features of `VisitGap` (1335-1342) after visits. -/
def visitGapLasts (note : String) (bands : Option (List String)) (h : List Vis) : List (Option ℚ) :=
  match bands with
  | none => [h.foldl (Feat.LastObs.oneMjd ⟨some note, none⟩) none]
  | some l => l.map (fun b => h.foldl (Feat.LastObs.oneMjd ⟨some note, some b⟩) none)

/-- `VisitGap` as it is called: `_calc_value` (1354-1355) is reached only when feasible. -/
def visitGapCall (gap : ℚ) (penalty : XReal) (lasts : List (Option ℚ)) (t : ℚ) : XReal :=
  if visitGap gap lasts t then (if visitGap gap lasts t then .fin 1 else penalty) else .ninf

/-- The four conditions of `VisitRepeatBasisFunction` (760-771). -/
def repeatFlags (npix npairs : ℕ) (lo hi : ℚ) (last : ℕ → Option ℚ) (pairs : ℕ → ℕ) (t : ℚ) : List Bool :=
  List.zipWith (· && ·)
    (List.zipWith (· && ·) (geA Tol.default ((List.range npix).map (fun p => (((last p).map (t - ·)).getD 0, minutes lo))))
      (leA Tol.default ((List.range npix).map (fun p => (((last p).map (t - ·)).getD 0, minutes hi)))))
    ((List.range npix).map (fun p => decide (pairs p < npairs) && (last p).isSome))

/-- `VisitRepeatBasisFunction` (734-773). -/
def visitRepeat (npix npairs : ℕ) (lo hi : ℚ) (last : ℕ → Option ℚ) (pairs : ℕ → ℕ) (t : ℚ) : List ℚ :=
  put (repeatFlags npix npairs lo hi last pairs t) 1 ((List.range npix).map (fun _ => 0))

/-- A window, sorted (1019, 1021). -/
def sorted (w : ℚ × ℚ) : ℚ × ℚ := (min w.1 w.2, max w.1 w.2)

/-- The pixels in a window (1045-1048, 1050-1053). -/
def inWin (w : ℚ × ℚ) (diffs : List ℚ) : List Bool :=
  List.zipWith (· && ·) (gtA Tol.default (diffs.map (fun d => (d, (sorted w).1)))) (ltA Tol.default (diffs.map (fun d => (d, (sorted w).2))))

/-- The times since the last visit; `IntRounded` of `nan`, for a pixel not visited yet, raises. -/
def lags (last : ℕ → Option ℚ) (t : ℚ) : List ℕ → Option (List ℚ)
  | [] => some []
  | p :: ps => match last p, lags last t ps with
    | some l, some ds => some ((t - l) :: ds)
    | _, _ => none

/-- Values at some pixels of a map of zeros. -/
def spread (npix : ℕ) (ind : List ℕ) (vals : List ℚ) : List ℚ :=
  (List.range npix).map (fun p => (((ind.zip vals).find? (fun x => x.1 == p)).map (·.2)).getD 0)

/-- `CadenceEnhanceBasisFunction` (1005-1055) on its area; no pixels give the number 0. -/
def cadence (npix : ℕ) (area : List ℕ) (supress : ℚ × ℚ) (sVal : ℚ) (enhance : ℚ × ℚ) (eVal : ℚ) (last : ℕ → Option ℚ) (t : ℚ) :
    Option (ℚ ⊕ List ℚ) :=
  if area = [] then some (.inl 0)
  else (lags last t area).map (fun ds =>
    .inr (spread npix area (put (inWin enhance ds) eVal (put (inWin supress ds) sVal (ds.map (fun _ => 0))))))

/-- `trapezoid` (1060-1080), one element. -/
def trapezoid (amplitude x0 width slope x : ℚ) : ℚ :=
  let x2 := x0 - width / 2
  let x3 := x0 + width / 2
  let x1 := x2 - amplitude / slope
  let x4 := x3 + amplitude / slope
  if x3 ≤ x ∧ x < x4 then slope * (x4 - x)
  else if x2 ≤ x ∧ x < x3 then amplitude
  else if x1 ≤ x ∧ x < x2 then slope * (x - x1)
  else 0

/-- `suppress_enhance` (1137-1148), one element. -/
def supEnh (dAmp dPeak dWidth dSlope eAmp ePeak eWidth eSlope x : ℚ) : ℚ :=
  0 - trapezoid dAmp dPeak dWidth dSlope x + trapezoid eAmp ePeak eWidth eSlope x

/-! ### Bands -/

/-- The last visit as `StrictBandBasisFunction` sees it: an array of one visit when it was added alone (or is the
empty one of the start), a row when it came with a batch. -/
structure Last where
  mjd : ℚ
  moonAlt : ℚ
  sunAlt : ℚ
  note : String
  alone : Bool

/-- `ObservationArray()`. -/
def Last.empty : Last := ⟨0, 0, 0, "", true⟩

/-- What it uses of the conditions. -/
structure BandCond where
  mjd : ℚ
  moonAlt : ℚ
  sunAlt : ℚ
  current : Option String
  mounted : List String

/-- `self.note_free in feature["scheduler_note"]` (884): for an array this asks for an equal element, for a text whether
it is contained. -/
def wasFree (free : String) (l : Last) : Bool := if l.alone then l.note == free else isIn free l.note

/-- The reasons (867-884). -/
def freeChange (band : String) (lag twi : ℚ) (free : String) (l : Last) (c : BandCond) : Bool :=
  decide (c.moonAlt * l.moonAlt < 0) || (c.current == some band || c.current.isNone) || gtS Tol.default (c.mjd - l.mjd) (minutes lag) ||
    decide ((c.sunAlt - twi) * (l.sunAlt - twi) < 0) || wasFree free l

/-- `StrictBandBasisFunction` (855-894). -/
def strictBand (band : String) (lag twi : ℚ) (free : String) (l : Last) (c : BandCond) : ℚ :=
  if freeChange band lag twi free l c && c.mounted.contains band then 1 else 0

/-- `BandChangeBasisFunction` (907-918). -/
def bandChange (band : String) (current : Option String) : ℚ := if current == some band || current.isNone then 1 else 0

/-- `BandDistBasisFunction` (279-297). -/
def bandDist (band : String) (h : List Vis) : ℚ :=
  ((h.foldl (Feat.NObsCount.one ⟨none, none, false⟩) Feat.NObsCount.init).count : ℚ) /
    (((h.foldl (Feat.NObsCount.one ⟨none, some band, false⟩) Feat.NObsCount.init).count : ℚ) + 1)

/-! ### Slews -/

/-- The slew times (`np.size(conditions.slewtime) > 1`): a map, of more than one pixel, or one number. -/
inductive Slew where
  | one (x : XReal)
  | map (l : List XReal)
  deriving DecidableEq

/-- `-x / max`. -/
def minusOver (m : ℚ) (x : XReal) : XReal := XReal.smul (-1 / m) x

/-- `SlewtimeBasisFunction` (952-984). -/
def slewtime (maxTime : ℚ) (band current : Option String) (s : Slew) : Slew :=
  if current ≠ band ∧ band.isSome then
    match s with
    | .map l => .map (l.map (fun x => if x.isFinite then .fin 0 else .nan))
    | .one _ => .one (.fin 0)
  else
    match s with
    | .map l => .map (l.map (fun x => if x.isFinite then minusOver maxTime x else .nan))
    | .one x => .one (minusOver maxTime x)

/-! ### Coverage -/

/-- `x % T`. -/
def wrap (T x : ℚ) : ℚ := x - T * ⌊x / T⌋

/-- How far a pixel is into its season (371-374), before the cut. -/
def into (T sEnd sunRa ra : ℚ) : ℚ := wrap T (sEnd - wrap T (ra - wrap T (sunRa + T / 2)))

/-- The weights (376-380). -/
def yearWeights (T sStart sEnd sunRa : ℚ) (ra : List ℚ) : List ℚ :=
  (put (gtA Tol.default ((ra.map (into T sEnd sunRa)).map (fun x => (x, sEnd - sStart)))) 0 (ra.map (into T sEnd sunRa))).map
    (fun x => x / (sEnd - sStart))

/-- `NObsPerYearBasisFunction` (332-386): `nth` is the map of the time of the n-th last visit; the hours are angles; the
pixels out of the footprint are those with 0 or `nan`. -/
def perYear (T season sStart sEnd : ℚ) (nightMax : ℤ) (footprint : List (Option ℚ)) (nth : ℕ → ℚ) (t : ℚ) (night : ℤ) (sunRa : ℚ) (ra : List ℚ) :
    ℚ ⊕ List ℚ :=
  if nightMax < night then .inl 0
  else .inr (put (footprint.map (fun f => f == none || f == some 0)) 0
    (List.zipWith (· * ·) ((List.range ra.length).map (fun p => if season < t - nth p then 1 else 0)) (yearWeights T sStart sEnd sunRa ra)))

/-- `NGoodSeeingBasisFunction._calc_value` (454-475), with a band; depth may be `nan`. -/
def goodSeeing (npix : ℕ) (fwhmMax penaltyMax : ℚ) (desired : ℕ) (footprint dark : ℕ → ℚ) (depth : ℕ → Option ℚ) (fwhm : ℕ → ℚ) (count : ℕ → ℕ) : List ℚ :=
  (List.range npix).map (fun p => if (match depth p with | none => false | some d => decide (dark p - d ≤ penaltyMax)) &&
    decide (fwhm p ≤ fwhmMax) && decide (count p < desired) && decide (0 < footprint p) then 1 else 0)

/-- `SeasonCoverageBasisFunction._calc_value` (618-636). -/
def seasonCoverage (npix perSeason : ℕ) (frac : ℚ) (footprint season : ℕ → ℚ) (count : ℕ → ℕ) : List ℚ :=
  put (List.zipWith (· && ·) ((List.range npix).map (fun p => decide (0 < footprint p) && decide (count p < perSeason)))
    (gtA Tol.default ((List.range npix).map (fun p => (season p - ⌊season p⌋, frac))))) 1 ((List.range npix).map (fun _ => 0))

/-- `NearSunHighAirmassBasisFunction` (693-714). The tolerant comparisons are made for the pixels with finite airmass. -/
def nearSun (quarter maxAirmass : ℚ) (penalty : Option ℚ) (px : List (XReal × ℚ)) : List (Option ℚ) :=
  let valid := px.filterMap (fun x => match x.1 with | .fin a => some (a, x.2) | _ => none)
  let flags := List.zipWith (· && ·) (List.zipWith (· && ·) (valid.map (fun x => decide (1 ≤ x.1))) (ltA Tol.default (valid.map (fun x => (x.1, maxAirmass)))))
    (ltA Tol.default (valid.map (fun x => (|x.2|, quarter))))
  fill maxAirmass penalty px flags
where
  /-- The values back at their pixels. -/
  fill (maxAirmass : ℚ) (penalty : Option ℚ) : List (XReal × ℚ) → List Bool → List (Option ℚ)
    | [], _ => []
    | (.fin a, _) :: r, f :: fs => (if f then some (a / maxAirmass) else penalty) :: fill maxAirmass penalty r fs
    | _ :: r, fs => penalty :: fill maxAirmass penalty r fs

/-- `FootprintBasisFunction` (rolling_funcs.py 87-99): `first` is the footprint it was set up with, `now` the normalised
one at the current time. -/
def footprint (npix : ℕ) (oob : Option ℚ) (first now : ℕ → ℚ) (all mine : ℕ → ℕ) : List (Option ℚ) :=
  (List.range npix).map (fun p => if first p ≤ 0 then oob else some (now p * (((List.range npix).map all).sum : ℕ) - mine p))

/-! ### Counts -/

/-- `BalanceVisits` (1472-1477); `nobs_reference = 0` raises (the counts are taken as Python integers). -/
def balance (reference : ℚ) (interest survey : ℕ) : Option ℚ :=
  if reference = 0 then none else some ((1 + (⌊(interest : ℚ) / reference⌋ : ℤ)) / (if 0 < survey then (survey : ℚ) else 1))

/-- `RewardNObsSequence` (1508-1509); a length of 0 raises. -/
def sequence (n count : ℕ) : Option ℕ := if n = 0 then none else some (count % n)

end Verif.Bf
