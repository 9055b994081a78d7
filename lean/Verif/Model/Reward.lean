import Verif.Model.IntRounded
import Verif.Model.XReal

/-!
Model of how surveys turn the values of their basis functions into a reward
(`/repo/rubin_scheduler/scheduler/surveys/base_survey.py`, `surveys.py`, `field_survey.py`,
`dd_surveys.py`; the call of a basis function, `basis_functions/basis_functions.py` 156-173).

Simplifications.  A basis function is represented by what it says at the current conditions:
whether it is feasible and the value it would compute.  Rewards are exact rationals, the two
infinities or nan.  The smoothing of `hp.sphtfunc.smoothing` is an arbitrary function of the
map.  `none` stands for a Python exception.
-/

namespace Verif.Rew

open XReal

/-- The value of a basis function or a reward: one number for the whole sky or one per
pixel. -/
inductive Val where
  | scalar (x : XReal)
  | map (l : List XReal)
deriving DecidableEq, Repr

/-- A basis function at the current conditions: `check_feasibility` and `_calc_value`. -/
structure Basis where
  feasible : Bool
  raw : Val

/-- `BaseBasisFunction.__call__` (basis_functions.py 156-173): -inf when not feasible. The
cache is left out: the value is recomputed at every new time and after every visit. -/
def call (b : Basis) : Val := if b.feasible then b.raw else .scalar .ninf

/-- `basis_value * weight` (base_survey.py 729). -/
def scale (w : ℚ) : Val → Val
  | .scalar x => .scalar (smul w x)
  | .map l => .map (l.map (smul w))

/-- `reward += ...` with numpy broadcasting (base_survey.py 729); maps of different length
raise. -/
def plus : Val → Val → Option Val
  | .scalar x, .scalar y => some (.scalar (add x y))
  | .scalar x, .map l => some (.map (l.map (add x)))
  | .map l, .scalar y => some (.map (l.map (fun x => add x y)))
  | .map l, .map m => if l.length = m.length then some (.map (List.zipWith add l m)) else none

/-- `calc_reward_basic` (base_survey.py 724-730). -/
def basicFrom (acc : Val) : List (Basis × ℚ) → Option Val
  | [] => some acc
  | b :: bs =>
    match plus acc (scale b.2 (call b.1)) with
    | none => none
    | some v => basicFrom v bs

/-- As `basicFrom`, from `reward = 0`. -/
def basic (bs : List (Basis × ℚ)) : Option Val := basicFrom (.scalar (.fin 0)) bs

/-- The loop over `check_feasibility` (base_survey.py 271-275, 625-628; surveys.py 634-637):
`none` when there is nothing to loop over (the name `result` is then unbound). -/
def checkLoop : List (Basis × ℚ) → Option Bool
  | [] => none
  | b :: bs => if b.1.feasible then some ((checkLoop bs).getD true) else some false

/-- `BaseSurvey._check_feasibility` (base_survey.py 263-276). -/
def baseFeasible (bs : List (Basis × ℚ)) : Bool := (checkLoop bs).getD true

/-- The area requirement. `required` is the constructor argument in square degrees, `unit`
the number of steradians in a square degree, `pixDeg` the area of a pixel in square degrees,
`sep` the separation of two pixels and `radius` `max_radius_peak`. `hasSky` says whether the
survey has the pixel positions, pixel area and radius as attributes: `BlobSurvey` sets them
(surveys.py 285, 289, 317, 321), `GreedySurvey` and `BaseMarkovSurvey` do not. -/
structure Area where
  required : Option ℚ
  unit : ℚ
  pixDeg : ℚ
  sep : ℕ → ℕ → ℚ
  radius : ℚ
  hasSky : Bool

/-- `np.min(np.where(reward == np.nanmax(reward)))` (base_survey.py 635, surveys.py 421-426,
598): `none` when everything is nan. -/
def peak (l : List XReal) : Option ℕ :=
  match nanmax l with
  | none => none
  | some m => l.findIdx? (fun r => eqB r m)

/-- `distances < self.max_radius_peak` (base_survey.py 639). -/
def nearPlain (a : Area) (n p : ℕ) : List Bool := (List.range n).map (fun i => decide (a.sep i p < a.radius))

/-- `IntRounded(distances) < IntRounded(self.max_radius_peak)` (surveys.py 434, 602). -/
def nearRounded (a : Area) (n p : ℕ) : List Bool := ltA Tol.default ((List.range n).map (fun i => (a.sep i p, a.radius)))

/-- Number of pixels that are not nan (`np.abs(x) >= 0` says the same) and near. -/
def validCount (l : List XReal) (near : List Bool) : ℕ :=
  (l.zip near).countP (fun x => !x.1.isNan && x.2)

/-- The area check on a reward (base_survey.py 632-643, `_check_area` surveys.py 593-608).
The pixel area is in square degrees (surveys.py 321), the requirement in steradians
(base_survey.py 590, surveys.py 582-585). -/
def areaOk (a : Area) (near : Area → ℕ → ℕ → List Bool) (req : ℚ) : Val → Option Bool
  | .scalar x => if x.isFinite then none else some false
  | .map l =>
    if l.any XReal.isFinite then
      if a.hasSky then (peak l).map (fun p => !decide (validCount l (near a l.length p) * a.pixDeg < req * a.unit))
      else none
    else some false

/-- The end of `BaseMarkovSurvey._check_feasibility` (base_survey.py 631-644). -/
def markovArea (a : Area) (bs : List (Basis × ℚ)) (loop : Option Bool) : Option Bool :=
  match a.required with
  | none => loop
  | some req =>
    match basic bs with
    | none => none
    | some v =>
      match areaOk a nearPlain req v with
      | none => none
      | some true => loop
      | some false => some false

/-- `BaseMarkovSurvey._check_feasibility` (base_survey.py 621-644). -/
def markovFeasible (a : Area) (bs : List (Basis × ℚ)) : Option Bool :=
  if checkLoop bs = some false then some false else markovArea a bs (checkLoop bs)

/-- `smooth_reward` (base_survey.py 712-722): masked pixels stay masked, a scalar is left
alone. -/
def smoothed (k : Option (List XReal → List XReal)) : Val → Val
  | .scalar x => .scalar x
  | .map l =>
    match k with
    | none => .map l
    | some f => .map (List.zipWith (fun x y => if x.isNan then .nan else y) l (f l))

/-- The whole-sky area check of `BaseMarkovSurvey` (base_survey.py 743-746). -/
def markovTail (a : Area) (v : Val) : Option Val :=
  match a.required with
  | none => some v
  | some req =>
    match v with
    | .scalar _ => none
    | .map l => some (if (l.countP (fun x => !x.isNan)) * (a.pixDeg * a.unit) < req * a.unit then .scalar .ninf else v)

/-- The check of `BlobSurvey` around the maximum (surveys.py 420-437). -/
def blobTail (a : Area) (v : Val) : Option Val :=
  match a.required with
  | none => some v
  | some req =>
    match v with
    | .scalar _ => none
    | .map l =>
      match peak l with
      | none => some (.scalar .ninf)
      | some p =>
        some (if validCount l (nearRounded a l.length p) * (a.pixDeg * a.unit) < req * a.unit then .scalar .ninf else v)

/-- Common shape of the reward functions: -inf when not feasible, else the weighted sum,
smoothed, and a last check. -/
def rewardWith (feasible : Option Bool) (k : Option (List XReal → List XReal)) (tail : Val → Option Val)
    (bs : List (Basis × ℚ)) : Option Val :=
  match feasible with
  | none => none
  | some false => some (.scalar .ninf)
  | some true =>
    match basic bs with
    | none => none
    | some v => tail (smoothed k v)

/-- IEEE multiplication (`0 * inf = nan`). -/
def mulX : XReal → XReal → XReal
  | .nan, _ => .nan
  | .fin a, y => smul a y
  | .pinf, .nan => .nan
  | .pinf, .fin b => smul b .pinf
  | .pinf, .pinf => .pinf
  | .pinf, .ninf => .ninf
  | .ninf, .nan => .nan
  | .ninf, .fin b => smul b .ninf
  | .ninf, .pinf => .ninf
  | .ninf, .ninf => .pinf

/-- `reward * bf(conditions)` (surveys.py 653). -/
def timesV : Val → Val → Option Val
  | .scalar x, .scalar y => some (.scalar (mulX x y))
  | .scalar x, .map l => some (.map (l.map (mulX x)))
  | .map l, .scalar y => some (.map (l.map (fun x => mulX x y)))
  | .map l, .map m => if l.length = m.length then some (.map (List.zipWith mulX l m)) else none

/-- `np.any(passed)` over the additional masks (surveys.py 649-655). -/
def extraPass (a : Area) (reward : Val) : List (ℚ × Basis) → Option Bool
  | [] => some false
  | x :: xs =>
    match timesV reward (call x.2) with
    | none => none
    | some v =>
      match areaOk a nearRounded x.1 v, extraPass a reward xs with
      | some p, some q => some (p || q)
      | _, _ => none

/-- `result` after the required area was looked at (surveys.py 640-642). -/
def pairsArea (a : Area) (bs : List (Basis × ℚ)) (loop : Option Bool) : Option Bool :=
  match a.required with
  | none => loop
  | some req =>
    match basic bs with
    | none => none
    | some v => areaOk a nearRounded req v

/-- `BlobPairsSurvey._check_feasibility` (surveys.py 628-657). -/
def pairsFeasible (a : Area) (extra : Option (List (ℚ × Basis))) (bs : List (Basis × ℚ)) : Option Bool :=
  if checkLoop bs = some false then some false
  else
    match pairsArea a bs (checkLoop bs) with
    | none => none
    | some true => some true
    | some false =>
      match extra with
      | none => some false
      | some xs =>
        match basic bs with
        | none => none
        | some v => extraPass a v xs

/-- One number from the reward of a field survey: the entry of the field's pixel, with
`np.isinf` (either sign) turned into +inf (field_survey.py 237-241). -/
def atField (i : ℕ) : Val → Option Val
  | .scalar x => some (.scalar x)
  | .map l => (l[i]?).map (fun x => .scalar (if x = .pinf ∨ x = .ninf then .pinf else x))

/-- The surveys with basis functions. -/
inductive Kind where
  /-- `BaseSurvey` (base_survey.py 278-296) -/
  | base
  /-- `BaseMarkovSurvey`, `GreedySurvey` (base_survey.py 732-748) -/
  | markov (a : Area) (k : Option (List XReal → List XReal))
  /-- `BlobSurvey` (surveys.py 408-440) -/
  | blob (a : Area) (k : Option (List XReal → List XReal))
  /-- `BlobPairsSurvey` (surveys.py 610-626) -/
  | pairs (a : Area) (extra : Option (List (ℚ × Basis))) (k : Option (List XReal → List XReal))
  /-- `FieldSurvey`, `FieldAltAzSurvey` with the field's pixel (field_survey.py 228-246) -/
  | field (pix : ℕ)
  /-- `DeepDrillingSurvey` with its fixed value or the counts of all and of its own visits
  (dd_surveys.py 144-155) -/
  | deep (value : Option XReal) (all own : ℕ)

/-- `calc_reward_function`. -/
def reward (kd : Kind) (bs : List (Basis × ℚ)) : Option Val :=
  match kd with
  | .base => some (if baseFeasible bs then .scalar (.fin 0) else .scalar .ninf)
  | .markov a k => rewardWith (markovFeasible a bs) k (markovTail a) bs
  | .blob a k => rewardWith (markovFeasible a bs) k (blobTail a) bs
  | .pairs a extra k => rewardWith (pairsFeasible a extra bs) k some bs
  | .field pix => rewardWith (some (baseFeasible bs)) none (atField pix) bs
  | .deep value all own =>
    some (if baseFeasible bs then .scalar (value.getD (.fin (all / (own + 1)))) else .scalar .ninf)

/-- The reward as the list of its entries, as the scheduler looks at it
(core_scheduler.py 416-421). -/
def entries : Val → List XReal
  | .scalar x => [x]
  | .map l => l

end Verif.Rew
