import Verif.Model.Features
import Verif.Model.Reward

/-!
Model of `PointingsSurvey` (`/repo/rubin_scheduler/scheduler/surveys/pointings_survey.py`):
a list of targets, what is remembered of past visits, and the choice of the next target.

Simplifications.  Angles are exact and in degrees, times in days.  Altitudes, distances to the
moon, wind pressure, slew times and depth differences at the targets come from the conditions
as lists.  `none` stands for a Python exception.
-/

namespace Verif.Pnt

open XReal Rew

/-- A target with its tracking entries `n_obs` and `last_observed` (pointings_survey.py
116-118). -/
structure Target where
  note : String
  ra : ℚ
  n : ℕ
  last : ℚ
deriving DecidableEq, Repr

/-- The survey: targets, `tracking_notes`, and the cached reward with its time. -/
structure State where
  targets : List Target
  counts : List (String × ℕ)
  cache : ℚ × List XReal
deriving DecidableEq

/-- A completed visit. -/
structure Done where
  note : String
  mjd : ℚ
deriving DecidableEq

/-- The constructor (pointings_survey.py 62-140): notes that are not unique raise. `names` are
the keys of `track_notes_ngoal`. -/
def make (obs : List (String × ℚ)) (names : List String) : Option State :=
  if (obs.map Prod.fst).dedup.length = obs.length then
    some { targets := obs.map (fun o => { note := o.1, ra := o.2, n := 0, last := 0 }),
           counts := names.map (fun k => (k, 0)), cache := (-1, []) }
  else none

/-- One more visit of a target (pointings_survey.py 198-201). -/
def bump (v : Done) (t : Target) : Target :=
  if t.note = v.note then { t with n := t.n + 1, last := v.mjd } else t

/-- `add_observation` (pointings_survey.py 195-206). The note of a visit is an array of one
string, and `key in array` (205) compares whole strings. -/
def addOne (v : Done) (s : State) : State :=
  { s with targets := s.targets.map (bump v),
           counts := s.counts.map (fun k => if k.1 = v.note then (k.1, k.2 + 1) else k) }

/-- Largest of some times (`.max()`, pointings_survey.py 215). -/
def latest : List ℚ → ℚ
  | [] => 0
  | x :: xs => xs.foldl max x

/-- All visits with one note (pointings_survey.py 212-215). -/
def bumpMany (vs : List Done) (u : String) (t : Target) : Target :=
  if t.note = u then
    { t with n := t.n + (vs.filter (fun v => decide (v.note = u))).length,
             last := latest ((vs.filter (fun v => decide (v.note = u))).map (·.mjd)) }
  else t

/-- The body of the loop of `add_observations_array` (pointings_survey.py 211-219). Here
`key in unote` (218) looks for a part of a string. -/
def addNote (vs : List Done) (s : State) (u : String) : State :=
  { s with targets := s.targets.map (bumpMany vs u),
           counts := s.counts.map (fun k =>
             if Feat.isIn k.1 u then (k.1, k.2 + (vs.filter (fun v => decide (v.note = u))).length) else k) }

/-- `add_observations_array` (pointings_survey.py 208-219). (`np.unique` sorts; the order does
not matter as no two notes touch the same target and counts add up.) -/
def addArray (vs : List Done) (s : State) : State := ((vs.map (·.note)).dedup).foldl (addNote vs) s

/-- The limits of the constructor: `gap` in days, `haMax` and `haMin` in degrees before they
are brought to 0-360. -/
structure Limits where
  gap : ℚ
  moon : ℚ
  altMin : ℚ
  altMax : ℚ
  haMin : ℚ
  haMax : ℚ
  wind : ℚ
  sunAlt : ℚ
  goals : List (String × ℕ)

/-- What the conditions say about the targets. -/
structure Sky where
  mjd : ℚ
  lmst : ℚ
  sunAlt : ℚ
  alt : List ℚ
  moonDist : List ℚ
  pressure : Option (List ℚ)
  slew : List XReal
  m5 : List XReal

/-- The keys of `weights`. -/
inductive Term where
  | visitGap | balance | m5 | slew | wind | ha | alt | moon | boost
deriving DecidableEq

/-- `result = zeros; result[where(bad)] = nan`. -/
def mask (bad : List Bool) : List XReal := bad.map (fun b => if b then .nan else .fin 0)

/-- An angle brought to 0-360 (pointings_survey.py 112-113). -/
def turn (x : ℚ) : ℚ := x - 360 * ⌊x / 360⌋

/-- The hour angles (pointings_survey.py 169-170). -/
def hourAngle (sky : Sky) (t : Target) : ℚ := if sky.lmst - t.ra < 0 then sky.lmst - t.ra + 360 else sky.lmst - t.ra

/-- Comparisons of an array with one number through `IntRounded`. -/
def above (g : ℚ) (xs : List ℚ) : List Bool := gtA Tol.default (xs.map (fun x => (x, g)))
/-- As `above`. -/
def below (g : ℚ) (xs : List ℚ) : List Bool := ltA Tol.default (xs.map (fun x => (x, g)))

/-- `ha_limit` (pointings_survey.py 221-231). -/
def haLimit (g : Limits) (sky : Sky) (ts : List Target) : List XReal :=
  mask (List.zipWith (fun a b => a && b) (above (turn g.haMax) (ts.map (hourAngle sky)))
    (below (turn g.haMin) (ts.map (hourAngle sky))))

/-- `alt_limit` (pointings_survey.py 233-238). -/
def altLimit (g : Limits) (sky : Sky) : List XReal :=
  mask (List.zipWith (fun a b => a || b) (above g.altMax sky.alt) (below g.altMin sky.alt))

/-- `moon_limit` (pointings_survey.py 240-247). -/
def moonLimit (g : Limits) (sky : Sky) : List XReal := mask (below g.moon sky.moonDist)

/-- `wind_limit` (pointings_survey.py 249-259). -/
def windLimit (g : Limits) (sky : Sky) (n : ℕ) : List XReal :=
  match sky.pressure with
  | none => List.replicate n (.fin 0)
  | some p => List.zipWith (fun b x => if b then .nan else .fin (0 - x ^ 2)) (above g.wind p) p

/-- `visit_gap` (pointings_survey.py 261-269). -/
def visitGap (g : Limits) (sky : Sky) (ts : List Target) : List XReal :=
  mask (below g.gap (ts.map (fun t => sky.mjd - t.last)))

/-- `balance_revisit` for one target (pointings_survey.py 271-279). -/
def balanceOne (total n : ℕ) : ℚ :=
  if n = 0 then 1 else if total = 0 then ⌊(1 : ℚ) + n⌋ else ⌊(1 : ℚ) + n / total⌋

/-- `balance_revisit` (pointings_survey.py 271-279). -/
def balance (ts : List Target) : List XReal := ts.map (fun t => .fin (balanceOne (ts.map (·.n)).sum t.n))

/-- The entry of a key; the keys of both dictionaries are the same. -/
def look (k : String) (l : List (String × ℕ)) : ℕ := ((l.find? (fun e => e.1 == k)).map Prod.snd).getD 0

/-- `sequence_boost` for one target (pointings_survey.py 296-302 and the mapping 100-107): the
last key that is part of the note decides. (A goal of zero gives 0 with a warning.) -/
def boostOne (g : Limits) (counts : List (String × ℕ)) (t : Target) : ℚ :=
  counts.foldl (fun acc k => if Feat.isIn k.1 t.note then
    (if look k.1 g.goals = 0 then 0 else ((k.2 % look k.1 g.goals : ℕ) : ℚ)) else acc) 0

/-- The methods that `weights` can name. -/
def term (g : Limits) (sky : Sky) (s : State) : Term → List XReal
  | .visitGap => visitGap g sky s.targets
  | .balance => balance s.targets
  | .m5 => sky.m5
  | .slew => sky.slew
  | .wind => windLimit g sky s.targets.length
  | .ha => haLimit g sky s.targets
  | .alt => altLimit g sky
  | .moon => moonLimit g sky
  | .boost => s.targets.map (fun t => .fin (boostOne g s.counts t))

/-- The sum over the weights (pointings_survey.py 172-177). -/
def total (g : Limits) (sky : Sky) (s : State) (weights : List (Term × ℚ)) : List XReal :=
  weights.foldl (fun acc w => List.zipWith add acc ((term g sky s w.1).map (smul w.2)))
    (List.replicate s.targets.length (.fin 0))

/-- The array `self.reward` after `calc_reward_function` (pointings_survey.py 156-180): it is
computed again only if the time has changed. -/
def rewards (g : Limits) (weights : List (Term × ℚ)) (sky : Sky) (s : State) : List XReal :=
  if s.cache.1 ≠ sky.mjd then total g sky s weights else s.cache.2

/-- The survey after `calc_reward_function`. -/
def computed (g : Limits) (weights : List (Term × ℚ)) (sky : Sky) (s : State) : State :=
  { s with cache := (sky.mjd, rewards g weights sky s) }

/-- The value of `calc_reward_function`; no targets raise. -/
def value (g : Limits) (weights : List (Term × ℚ)) (sky : Sky) (s : State) : Option XReal :=
  nanmax (rewards g weights sky s)

/-- The target chosen by `generate_observations_rough` (pointings_survey.py 182-193); raises
when every reward is nan. -/
def winner (g : Limits) (weights : List (Term × ℚ)) (sky : Sky) (s : State) : Option ℕ := peak (rewards g weights sky s)

/-- `_check_feasibility` (pointings_survey.py 142-154), which nothing else calls. -/
def feasible (g : Limits) (weights : List (Term × ℚ)) (sky : Sky) (s : State) : Bool :=
  if gtS Tol.default sky.sunAlt g.sunAlt then false else ((value g weights sky s).getD .nan).isFinite

end Verif.Pnt
