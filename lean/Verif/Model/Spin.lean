import Verif.Model.Dither
import Mathlib.Data.List.MinMax

/-!
Model of the turning of the tessellation of the sky between nights or calls, `BaseMarkovSurvey` in
`/repo/rubin_scheduler/scheduler/surveys/base_survey.py` (566-619, 646-710, 750-765), and of the same in
`ToOScriptedSurvey` (`/repo/rubin_scheduler/scheduler/surveys/too_scripted_surveys.py` 187-222, 267-303).

Angles are real numbers in radians. The random numbers are parameters. `none` stands for an exception.
-/

namespace Verif.Spin

open Sph Dith Real

noncomputable section

/-- One turn: in longitude, of the pole, and of the pole in longitude (617-619). -/
structure Turn where
  lon : ℝ
  lat : ℝ
  lon2 : ℝ

/-- The new position of one field (691-703; too_scripted_surveys.py 281-294). -/
def spin (t : Turn) (p : ℝ × ℝ) : ℝ × ℝ :=
  let v := thetaphi2xyz (fmod (p.1 + t.lon) (2 * π)) (p.2 + π / 2)
  let w := rotx t.lat v
  let tp := xyz2thetaphi w
  (fmod (tp.1 + π + t.lon2) (2 * π), tp.2 - π / 2)

/-- `_hp2fieldsetup` for one pixel (659-665): the field that is nearest in space. Of fields equally near scipy takes one it does not specify, the model the first. -/
def nearestField (fields : List (ℝ × ℝ)) (pix : ℝ × ℝ) : Option ℕ :=
  (List.range fields.length).argmin fun i => chord (xyz pix.1 pix.2) (xyz (fields.getD i (0, 0)).1 (fields.getD i (0, 0)).2)

/-- When the tessellation is turned (595-606). -/
inductive Dither where
  | night
  | call
  | never
deriving DecidableEq

/-- numpy's index: negative ones count from the end. -/
def index (n : ℕ) (i : ℤ) : Option ℕ :=
  if 0 ≤ i then (if i < n then some i.toNat else none) else if -(n : ℤ) ≤ i then some (i + n).toNat else none

/-- The settings: fields, kind of dither, number of positions, turns (by night, or by night and call). -/
structure Cfg where
  init : List (ℝ × ℝ)
  dither : Dither
  n : ℕ
  turn : ℕ → ℕ → Turn

/-- What the survey remembers (560, 579, 593, 607). -/
structure State where
  fields : List (ℝ × ℝ)
  night : ℤ
  currentNight : ℤ
  callNum : ℕ

/-- At construction (560, 579, 593, 607). -/
def start (c : Cfg) : State := ⟨c.init, -1, 0, 0⟩

/-- The fields turned (684-706): always from the first positions. -/
def turned (c : Cfg) (night : ℕ) (call : ℕ) : List (ℝ × ℝ) := c.init.map (spin (c.turn night call))

/-- The night dither (754-756). -/
def byNight (c : Cfg) (s : State) (night : ℤ) : Option State :=
  if night = s.night then some s
  else (index c.n night).map fun i => { s with fields := turned c i 0, night := night }

/-- The call dither (757-762). -/
def byCall (c : Cfg) (s : State) (night : ℤ) : Option State :=
  let k := if night = s.currentNight then s.callNum else 0
  match index c.n night, index c.n k with
  | some i, some j => some { s with fields := turned c i j, currentNight := night, callNum := k + 1 }
  | _, _ => none

/-- `generate_observations_rough` (750-765), but for the reward. -/
def step (c : Cfg) (s : State) (night : ℤ) : Option State :=
  match c.dither with
  | .night => byNight c s night
  | .call => byCall c s night
  | .never => some s

/-- Calls on some nights. -/
def run (c : Cfg) : State → List ℤ → Option State
  | s, [] => some s
  | s, n :: ns => (step c s n).bind fun s => run c s ns

/-- The turns of `ToOScriptedSurvey` (too_scripted_surveys.py 221-222, 276-303): the `k`-th turn has the `k`-th position. -/
def tooFields (c : Cfg) : ℕ → Option (List (ℝ × ℝ))
  | 0 => some c.init
  | k + 1 => if k < c.n then some (turned c k 0) else none

end

end Verif.Spin
