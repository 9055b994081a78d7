import Mathlib.Analysis.SpecialFunctions.Pow.Real

/-!
Specification vocabulary for motion times: a move along a line from rest to rest with limited
speed, acceleration and jerk.
-/

namespace Verif.Jerk

/-- Position, speed and acceleration. -/
structure Motion where
  x : ℝ
  v : ℝ
  a : ℝ

/-- Where the motion is after moving with constant jerk `j` for a time `t`. -/
noncomputable def Motion.drift (m : Motion) (j t : ℝ) : Motion :=
  ⟨m.x + m.v * t + m.a * t ^ 2 / 2 + j * t ^ 3 / 6, m.v + m.a * t + j * t ^ 2 / 2, m.a + j * t⟩

/-- A plan: constant jerks and how long each lasts. -/
abbrev Plan := List (ℝ × ℝ)

/-- How long a plan takes. -/
noncomputable def Plan.time (p : Plan) : ℝ := (p.map Prod.snd).sum

/-- The motion at the end of a plan. -/
noncomputable def Plan.finish (m : Motion) : Plan → Motion
  | [] => m
  | (j, t) :: p => Plan.finish (m.drift j t) p

/-- At all times during the plan speed, acceleration and jerk are within limits (never
moving backwards) and all durations are non-negative. -/
def Plan.Within (vmax amax jmax : ℝ) (m : Motion) : Plan → Prop
  | [] => True
  | (j, t) :: p => 0 ≤ t ∧ |j| ≤ jmax ∧
      (∀ s, 0 ≤ s → s ≤ t → 0 ≤ (m.drift j s).v ∧ (m.drift j s).v ≤ vmax ∧ |(m.drift j s).a| ≤ amax) ∧
      Plan.Within vmax amax jmax (m.drift j t) p

/-- The symmetric third-order profile with jerk `j`: ramp the acceleration up for `tj`, hold
it for `ta - tj`, ramp it down for `tj`, cruise for `tv - ta - tj`, and the same backwards. -/
noncomputable def profile (j tj ta tv : ℝ) : Plan :=
  [(j, tj), (0, ta - tj), (-j, tj), (0, tv - ta - tj), (-j, tj), (0, ta - tj), (j, tj)]

/-- `profile` with these times goes from rest to rest over a distance `d` within limits. -/
def Reaches (d v a j tj ta tv : ℝ) : Prop :=
  Plan.Within v a j ⟨0, 0, 0⟩ (profile j tj ta tv) ∧ Plan.finish ⟨0, 0, 0⟩ (profile j tj ta tv) = ⟨d, 0, 0⟩

/-- Without a limit on the jerk: accelerate with `a` for `ta`, cruise for `tv - ta`, brake for
`ta`; the speed reached is `a * ta`, the distance `a * ta * tv`. -/
def AccReaches (d v a ta tv : ℝ) : Prop := 0 ≤ ta ∧ ta ≤ tv ∧ a * ta ≤ v ∧ a * ta * tv = d

/-- The six situations distinguished by the code's comments, in terms of the limits. -/
def Situation (d v a j : ℝ) : ℕ → Prop
  | 1 => v < a ^ 2 / j ∧ 2 * a ^ 3 / j ^ 2 ≤ d
  | 2 => a ^ 2 / j ≤ v ∧ d < 2 * a ^ 3 / j ^ 2
  | 3 => v < a ^ 2 / j ∧ d < 2 * a ^ 3 / j ^ 2 ∧ 2 * v * √(v / j) ≤ d
  | 4 => v < a ^ 2 / j ∧ d < 2 * a ^ 3 / j ^ 2 ∧ d < 2 * v * √(v / j)
  | 5 => a ^ 2 / j ≤ v ∧ 2 * a ^ 3 / j ^ 2 ≤ d ∧ v * (v / a + a / j) ≤ d
  | 6 => a ^ 2 / j ≤ v ∧ 2 * a ^ 3 / j ^ 2 ≤ d ∧ d < v * (v / a + a / j)
  | _ => False

end Verif.Jerk
