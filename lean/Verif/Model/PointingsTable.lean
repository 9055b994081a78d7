import Verif.Model.Pointings

/-!
Model of the table of rewards of `PointingsSurvey`
(`/repo/rubin_scheduler/scheduler/surveys/pointings_survey.py` 337-426).

Simplification.  The labels (409-426) are the keys themselves: a dictionary has no key twice and
the names of methods hold no `" @"`.
-/

namespace Verif.Pnt

open XReal

/-- A row of the table (pointings_survey.py 381-391). -/
structure Row where
  key : Term
  feasible : Bool
  max : XReal
  n : ℕ
  weight : ℚ
  accum : XReal
  accumN : ℕ
deriving DecidableEq

/-- `n_unmasked` of `_reward_to_scalars` (pointings_survey.py 337-341). -/
def unmasked (l : List XReal) : ℕ := (l.filter XReal.isFinite).length

/-- A row from the weighted term and the sum up to it (pointings_survey.py 361-379); `nanmax` of
no targets raises. -/
def rowOf (w : Term × ℚ) (part acc : List XReal) : Option Row :=
  match nanmax part, nanmax acc with
  | some m, some a =>
    some { key := w.1, feasible := !(decide (m = .nan) || decide (unmasked part = 0)), max := m, n := unmasked part,
           weight := w.2, accum := a, accumN := unmasked acc }
  | _, _ => none

/-- The loop over the weights (pointings_survey.py 358-379). -/
def rowsFrom (g : Limits) (sky : Sky) (s : State) : List XReal → List (Term × ℚ) → Option (List Row)
  | _, [] => some []
  | acc, w :: ws =>
    let part := (term g sky s w.1).map (smul w.2)
    let acc' := List.zipWith add acc part
    match rowOf w part acc', rowsFrom g sky s acc' ws with
    | some r, some rs => some (r :: rs)
    | _, _ => none

/-- Whether a method reads `self.ha`, `self.alt` or `self.az`, which only
`calc_reward_function` sets (pointings_survey.py 163-170, 226, 236, 254). -/
def remembers (now : Sky) : Term → Bool
  | .ha => true
  | .alt => true
  | .wind => now.pressure.isSome
  | _ => false

/-- What the methods see: altitudes and hour angles of the last `calc_reward_function`, at the
conditions `old`, and the rest from the conditions `now`; `press` is the wind of now on the
azimuths of then. -/
def mixed (old now : Sky) (press : Option (List ℚ)) : Sky :=
  { now with alt := old.alt, lmst := old.lmst, pressure := press }

/-- `make_reward_df` (pointings_survey.py 343-395). `old` is `none` before the first
`calc_reward_function`: then the methods that remember raise. -/
def table (g : Limits) (weights : List (Term × ℚ)) (old : Option Sky) (press : Option (List ℚ)) (now : Sky)
    (s : State) : Option (List Row) :=
  match old with
  | none =>
    if weights.any (fun w => remembers now w.1) then none
    else rowsFrom g now s (List.replicate s.targets.length (.fin 0)) weights
  | some o => rowsFrom g (mixed o now press) s (List.replicate s.targets.length (.fin 0)) weights

/-- `reward_changes` (pointings_survey.py 397-407) with the conditions of the last
`calc_reward_function`: the largest unweighted value of each method. -/
def changes (g : Limits) (weights : List (Term × ℚ)) (sky : Sky) (s : State) : Option (List (Term × XReal)) :=
  weights.mapM (fun w => (nanmax (term g sky s w.1)).map (fun m => (w.1, m)))

end Verif.Pnt
