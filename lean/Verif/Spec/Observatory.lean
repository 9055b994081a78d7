import Verif.Model.Observatory
import Verif.Spec.Downtime

/-!
When the observatory is open.
-/

namespace Verif.Obs

/-- Between the start and the end of some night. -/
def InNight (nights : List (ℚ × ℚ)) (t : ℚ) : Prop := ∃ n ∈ nights, n.1 ≤ t ∧ t ≤ n.2

/-- Clear enough, at night, and not in a downtime. -/
structure Open (S : Site) (t : ℚ) : Prop where
  clear : S.cloud t ≤ S.cloudLimit
  night : InNight S.nights t
  up : ¬ Down.Closed S.downs t

/-- The nights of the almanac follow each other. -/
def Nights (l : List (ℚ × ℚ)) : Prop := (∀ n ∈ l, n.1 ≤ n.2) ∧ l.Pairwise (fun a b => a.2 < b.1)

/-- The clock is only put forward: every `setClock` gives a time that is not before the time
the clock shows then. -/
def Forwards {K O : Type} (S : Site) (M : Kin K O) (fuel : ℕ) : St K → List (Op O) → Prop
  | _, [] => True
  | s, .setClock t :: rest => s.mjd ≤ t ∧ Forwards S M fuel { s with mjd := t } rest
  | s, .observe o :: rest =>
    match observe S M fuel s o with
    | .error _ => True
    | .ok (s', _, _) => Forwards S M fuel s' rest

/-- Slew and visit times are not negative. -/
def NonNeg {K O : Type} (M : Kin K O) : Prop :=
  ∀ k o t, (∀ x ∈ (M.observe k o t).2.1, 0 ≤ x) ∧ 0 ≤ (M.observe k o t).2.2

end Verif.Obs
