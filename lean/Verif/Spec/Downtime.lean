import Mathlib.Data.Rat.Defs
import Mathlib.Data.Prod.Lex

/-!
Vocabulary for statements about downtimes: a downtime is a pair (start, end).
-/

namespace Verif.Down

/-- Time `t` falls in one of the downtimes. -/
def Closed (l : List (ℚ × ℚ)) (t : ℚ) : Prop := ∃ d ∈ l, d.1 ≤ t ∧ t < d.2

/-- In order, and each ends before any later one starts. -/
def Ordered (l : List (ℚ × ℚ)) : Prop := l.Pairwise (fun a b => a.1 ≤ b.1 ∧ a.2 ≤ b.1)

/-- No downtime ends before it starts. -/
def Forward (l : List (ℚ × ℚ)) : Prop := ∀ d ∈ l, d.1 ≤ d.2

/-- There is a moment `T` with downtimes before and after it and none across it. -/
def Gap (l : List (ℚ × ℚ)) (T : ℚ) : Prop :=
  (∃ d ∈ l, d.2 ≤ T) ∧ (∃ d ∈ l, T ≤ d.1) ∧ ∀ d ∈ l, d.2 ≤ T ∨ T ≤ d.1

instance (l : List (ℚ × ℚ)) (t : ℚ) : Decidable (Closed l t) :=
  inferInstanceAs (Decidable (∃ d ∈ l, d.1 ≤ t ∧ t < d.2))
instance (l : List (ℚ × ℚ)) : Decidable (Ordered l) :=
  inferInstanceAs (Decidable (l.Pairwise (fun a b => a.1 ≤ b.1 ∧ a.2 ≤ b.1)))
instance (l : List (ℚ × ℚ)) : Decidable (Forward l) :=
  inferInstanceAs (Decidable (∀ d ∈ l, d.1 ≤ d.2))

end Verif.Down
