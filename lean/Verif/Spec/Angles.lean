import Mathlib.Algebra.Order.Field.Basic

/-!
Angles that differ by whole turns.
-/

namespace Verif.Ang

/-- `x` and `y` differ by a whole number of turns `T`. -/
def SameAngle {α : Type} [Field α] (T x y : α) : Prop := ∃ k : ℤ, x = y + k * T

end Verif.Ang
