import Mathlib.Data.List.Basic

/-! Values by bins, for C143 and C144. -/

namespace Verif

/-- An order in which the bins do not fall, with every position once. -/
def IsOrder (ids order : List ℕ) : Prop := order.Perm (List.range ids.length) ∧ (order.filterMap (fun i => ids[i]?)).Pairwise (· ≤ ·)

/-- The values in a bin. -/
def valuesIn {V : Type} (ids : List ℕ) (values : List V) (u : ℕ) : List V := ((ids.zip values).filter (fun x => decide (x.1 = u))).map (·.2)

end Verif
