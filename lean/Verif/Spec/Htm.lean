import Verif.Model.Htm

/-!
Specification for the triangular mesh on the sphere.
-/

namespace Verif

open Sph Htm

/-- A vector of length one. -/
def IsUnit3 (v : Vec) : Prop := v.x ^ 2 + v.y ^ 2 + v.z ^ 2 = 1

/-- The cone over a triangle: the combinations of its corners with numbers that are not negative. -/
def InCone (a b c p : Vec) : Prop := ∃ α β γ : ℝ, 0 ≤ α ∧ 0 ≤ β ∧ 0 ≤ γ ∧ p = add (add (smul α a) (smul β b)) (smul γ c)

/-- The inner part of the cone. -/
def InsideCone (a b c p : Vec) : Prop := ∃ α β γ : ℝ, 0 < α ∧ 0 < β ∧ 0 < γ ∧ p = add (add (smul α a) (smul β b)) (smul γ c)

/-- The trixel with a number has the point. -/
def HasPt (i : ℕ) (p : Vec) : Prop := ∃ t, trixelFrom i = some t ∧ InCone t.c0 t.c1 t.c2 p

/-- The trixel with a number has the point in its inner part. -/
def HasInside (i : ℕ) (p : Vec) : Prop := ∃ t, trixelFrom i = some t ∧ InsideCone t.c0 t.c1 t.c2 p

/-- A number is in one of the ranges. -/
def InRanges (l : List (ℕ × ℕ)) (n : ℕ) : Prop := ∃ r ∈ l, r.1 ≤ n ∧ n ≤ r.2

/-- Every range has a number. -/
def FullRanges (l : List (ℕ × ℕ)) : Prop := ∀ r ∈ l, r.1 ≤ r.2

/-- The ranges rise, and between two of them there is a number that is in none. -/
def Apart (l : List (ℕ × ℕ)) : Prop := l.Pairwise (fun a b => a.2 + 1 < b.1)

/-- A point of the sphere in a trixel. -/
def PointOf (t : Trixel) (p : Vec) : Prop := IsUnit3 p ∧ InCone t.c0 t.c1 t.c2 p

/-- The trixel with a number has a point in the half space. -/
def Meets (h : Half) (i : ℕ) : Prop := ∃ t p, trixelFrom i = some t ∧ PointOf t p ∧ h.containsUnit p

/-- The trixel with a number has a point in the half space or on its boundary. -/
def Touches (h : Half) (i : ℕ) : Prop := ∃ t p, trixelFrom i = some t ∧ PointOf t p ∧ h.d ≤ dot p h.v

/-- On both circles. -/
def OnBoth (h1 h2 : Half) (p : Vec) : Prop := IsUnit3 p ∧ dot p h1.v = h1.d ∧ dot p h2.v = h2.d

end Verif
