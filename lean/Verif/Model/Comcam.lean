import Verif.Model.Fov

/-!
Model of `HpInComcamFov` (`/repo/rubin_scheduler/scheduler/utils/utils.py` 724-822), the pixels in the field of view of a square camera.

As in `Model/Fov`, the centres of the pixels are an input and searching a tree finds the points at no more than the distance given.  The test
for a point in a polygon is matplotlib's: for a polygon that is convex and runs counterclockwise it is true inside and false outside; on the outline
it may be either, `tie`.  Angles are radians.
-/

namespace Verif.Fov

open Real Sph

noncomputable section

/-- `astype(int)`: towards 0. -/
def toward0 (x : ℝ) : ℤ := if 0 ≤ x then ⌊x⌋ else ⌈x⌉

/-- `HpInComcamFov` after its constructor. -/
structure Comcam where
  centres : List (ℝ × ℝ)
  tree : List Grid
  side : ℤ
  inner : ℤ
  outer : ℤ
  scale : ℝ

/-- `HpInComcamFov.__init__` (730-744). -/
def Comcam.make (centres : List (ℝ × ℝ)) (side scale : ℝ) : Option Comcam :=
  (buildTree scale centres).map fun t =>
    ⟨centres, t, nearest (side * scale), nearest (radius3 (side / 2) * scale), nearest (radius3 (side / 2 * √2) * scale), scale⟩

/-- A corner after rotation (792-795) and made whole (797-807). -/
def corner (rot x y : ℝ) : ℤ × ℤ := (toward0 (x * cos rot - y * sin rot), toward0 (x * sin rot + y * cos rot))

/-- The polygon (746-761, 792-807), without the repeated first corner. -/
def Comcam.polygon (f : Comcam) (rot : ℝ) : List (ℤ × ℤ) :=
  let h := (f.side : ℝ) / 2
  [corner rot (-h) h, corner rot (-h) (-h), corner rot h (-h), corner rot h h]

/-- On which side of the line from `a` to `b` a point is: positive on the left. -/
def leftOf (a b p : ℤ × ℤ) : ℤ := (b.1 - a.1) * (p.2 - a.2) - (b.2 - a.2) * (p.1 - a.1)

/-- The sides of a polygon: each corner and the next. -/
def sides (l : List (ℤ × ℤ)) : List ((ℤ × ℤ) × (ℤ × ℤ)) := l.zip (l.rotate 1)

/-- `contains_point` (819). -/
def contains (tie : ℤ × ℤ → Bool) (l : List (ℤ × ℤ)) (p : ℤ × ℤ) : Bool :=
  if (sides l).all (fun e => decide (0 < leftOf e.1 e.2 p)) then true
  else if (sides l).any (fun e => decide (leftOf e.1 e.2 p < 0)) then false
  else tie p

/-- The test of one pixel (809-820). -/
def Comcam.inSquare (f : Comcam) (tie : ℤ × ℤ → Bool) (ra dec rot : ℝ) (i : ℕ) : Bool :=
  match f.centres[i]? with
  | none => false
  | some c =>
    let p := toXY c.1 c.2 ra dec
    contains tie (f.polygon rot) (toward0 (p.1 * f.scale), toward0 (p.2 * f.scale))

/-- `HpInComcamFov.__call__` (763-822): the pixels in the inner circle, then those of the others in the outer circle that pass the test. That there are
no others is noticed but not reported (789-790). -/
def Comcam.call (f : Comcam) (tie : ℤ × ℤ → Bool) (ra dec rot : ℝ) : List ℕ :=
  let p := toGrid f.scale ra dec
  let indices := query f.tree p f.inner
  let toCheck := (query f.tree p f.outer).filter (fun i => !indices.contains i)
  indices ++ toCheck.filter (f.inSquare tie ra dec rot)

end

end Verif.Fov
