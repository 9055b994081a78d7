import Verif.Model.Sphere

/-! Directions, for C117-C124: unit vectors, and the directions up, north and east at a place. -/

namespace Verif

open Sph Real

/-- Scalar product. -/
noncomputable def dot (a b : Vec) : ℝ := a.x * b.x + a.y * b.y + a.z * b.z

/-- Equal up to full turns. -/
def SameTurn (a b : ℝ) : Prop := ∃ k : ℤ, a = b + k * (2 * π)

/-- A latitude, declination or altitude. -/
def IsLat (a : ℝ) : Prop := -(π / 2) ≤ a ∧ a ≤ π / 2

/-- The zenith at latitude `lat` when the sidereal time is `t` (radians): its declination is the latitude
and its right ascension the sidereal time. -/
noncomputable def upV (lat t : ℝ) : Vec := ⟨cos lat * cos t, cos lat * sin t, sin lat⟩

/-- The horizontal direction north: the derivative of the zenith by latitude. -/
noncomputable def northV (lat t : ℝ) : Vec := ⟨-sin lat * cos t, -sin lat * sin t, cos lat⟩

/-- The horizontal direction east: that of the turning zenith. -/
noncomputable def eastV (t : ℝ) : Vec := ⟨-sin t, cos t, 0⟩

/-- The direction `v` (in equatorial coordinates) is seen at altitude `alt` and azimuth `az` (from north through east) at
latitude `lat` and sidereal time `t`. -/
def SeenAt (lat t : ℝ) (v : Vec) (alt az : ℝ) : Prop :=
  dot v (upV lat t) = sin alt ∧ dot v (northV lat t) = cos alt * cos az ∧ dot v (eastV t) = cos alt * sin az

end Verif
