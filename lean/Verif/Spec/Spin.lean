import Verif.Spec.Sphere

/-!
Specification for turns of the sphere: the volume with sign of three directions, positive when they are right-handed. A map of directions that keeps
all products of two and this of three is a rotation.
-/

namespace Verif

open Sph

/-- The volume of three directions, with sign. -/
noncomputable def volume3 (a b c : Vec) : ℝ :=
  a.x * (b.y * c.z - b.z * c.y) + a.y * (b.z * c.x - b.x * c.z) + a.z * (b.x * c.y - b.y * c.x)

end Verif
