import Verif.Model.Htm

/-!
Equality of trixels and half spaces (`/repo/rubin_scheduler/utils/htm_module.py` 78-89, 907-916).
-/

namespace Verif.Htm

open Sph

noncomputable section

/-- `np.allclose` for one number, with the tolerance asked for and the relative tolerance of numpy. -/
def close (atol a b : ℝ) : Prop := |a - b| ≤ atol + 1 / 100000 * |b|

/-- `np.allclose` for two vectors. -/
def closeV (atol : ℝ) (a b : Vec) : Prop := close atol a.x b.x ∧ close atol a.y b.y ∧ close atol a.z b.z

/-- `Trixel.__eq__` (htm_module.py 78-86). -/
def Trixel.eq (t o : Trixel) : Prop :=
  t.id = o.id ∧ t.level = o.level ∧ closeV (1 / 10 ^ 20) t.c0 o.c0 ∧ closeV (1 / 10 ^ 20) t.c1 o.c1 ∧ closeV (1 / 10 ^ 20) t.c2 o.c2

/-- `HalfSpace.__eq__` (htm_module.py 907-913). -/
def Half.eq (h o : Half) : Prop := ¬ |h.d - o.d| > 1 / 10 ^ 10 ∧ ¬ |dot h.v o.v - 1| > 1 / 10 ^ 10

end

end Verif.Htm
