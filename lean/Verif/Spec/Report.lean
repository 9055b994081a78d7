import Verif.Props.Reward

/-!
Specification for tables of rewards: what the greatest reward and the area of a reward are over the pixels of a survey.
-/

namespace Verif

open Rew

/-- A reward that is neither masked nor minus infinity. -/
def isOpen (x : XReal) : Bool := !decide (x = .nan) && !decide (x = .ninf)

/-- The number of pixels of the survey where a value is open. -/
def openCount (roi : List Bool) (v : Val) : ℕ := (List.range roi.length).countP fun i => roi.getD i false && isOpen (valueAt i v)

/-- `m` is the greatest reward over the pixels of the survey, minus infinity when all are masked, and `a` is the area that is not masked. -/
def Summary (roi : List Bool) (pix : ℚ) (v : Val) (m : XReal) (a : ℚ) : Prop :=
  a = pix * openCount roi v ∧ (openCount roi v = 0 → m = .ninf) ∧
    (0 < openCount roi v → isOpen m = true ∧ (∃ i : ℕ, roi[i]? = some true ∧ valueAt i v = m) ∧
      ∀ i : ℕ, roi[i]? = some true → valueAt i v = .nan ∨ XReal.leB (valueAt i v) m = true)

end Verif
