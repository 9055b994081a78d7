import Verif.Model.Features

/-!
Words used in the statements about features.
-/

namespace Verif.Feat

/-- Visits in the order in which they were taken. -/
def Chrono (h : List Vis) : Prop := h.Pairwise (fun a b => a.mjd ≤ b.mjd ∧ a.night ≤ b.night)

/-- A band name is one letter. -/
def OneLetter (s : String) : Prop := ∃ c : Char, s.toList = [c]

/-- All band names in use are single letters. -/
def Letters (band : Option String) (h : List Vis) : Prop := (∀ b ∈ band, OneLetter b) ∧ ∀ v ∈ h, OneLetter v.band

/-- A visit does not cover a pixel twice. -/
def Footprints (h : List Vis) : Prop := ∀ v ∈ h, v.pix.Nodup

/-- `x` is further from the limit `g` than the comparison tolerance. -/
def Clear (g x : ℚ) : Prop := Tol.default.limit * |g| < |x - g|

/-- The visit is in the wanted band (any, if none is given). -/
def InBand (band : Option String) (v : Vis) : Prop := ∀ b ∈ band, v.band = b

instance (band : Option String) (v : Vis) : Decidable (InBand band v) := by unfold InBand; infer_instance

end Verif.Feat
