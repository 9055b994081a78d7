import Verif.Model.Download

/-! What a data directory should be. -/

namespace Verif.Dl

/-- The directory of the key is exactly what unpacking the archive into nothing gives. -/
def Complete (A : Archive) (d : Disk) (key name : String) : Prop := d.dirs key = some (unpacked none (A.members name))

/-- The directory of the key is recorded to be of this version. -/
def Marked (d : Disk) (key name : String) : Prop := ∃ vs, versions d = some vs ∧ get key vs = some name

/-- What is recorded as current is complete. -/
def Sound (A : Archive) (fd : String → Option String) (d : Disk) : Prop :=
  ∀ key name, fd key = some name → Marked d key name → Complete A d key name

/-- A run without `force`. -/
structure Run where
  keys : List String
  update : Bool
  net : String → Net

/-- The disk after runs without `force`, each stopped after any step or finished. -/
inductive Interrupted (A : Archive) (fd : String → Option String) : Disk → Disk → Prop where
  | refl (d : Disk) : Interrupted A fd d d
  | crash {d d1 d2 : Disk} (r : Run) (h : Interrupted A fd d d1) (hc : d2 ∈ (download A fd r.keys r.update false r.net d1).1) : Interrupted A fd d d2
  | finish {d d1 d2 : Disk} (r : Run) (h : Interrupted A fd d d1) (hc : (download A fd r.keys r.update false r.net d1).2 = some d2) :
      Interrupted A fd d d2

end Verif.Dl
