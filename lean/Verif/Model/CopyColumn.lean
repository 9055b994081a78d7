import Mathlib.Data.List.Basic

/-!
Model of `CopyValueDetailer` and `FixedSkyAngleDetailer` (`/repo/rubin_scheduler/scheduler/detailers/detailer.py` 1233-1251, 815-832).

A row is a value for each name of a column. A value stored into a column is converted to the type of the column (`cast`): numbers to integers are cut off, strings are shortened. Conversions
that raise are left out.
-/

namespace Verif.Cpy

variable {V : Type}

/-- A row of an array of visits. -/
abbrev Row (V : Type) := String → V

/-- All rows get a value in a column, converted to its type; a column that is not there raises. -/
def store (cast : String → V → V) (cols : List String) (dst : String) (value : Row V → V) (rows : List (Row V)) : Option (List (Row V)) :=
  if dst ∈ cols then some (rows.map fun r k => if k = dst then cast dst (value r) else r k) else none

/-- `CopyValueDetailer.__call__` (detailer.py 1249-1251). -/
def copy (cast : String → V → V) (cols : List String) (src dst : String) (rows : List (Row V)) : Option (List (Row V)) :=
  if src ∈ cols then store cast cols dst (fun r => r src) rows else none

/-- `FixedSkyAngleDetailer.__call__` (detailer.py 829-832); `angle` is in radians (827). -/
def fixAngle (cast : String → V → V) (cols : List String) (angle : V) (rows : List (Row V)) : Option (List (Row V)) :=
  store cast cols "rotSkyPos" (fun _ => angle) rows

end Verif.Cpy
