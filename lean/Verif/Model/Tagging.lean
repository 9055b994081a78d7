import Mathlib.Data.List.Dedup
import Mathlib.Data.Rat.Defs
import Mathlib.Algebra.Order.Ring.Rat

/-!
Model of the detailers that label visits (`/repo/rubin_scheduler/scheduler/detailers/detailer.py` 1048-1230): `LabelRegionDetailer`, `LabelDDFDetailer` and
both together, with the usual separator.

Texts are lists of characters. Which pixels a visit covers and how far it is from a field are given. A Python set has no order: the order in which its members are joined
is an arbitrary function of them.
-/

namespace Verif.Tag

abbrev Str := List Char

/-- `text.split(", ")`. -/
def split : Str → List Str
  | [] => [[]]
  | ',' :: ' ' :: cs => [] :: split cs
  | c :: cs =>
    match split cs with
    | [] => [[c]]
    | x :: xs => (c :: x) :: xs

/-- `", ".join(values)`. -/
def join : List Str → Str
  | [] => []
  | [x] => x
  | x :: xs => x ++ ',' :: ' ' :: join xs

/-- Columns have 60 characters (observation_array.py 149). -/
def cut (s : Str) : Str := s.take 60

/-- Values that are never kept (1083, 1150). -/
def drop : List Str := ["".toList, "None".toList]

/-- The labels of a visit over pixels with these labels (1093-1100). -/
def regionLabels (labels : List Str) : List Str :=
  let l := (labels.filter fun x => !decide (x = [])).dedup
  if l.length = 0 then ["OOF".toList] else l

/-- The members of the new set (1102-1106, 1165-1169). -/
def values (append : Bool) (prev : Str) (new : List Str) : List Str :=
  ((if append then split prev ++ new else new).filter fun x => !decide (x ∈ drop)).dedup

/-- The new text of the column (1107, 1170). -/
def retag (order : List Str → List Str) (append : Bool) (prev : Str) (new : List Str) : Str := cut (join (order (values append prev new)))

/-- `LabelRegionDetailer.__call__` (1090-1108) for one visit: `pix` are the pixels it covers, `label` those of the map. -/
def labelRegion (order : List Str → List Str) (append : Bool) (label : ℕ → Str) (pix : List ℕ) (prev : Str) : Str :=
  retag order append prev (regionLabels (pix.map label))

/-- `LabelDDFDetailer.__init__` (1142-1148): with a table of one's own the function of the same name is used, and looping over it raises. -/
def ddfTable {α : Type} (default : List (Str × α)) : Option (List (Str × α)) → Option (List (Str × α))
  | none => some default
  | some _ => none

/-- `"ddf_" + name.lower()` (1162). -/
def ddfLabel (name : Str) : Str := "ddf_".toList ++ name.map Char.toLower

/-- `LabelDDFDetailer.__call__` (1152-1171) for one visit: `dist` is its distance from a field. -/
def labelDDF (order : List Str → List Str) (append : Bool) (radius : ℚ) : List (Str × ℚ) → Str → Str
  | [], prev => prev
  | (name, dist) :: fs, prev =>
    labelDDF order append radius fs (if dist ≤ radius then retag order append prev [ddfLabel name] else prev)

/-- `LabelRegionsAndDDFs.__call__` (1226-1230). -/
def labelBoth (order : List Str → List Str) (label : ℕ → Str) (pix : List ℕ) (radius : ℚ) (fs : List (Str × ℚ)) (prev : Str) : Str :=
  labelDDF order true radius fs (labelRegion order true label pix prev)

end Verif.Tag
