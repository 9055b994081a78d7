import Mathlib.Data.List.Sort
import Mathlib.Order.Lattice

/-!
The map from names of spectra to files (`/repo/rubin_scheduler/utils/file_maps.py` 7-87).

Simplifications. Strings are lists of characters; what counts as white space and which strings a regular expression matches (`re.match`) are parameters.
Dictionaries are lists of pairs with different keys. That a map shares the dictionaries it was given with its caller is not modelled.
-/

namespace Verif.Spm

abbrev Str := List Char

/-- White space, and whether a pattern matches the beginning of a name. -/
structure Lang where
  ws : Char → Bool
  re : Str → Str → Bool

/-- `str.strip`. -/
def strip (L : Lang) (s : Str) : Str := ((s.dropWhile L.ws).reverse.dropWhile L.ws).reverse

/-- The two dictionaries of a map (file_maps.py 44-52). -/
structure Map where
  files : List (Str × Str)
  dirs : List (Str × Str)

/-- `d[k] = v`. -/
def put (k v : Str) : List (Str × Str) → List (Str × Str)
  | [] => [(k, v)]
  | (k', v') :: r => if k' = k then (k, v) :: r else (k', v') :: put k v r

/-- `d[k]`, none for a key that is not there. -/
def get (k : Str) (d : List (Str × Str)) : Option Str := (d.find? fun p => decide (p.1 = k)).map Prod.snd

/-- `__setitem__` (file_maps.py 54-55). -/
def Map.set (m : Map) (k v : Str) : Map := { m with files := put k v m.files }

/-- The order of patterns in `sorted(d.items())`: by code points, the keys being different. -/
abbrev before (a b : Str × Str) : Prop := a.1 ≤ b.1

/-- `sorted(d.items())` (file_maps.py 63, 68). -/
def sorted (d : List (Str × Str)) : List (Str × Str) := d.insertionSort before

/-- The suffix of compressed files. -/
def gz : Str := ['.', 'g', 'z']

/-- The name of the file (file_maps.py 65, 70). -/
def full (s : Str) : Str := if gz <:+ s then s else s ++ gz

/-- `os.path.join` of two parts. -/
def join (a b : Str) : Str :=
  if b.head? = some '/' then b
  else if a = [] ∨ a.getLast? = some '/' then a ++ b
  else a ++ '/' :: b

/-- One of the two loops over patterns (file_maps.py 63-66, 68-71). -/
def search (L : Lang) (d : List (Str × Str)) (item : Str) : Option Str :=
  ((sorted d).find? fun p => L.re p.1 item).map fun p => join p.2 (full item)

/-- `__getitem__` (file_maps.py 57-73) with the patterns of the class (file_maps.py 8-14); none for KeyError. -/
def Map.lookup (L : Lang) (subdirs : List (Str × Str)) (m : Map) (item : Str) : Option Str :=
  match get (strip L item) m.files with
  | some p => some p
  | none => match search L m.dirs (strip L item) with
    | some p => some p
    | none => search L subdirs (strip L item)

/-- `__contains__` (file_maps.py 75-87). -/
def Map.contains (L : Lang) (subdirs : List (Str × Str)) (m : Map) (item : Str) : Bool := (m.lookup L subdirs item).isSome

end Verif.Spm
