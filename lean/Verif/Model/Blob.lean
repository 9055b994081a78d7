import Verif.Model.Reward
import Mathlib.Data.List.Sort

/-!
Model of how a map of rewards becomes a list of fields: `hp_grow_argsort`
(`/repo/rubin_scheduler/utils/healpy_utils.py` 312-387), `int_binned_stat`
(`scheduler/utils/utils.py` 349-367), `GreedySurvey.generate_observations_rough` (`surveys.py`
81-107), `BlobSurvey.simple_order_sort` and `generate_observations_rough` (442-544).

The neighbours of a pixel are a function `nb`: the entries of `hp.get_all_neighbours` that are
not -1, in the order of its columns.  The field a pixel belongs to is a function `field`
(`hp2fields`).  The order of visits within a block is left to the travelling-salesman model
(`Model/Tsp`).  `none` stands for a Python exception.
-/

namespace Verif.Blob

open XReal Rew

/-! ### Growing a region -/

/-- `neighbors[ordered_hp[0:i]][valid_neighbors_mask[ordered_hp[0:i]]]` (healpy_utils.py 372):
for each selected pixel its neighbours whose mask entry is still set.  The entry of `p` in the
row of `q` is cleared when `p` is selected and `q` is in the row of `p` (366-369, 383-385).
(A -1 in a row also clears entries of the last pixel, 383-385; with neighbours that are
mutual these are entries cleared anyway.) -/
def frontier (nb : ℕ → List ℕ) (sel : List ℕ) : List ℕ :=
  sel.flatMap (fun q => (nb q).filter (fun p => !(sel.contains p && (nb p).contains q)))

/-- The value of a pixel; nan outside the map. -/
def at' (m : List XReal) (i : ℕ) : XReal := m.getD i .nan

/-- The first of the candidates with the largest value (healpy_utils.py 373-380); `none` when
all are nan. -/
def pick (m : List XReal) (cand : List ℕ) : Option ℕ :=
  match nanmax (cand.map (at' m)) with
  | none => none
  | some v => cand.find? (fun p => eqB (at' m p) v)

/-- The loop of healpy_utils.py 371-387 with the selected pixels in order. Without any
candidate `np.nanmax` raises. -/
def growLoop (nb : ℕ → List ℕ) (m : List XReal) : ℕ → List ℕ → Option (List ℕ)
  | 0, sel => some sel
  | k + 1, sel =>
    if (frontier nb sel).isEmpty then none
    else
      match pick m (frontier nb sel) with
      | none => some sel
      | some p => growLoop nb m k (sel ++ [p])

/-- `hp_grow_argsort` with `ignore_nan=True` (healpy_utils.py 312-387). A map of nan raises. -/
def grow (nb : ℕ → List ℕ) (m : List XReal) : Option (List ℕ) :=
  match peak m with
  | none => none
  | some p => growLoop nb m (m.countP (fun x => !x.isNan) - 1) [p]

/-! ### Choosing fields -/

/-- The order of `np.argsort` on floats: nan last. -/
def sortLe (x y : XReal) : Bool := y.isNan || leB x y

/-- `np.argsort(v, kind="mergesort")[::-1]` for the values `v i` of the ids `ids`: a stable
sort turned round (surveys.py 88, 462). -/
def descending (v : ℕ → XReal) (ids : List ℕ) : List ℕ :=
  (ids.insertionSort (fun i j => sortLe (v i) (v j) = true)).reverse

/-- The unique values in ascending order (`np.unique`). -/
def unique (l : List ℕ) : List ℕ := (l.dedup).insertionSort (· ≤ ·)

/-- The best `n` finite pixels of a map (surveys.py 88-92). -/
def bestPixels (m : List XReal) (n : ℕ) : List ℕ :=
  ((descending (at' m) (List.range m.length)).filter (fun i => (at' m i).isFinite)).take n

/-- Fields chosen by `GreedySurvey` (surveys.py 88-93). -/
def greedy (field : ℕ → ℕ) (m : List XReal) (block : ℕ) : List ℕ := unique ((bestPixels m block).map field)

/-- Pixels with a finite reward (surveys.py 447). -/
def finitePixels (m : List XReal) : List ℕ := (List.range m.length).filter (fun i => (at' m i).isFinite)

/-- `int_binned_stat(..., statistic=np.nanmax)` for one field (utils.py 349-367, surveys.py
454-456). -/
def fieldReward (field : ℕ → ℕ) (m : List XReal) (f : ℕ) : XReal :=
  (nanmax (((finitePixels m).filter (fun i => field i == f)).map (at' m))).getD .nan

/-- `simple_order_sort` (surveys.py 442-464). The check for finite field rewards (458-460)
changes nothing as the pixels are finite. -/
def simpleSort (field : ℕ → ℕ) (m : List XReal) (n : ℕ) : List ℕ :=
  (descending (fieldReward field m) (unique ((finitePixels m).map field))).take n

/-- The list without repeats, first occurrences in order (`np.unique(return_index=True)` and
the sort of the indices, surveys.py 495-501). -/
def firsts (l : List ℕ) : List ℕ := l.foldl (fun acc x => if x ∈ acc then acc else acc ++ [x]) []

/-- `best_fields` of one pass (surveys.py 492-508). -/
def blobFields (nb : ℕ → List ℕ) (field : ℕ → ℕ) (growBlob : Bool) (m : List XReal) (n : ℕ) : Option (List ℕ) :=
  if growBlob then
    match grow nb m with
    | none => none
    | some hp =>
      some (if (firsts (hp.map field)).length < n then simpleSort field m n else (firsts (hp.map field)).take n)
  else some (simpleSort field m n)

/-- `self.reward[np.where(distances > self.max_radius_peak)] = np.nan` (surveys.py 473-478). -/
def maskFar (a : Area) (m : List XReal) : Option (List XReal) :=
  (peak m).map (fun p => (List.range m.length).map (fun i => if a.radius < a.sep i p then .nan else at' m i))

/-- The band of a pass (surveys.py 480-486): the second band from the second pass on (the
warning for a third pass names the first band, but the band is not set back). -/
def passBand (b1 b2 : String) (i : ℕ) : String := if i = 0 then b1 else b2

/-- The map a pass works on (surveys.py 478, 488-490): before each later pass the reward is
computed again, which drops the mask of pixels far from the maximum. -/
def passMap (a : Area) (m : List XReal) (i : ℕ) : Option (List XReal) := if i = 0 then maskFar a m else some m

/-- The fields of pass `i`; `field i` is the map from pixels to fields after the tessellation
was turned for that pass. -/
def passFields (nb : ℕ → List ℕ) (a : Area) (field : ℕ → ℕ → ℕ) (growBlob : Bool) (n : ℕ) (m : List XReal) (i : ℕ) :
    Option (List ℕ) :=
  match passMap a m i with
  | none => none
  | some m' => blobFields nb (field i) growBlob m' n

/-- The passes over the blob (surveys.py 482-538): `count` passes from pass `i` on. The inner
`none` is the early `return []` (510-512). -/
def passesFrom (nb : ℕ → List ℕ) (a : Area) (field : ℕ → ℕ → ℕ) (growBlob : Bool) (n : ℕ) (m : List XReal)
    (b1 b2 : String) : ℕ → ℕ → Option (Option (List (String × List ℕ)))
  | 0, _ => some (some [])
  | count + 1, i =>
    match passFields nb a field growBlob n m i with
    | none => none
    | some [] => some none
    | some (f :: fs) =>
      match passesFrom nb a field growBlob n m b1 b2 count (i + 1) with
      | none => none
      | some none => some none
      | some (some rest) => some (some ((passBand b1 b2 i, f :: fs) :: rest))

/-- `BlobSurvey.generate_observations_rough` (surveys.py 466-544): bands and fields of the
passes. -/
def generate (nb : ℕ → List ℕ) (a : Area) (field : ℕ → ℕ → ℕ) (growBlob : Bool) (n : ℕ) (m : List XReal)
    (b1 b2 : String) (visits : ℕ) : Option (List (String × List ℕ)) :=
  (passesFrom nb a field growBlob n m b1 b2 visits 0).map (fun r => r.getD [])

end Verif.Blob
