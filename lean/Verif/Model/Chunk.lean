import Verif.Model.Detailers
import Mathlib.Data.List.Sort
import Mathlib.Data.Rat.Floor

/-!
Model of `ChunkByHADetailer` (`/repo/rubin_scheduler/scheduler/detailers/detailer.py` 195-314).

Rows of an index array are replaced by the visits themselves. `spatial` stands for
`order_observations` (tsp.py 26-57, see `Model/Tsp`): the positions of the visits given, in the order
of the route. `none` stands for an exception.
-/

namespace Verif.Chunk

open Verif.Det (Obs removeSub)

/-- Settings (204-209). -/
structure Cfg where
  altLimit : ℚ
  orig : List Char
  nMin : ℕ
  width : ℚ

/-- Hour angle between -12 and 12 (256-261), from the sidereal time and the right ascension, in hours. -/
def hourAngle (lmst ra : ℚ) : ℚ :=
  let h := (lmst - ra) - 24 * ⌊(lmst - ra) / 24⌋
  if 12 < h then h - 24 else h

/-- Largest element. -/
def maxOf : List ℚ → ℚ
  | [] => 0
  | x :: xs => xs.foldl max x

/-- Smallest element. -/
def minOf : List ℚ → ℚ
  | [] => 0
  | x :: xs => xs.foldl min x

/-- `_set_bins` (211-214). -/
def setBins (width : ℚ) (has : List ℚ) : ℤ := ⌈(maxOf has - minOf has) / width⌉

/-- Where the route of one band starts (240-246). -/
def start (ha : Obs → ℚ) (l : List Obs) : List Obs :=
  let setting := (l.map ha).filter (fun h => decide (0 < h) && decide (h < 12))
  let target := if setting = [] then maxOf (l.map ha) else maxOf setting
  l.rotate (l.findIdx (fun o => ha o == target))

/-- The visits of one band in their order (235-249). -/
def ofOne (spatial : List Obs → List ℕ) (ha : Obs → ℚ) (os : List Obs) (c : Char) : List Obs :=
  let inBand := os.filter (fun o => o.band == String.singleton c)
  if inBand = [] then [] else start ha ((spatial inBand).filterMap (fun i => inBand[i]?))

/-- `_band_spatial_order` with a given order of bands (227-252). Nothing to concatenate raises. -/
def bandSpatial (spatial : List Obs → List ℕ) (ha : Obs → ℚ) (order : List Char) (os : List Obs) : Option (List Obs) :=
  let r := order.flatMap (ofOne spatial ha os)
  if r = [] then none else some r

/-- The chunks (287-294): `k` slices of `n` visits, and the rest. -/
def slices (n : ℕ) : ℕ → List Obs → List (List Obs)
  | 0, os => [os]
  | k + 1, os => os.take n :: slices n k (os.drop n)

/-- The order with a band put first (298-299, 311-312). -/
def bandFirst (b : String) (order : List Char) : List Char := b.toList ++ removeSub b.toList order

/-- Ordering the chunks (300-313): the memory `order` and the visits. -/
def chunkLoop (cfg : Cfg) (spatial : List Obs → List ℕ) (ha : Obs → ℚ) : List Char → List (List Obs) → Option (List Char × List Obs)
  | order, [] => some (order, [])
  | order, c :: cs =>
    if c = [] then chunkLoop cfg spatial ha order cs
    else
      match bandSpatial spatial ha order c with
      | none => none
      | some r =>
        match r.getLast? with
        | none => none
        | some last =>
          (chunkLoop cfg spatial ha (bandFirst last.band cfg.orig) cs).map (fun p => (p.1, r ++ p.2))

/-- Above the limit, from west to east (263-279). Which of two equal hour angles is first is not
determined by the code (`np.argsort`); here their order in the list is kept. -/
def westToEast (cfg : Cfg) (alt ha : Obs → ℚ) (os : List Obs) : List Obs :=
  (os.filter (fun o => decide (cfg.altLimit < alt o))).insertionSort (fun a b => ha b ≤ ha a)

/-- Visits of the sorted list in chunks (283-294). -/
def chunksOf (nBins : ℤ) (os : List Obs) : List (List Obs) :=
  if 1 < nBins then slices ⌈(os.length : ℚ) / nBins⌉.toNat (nBins - 1).toNat os else [os]

/-- `__call__` (254-314): the new memory and the visits. The largest hour angle of no visits (213) raises. -/
def call (cfg : Cfg) (spatial : List Obs → List ℕ) (alt ha : Obs → ℚ) (cur : String) (order : List Char) (os : List Obs) :
    Option (List Char × List Obs) :=
  let sorted := westToEast cfg alt ha os
  if sorted = [] then none
  else
    let nBins := setBins cfg.width (sorted.map ha)
    if sorted.length ≤ cfg.nMin then some (order, sorted)
    else chunkLoop cfg spatial ha (bandFirst cur order) (chunksOf nBins sorted)

end Verif.Chunk
