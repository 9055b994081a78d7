import Mathlib.Data.List.Sort
import Mathlib.Data.List.Dedup
import Mathlib.Analysis.SpecialFunctions.Log.Base

/-!
Model of statistics by bins: `int_binned_stat` (`/repo/rubin_scheduler/utils/binned_stats.py` 6-37, the same as in
`/repo/rubin_scheduler/scheduler/utils/utils.py` 349-367), and `_healbin` and `moc2array` of `/repo/rubin_scheduler/utils/healpy_utils.py` (147-197, 240-309).

The order that `np.argsort` gives is an input, as equal values may come in any order; the pixels of positions (`_ra_dec2_hpid`, `_hpid2_ra_dec`) are inputs.
`none` stands for an exception, and as a value for `nan`.
-/

namespace Verif.Bins

/-- `np.unique`. -/
def unique (ids : List ℕ) : List ℕ := ids.dedup.insertionSort (· ≤ ·)

/-- `np.searchsorted(a, x)` for sorted `a`. -/
def left (a : List ℕ) (x : ℕ) : ℕ := (a.takeWhile (fun b => decide (b < x))).length

/-- `np.searchsorted(a, x, side="right")` for sorted `a`. -/
def right (a : List ℕ) (x : ℕ) : ℕ := (a.takeWhile (fun b => decide (b ≤ x))).length

/-- `a[order]`. -/
def pick {V : Type} (a : List V) (order : List ℕ) : Option (List V) := order.mapM (fun i => a[i]?)

/-- `int_binned_stat` (binned_stats.py 24-37). -/
def binned {V R : Type} (ids : List ℕ) (values : List V) (order : List ℕ) (stat : List V → R) : Option (List (ℕ × R)) :=
  match pick ids order, pick values order with
  | some oi, some ov => some ((unique ids).map fun u => (u, stat ((ov.take (right oi u)).drop (left oi u))))
  | _, _ => none

/-- Writing to an array (191-192). -/
def put {V : Type} (m : List V) (x : ℕ × V) : List V := m.set x.1 x.2

/-- `nan` becomes the value for filling (195). -/
def fillNan {V : Type} (fill : Option V) (v : Option V) : Option V := if v.isNone then fill else v

/-- `_healbin` (147-197): `ids` are the pixels of the positions and `npix` is the number of pixels. -/
def healbin {V : Type} (npix : ℕ) (ids : List ℕ) (values : List V) (order : List ℕ) (reduce : List V → Option V) (fill : Option V) : Option (List (Option V)) :=
  (binned ids values order reduce).map fun rows => (rows.foldl put (List.replicate npix fill)).map (fillNan fill)

noncomputable section

open Real

/-- The order in a NUNIQ number (277). -/
def mocOrder (uniq : ℕ) : ℕ := ⌊Real.logb 2 ((uniq : ℝ) / 4) / 2⌋.toNat

/-- The pixel in a NUNIQ number (278). -/
def mocPix (uniq : ℕ) : ℕ := uniq - 4 * 4 ^ mocOrder uniq

/-- `hp.nside2pixarea` of the nside of an order. -/
def area (order : ℕ) : ℝ := 4 * π / (12 * 4 ^ order)

/-- The values that are binned (291-294). -/
def toBin (density : Bool) (data : List ℝ) (uniq : List ℕ) : List ℝ :=
  if density then List.zipWith (fun d u => d * area (mocOrder u)) data uniq else data

open Classical in
/-- A value divided by the area of a pixel unless it is that for filling (305-307). -/
def unBin (density : Bool) (out : ℕ) (fill : Option ℝ) (v : Option ℝ) : Option ℝ :=
  if density then if fill.isSome ∧ v = fill then v else v.map (· / area out) else v

/-- `moc2array` (240-309): `pixAt o p` is the pixel of the map returned in which pixel `p` of order `o` has its centre, and `out` is the order of that map. -/
def moc (out : ℕ) (pixAt : ℕ → ℕ → ℕ) (data : List ℝ) (uniq : List ℕ) (order : List ℕ) (reduce : List ℝ → Option ℝ) (density : Bool) (fill : Option ℝ) :
    Option (List (Option ℝ)) :=
  (healbin (12 * 4 ^ out) (uniq.map fun u => pixAt (mocOrder u) (mocPix u)) (toBin density data uniq) order reduce fill).map
    (fun m => m.map (unBin density out fill))

/-- `np.sum`. -/
def sumOf (l : List ℝ) : Option ℝ := some l.sum

end

end Verif.Bins
