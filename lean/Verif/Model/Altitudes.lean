import Mathlib.Data.Rat.Defs
import Mathlib.Algebra.Order.Ring.Rat
import Mathlib.Data.List.Basic

/-!
Model of the making of tables of nights, `/repo/rubin_scheduler/scheduler/model_observatory/generate_altitudes.py` (11-149).

The altitudes of the sun and the moon at the times of a grid (astropy) are inputs. The refinement of the times at the end (151-204, `scipy.optimize`) is
not modelled. Numbers are exact. `none` stands for an exception.
-/

namespace Verif.Alt

/-- `lin_interp` (11-16). -/
def linInterp (x x0 x1 y0 y1 : ℚ) : ℚ := y0 * (1 - (x - x0) / (x1 - x0)) + y1 * (x - x0) / (x1 - x0)

/-- `np.roll(a, -1)[i]`. -/
def rollNext (a : List ℚ) (i : ℕ) : Option ℚ := if i + 1 < a.length then a[i + 1]? else a[0]?

/-- Whether the altitude passes the goal after sample `i` (22, 25). -/
def passes (alts : List ℚ) (goal : ℚ) (rising : Bool) (i : ℕ) : Bool :=
  match alts[i]?, rollNext alts i with
  | some a, some b => if rising then decide (a < goal) && decide (goal < b) else decide (goal < a) && decide (b < goal)
  | _, _ => false

/-- The samples before a passage (22, 25). -/
def before (alts : List ℚ) (goal : ℚ) (rising : Bool) : List ℕ := (List.range alts.length).filter (passes alts goal rising)

/-- The check for the last sample (28-30): compared are the greatest index and the number of passages. `first` are the samples before. -/
def dropLast? (first : List ℕ) : Option (List ℕ) :=
  match first.max? with
  | none => none
  | some m => some (if first.length ≤ m ∨ first.length ≤ m + 1 then first.dropLast else first)

/-- The time of one passage (32). -/
def passTime (times alts : List ℚ) (goal : ℚ) (rising : Bool) (i : ℕ) : Option ℚ :=
  match alts[i]?, alts[i + 1]?, times[i]?, times[i + 1]? with
  | some a, some b, some t, some u => some (if rising then linInterp goal b a u t else linInterp goal a b t u)
  | _, _, _, _ => none

/-- `alt_passing_interp` (19-33). -/
def passing (times alts : List ℚ) (goal : ℚ) (rising : Bool) : Option (List ℚ) :=
  (dropLast? (before alts goal rising)).bind fun is => is.mapM (passTime times alts goal rising)

/-- `np.searchsorted(a, x, side="left")` for sorted `a`. -/
def searchLeft (a : List ℚ) (x : ℚ) : ℕ := (a.takeWhile (fun b => decide (b < x))).length

/-- One event written to its night (112-114): not to the first one. -/
def place (sunsets : List ℚ) (col : List ℚ) (e : ℚ) : List ℚ :=
  if 1 < searchLeft sunsets e then col.set (searchLeft sunsets e - 1) e else col

/-- A column of the table (110-145), at first all zero (102). -/
def column (sunsets events : List ℚ) : List ℚ := events.foldl (place sunsets) (List.replicate sunsets.length 0)

/-- The numbers of the nights (105-107). -/
def nightNumbers (sunsets : List ℚ) (start : ℚ) : Option (List ℤ) :=
  if searchLeft sunsets start < sunsets.length then some ((List.range sunsets.length).map fun i : ℕ => (i : ℤ) + (1 - (searchLeft sunsets start : ℤ))) else none

/-- The rows that are kept (148-149). -/
def kept (nights : List ℤ) : List ℕ := ((List.range nights.length).filter (fun i => decide (0 < nights.getD i 0))).dropLast

/-- A row: night, sunset, and one event. -/
structure Row where
  night : ℤ
  sunset : ℚ
  event : ℚ
deriving DecidableEq

/-- The table with one column of events (102-149). -/
def table (sunsets events : List ℚ) (start : ℚ) : Option (List Row) :=
  (nightNumbers sunsets start).map fun ns =>
    (kept ns).map fun i => ⟨ns.getD i 0, sunsets.getD i 0, (column sunsets events).getD i 0⟩

end Verif.Alt
