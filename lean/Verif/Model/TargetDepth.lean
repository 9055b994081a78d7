import Verif.Model.Depth
import Mathlib.Data.Rat.Floor
import Mathlib.Algebra.Order.Floor.Ring
import Mathlib.Analysis.SpecialFunctions.Trigonometric.Basic

/-!
Model of `calc_target_m5s` (`/repo/rubin_scheduler/scheduler/detailers/vary_exptime.py` 12-54) for
one band. The sky is a list of pixels: declination and dark-sky brightness. Degrees and
magnitudes are rational; `none` is nan (the mean of an empty bin).
-/

namespace Verif.Tgt

/-- A pixel of the dark-sky map: declination (degrees) and brightness. -/
structure Pix where
  dec : ℚ
  sky : ℚ

/-- The altitude given to a pixel (vary_exptime.py 35-36). -/
def pixAlt (lat dec : ℚ) : ℚ := if lat - dec + 90 > 90 then lat - dec + 90 - 90 else lat - dec + 90

/-- Is an altitude in bin `i` of `np.arange(0, 95, 5)` (vary_exptime.py 37-38)? Bins are closed
below; the last one is closed above as well. -/
def inBin (i : ℕ) (a : ℚ) : Bool := decide (5 * (i : ℚ) ≤ a) && (decide (a < 5 * ((i : ℚ) + 1)) || (decide (i = 17) && decide (a ≤ 90)))

/-- The brightnesses that are averaged in bin `i` (vary_exptime.py 41-45). -/
def members (lat : ℚ) (pix : List Pix) (i : ℕ) : List ℚ :=
  ((pix.filter (fun p => decide (pixAlt lat p.dec > 0))).filter (fun p => inBin i (pixAlt lat p.dec))).map Pix.sky

/-- Their mean. -/
def mean (lat : ℚ) (pix : List Pix) (i : ℕ) : Option ℚ :=
  if (members lat pix i).length = 0 then none else some ((members lat pix i).sum / (members lat pix i).length)

/-- The middle of a bin (vary_exptime.py 39). -/
def mid (i : ℕ) : ℚ := (5 * (i : ℚ) + 5 * ((i : ℚ) + 1)) / 2

/-- A value on the line between two means (the linear part of `np.interp`). -/
def between (x : ℚ) (i : ℕ) : Option ℚ → Option ℚ → Option ℚ
  | some a, some b => some (a + (b - a) / 5 * (x - mid i))
  | _, _ => none

/-- `np.interp(alt, alts_mid, means)` (vary_exptime.py 46): constant beyond the ends. -/
def skyAt (lat : ℚ) (pix : List Pix) (alt : ℚ) : Option ℚ :=
  if alt ≤ mid 0 then mean lat pix 0
  else if mid 17 ≤ alt then mean lat pix 17
  else between alt ⌊(alt - 5 / 2) / 5⌋.toNat (mean lat pix ⌊(alt - 5 / 2) / 5⌋.toNat) (mean lat pix (⌊(alt - 5 / 2) / 5⌋.toNat + 1))

/-- The airmass (vary_exptime.py 48). -/
noncomputable def airmass (alt : ℚ) : ℝ := 1 / Real.cos (Real.pi / 2 - (alt : ℝ) * Real.pi / 180)

/-- The depth to aim for (vary_exptime.py 51-54); `m5_flat_sed` with its default of one exposure and
no clouds. -/
noncomputable def goal (b : Depth.Band) (lat : ℚ) (pix : List Pix) (alt : ℚ) (seeing exptime : ℝ) : Option ℝ :=
  (skyAt lat pix alt).map (fun s => Depth.m5 b (s : ℝ) seeing exptime (airmass alt) 1 0)

end Verif.Tgt
