import Verif.Model.IntRounded
import Verif.Model.Angles

/-!
Model of the altitude and azimuth mask projected into the future:
`Conditions.alt_az_shadow_mask` (`/repo/rubin_scheduler/scheduler/features/conditions.py`
584-730), the padding of a mask `_hp_grow_mask`
(`/repo/rubin_scheduler/utils/healpy_utils.py` 397-450) and the basis functions on top of
them (`/repo/rubin_scheduler/scheduler/basis_functions/mask_basis_funcs.py` 396-517).

Angles are rationals in one unit; `T` is the full turn.  Arrays over the pixels of the sky
are functions of the pixel number below `n`.  A mask is a list of booleans, `true` where
the array of the code is nan and `false` where it is 0.  The positions of the pixels now and
at later times (`_approx_ra_dec2_alt_az`) are inputs.
-/

namespace Verif.Shadow

open Verif.Ang

/-- Altitude and azimuth of all pixels at one moment. -/
structure Sky where
  alt : ℕ → ℚ
  az : ℕ → ℚ

/-- The limits: those of the survey (the arguments of the method), the ranges of sky open to
the scheduler (`sky_alt_limits`, `sky_az_limits`; `None` is written as the empty list, which
the code treats alike) and those of the telescope. -/
structure Lims where
  alt : ℚ × ℚ
  az : ℚ × ℚ
  skyAlt : List (ℚ × ℚ)
  skyAz : List (ℚ × ℚ)
  telAlt : Option (ℚ × ℚ)
  telAz : Option (ℚ × ℚ)

/-- The times after now at which the sky is looked at (conditions.py 632-644).  `step` is not
zero; the `AttributeError` of line 635 does not arise with numbers. -/
def times (shadow step : ℚ) : List ℚ :=
  let n := ⌊shadow / step⌋
  if 0 < n then
    let ts := (List.range n.toNat).map (fun k : ℕ => (k : ℚ) * step)
    if ts.contains shadow then ts else ts ++ [shadow]
  else [shadow]

/-- `mask or mask` for each pixel: setting further pixels to nan (or further flags to 0). -/
def both (a b : List Bool) : List Bool := List.zipWith (fun x y => x || y) a b

/-- Pixels below or above altitude limits, with the tolerant comparison of arrays
(conditions.py 656-657 and alike). -/
def altOff (n : ℕ) (lim : ℚ × ℚ) (alt : ℕ → ℚ) : List Bool :=
  both (ltA Tol.default (((List.range n).map alt).map (fun x => (x, lim.1))))
    (gtA Tol.default (((List.range n).map alt).map (fun x => (x, lim.2))))

/-- The same now and at the later time (conditions.py 656-659, 670-673, 685-688). -/
def altBad (n : ℕ) (lim : ℚ × ℚ) (now later : Sky) : List Bool :=
  both (altOff n lim now.alt) (altOff n lim later.alt)

/-- Pixels outside azimuth limits; limits a full turn or more apart are none
(conditions.py 693-696 and alike). -/
def azOff (T : ℚ) (n : ℕ) (lim : ℚ × ℚ) (az : ℕ → ℚ) : List Bool :=
  (List.range n).map (fun i =>
    decide (|lim.2 - lim.1| < T) && decide (md T (lim.2 - lim.1) < md T (az i - lim.1)))

/-- The same now and at the later time (conditions.py 693-698, 706-711, 716-721). -/
def azBad (T : ℚ) (n : ℕ) (lim : ℚ × ℚ) (now later : Sky) : List Bool :=
  both (azOff T n lim now.az) (azOff T n lim later.az)

/-- Pixels outside every one of the ranges, each tested by `bad`; nothing if there are no
ranges (conditions.py 662-675 and 700-713). -/
def noRange (n : ℕ) (bad : ℚ × ℚ → List Bool) : List (ℚ × ℚ) → List Bool
  | [] => List.replicate n false
  | r :: rs => rs.foldl (fun acc l => List.zipWith (fun x y => x && y) acc (bad l)) (bad r)

/-- Limits that may be absent (conditions.py 682, 715). -/
def ifSet (n : ℕ) (bad : ℚ × ℚ → List Bool) : Option (ℚ × ℚ) → List Bool
  | none => List.replicate n false
  | some l => bad l

/-- The survey's azimuth limits after the loop over the open azimuth ranges: the loop uses the
same variables `min_az`, `max_az` (conditions.py 702-705), which then hold the last range. -/
def azAfter (az : ℚ × ℚ) (skyAz : List (ℚ × ℚ)) : ℚ × ℚ := skyAz.getLast?.getD az

/-- One pass of the loop over times (conditions.py 646-721): the mask so far and the current
values of `min_az`, `max_az`.  (`min_alt`, `max_alt` are reassigned too, but only
`r_min_alt`, `r_max_alt` are used for the survey's altitude limits.) -/
def pass (T : ℚ) (n : ℕ) (L : Lims) (now : Sky) (s : List Bool × (ℚ × ℚ)) (later : Sky) : List Bool × (ℚ × ℚ) :=
  (both (both (both (both (both (both s.1
      (altBad n L.alt now later))
      (noRange n (fun l => altBad n l now later) L.skyAlt))
      (ifSet n (fun l => altBad n l now later) L.telAlt))
      (azBad T n s.2 now later))
      (noRange n (fun l => azBad T n l now later) L.skyAz))
      (ifSet n (fun l => azBad T n l now later) L.telAz),
    azAfter s.2 L.skyAz)

/-- The mask before padding (conditions.py 628-721): `later t` is the sky `t` after now. -/
def mask (T : ℚ) (n : ℕ) (L : Lims) (now : Sky) (later : ℚ → Sky) (shadow step : ℚ) : List Bool :=
  ((times shadow step).foldl (fun s t => pass T n L now s (later t)) (List.replicate n false, L.az)).1

/-- The masked pixels (conditions.py 726). -/
def masked (m : List Bool) : List ℕ := (List.range m.length).filter (fun i => m.getD i false)

/-- `_hp_grow_mask` (healpy_utils.py 397-450): all pixels with a masked pixel close by, where
`close i j` is the search of the tree of pixel centres (433-446).  With nothing masked the
concatenation of no lists (448) raises. -/
def grow (n : ℕ) (close : ℕ → ℕ → Bool) (hidden : List ℕ) : Option (List ℕ) :=
  if hidden.isEmpty then none
  else some ((List.range n).filter (fun j => hidden.any (fun i => close i j)))

/-- Setting the pixels of a list to nan (conditions.py 728). -/
def hide (m : List Bool) (js : List ℕ) : List Bool :=
  (List.range m.length).map (fun i => m.getD i false || js.contains i)

/-- The end of the method (conditions.py 725-730). -/
def padded (n : ℕ) (close : ℕ → ℕ → Bool) (pad : ℚ) (m : List Bool) : Option (List Bool) :=
  if 0 < pad then (grow n close (masked m)).map (hide m) else some m

/-- `Conditions.alt_az_shadow_mask` without its cache (conditions.py 587-730). -/
def shadowMask (T : ℚ) (n : ℕ) (close : ℕ → ℕ → Bool) (pad : ℚ) (L : Lims) (now : Sky) (later : ℚ → Sky)
    (shadow step : ℚ) : Option (List Bool) :=
  padded n close pad (mask T n L now later shadow step)

/-- `AltAzShadowTimeLimitedBasisFunction._calc_value` (mask_basis_funcs.py 508-517): the mask when
the nearest of the given times (sunrise, sunset) is less than `near` away, else no mask (`none`
here stands for the scalar 0 returned).  `np.min` of no times raises (outer `none`). -/
def timeLimited {α : Type} (near mjd : ℚ) (events : List ℚ) (m : α) : Option (Option α) :=
  match events.map (fun e => |mjd - e|) with
  | [] => none
  | d :: ds => some (if ds.foldl min d < near then some m else none)

/-- `functools.lru_cache` around the method (conditions.py 586): the answers so far by
arguments; the limits held by the conditions are not among the arguments.  Dropping old
entries is not modelled. -/
def cached {κ α : Type} [DecidableEq κ] (store : List (κ × α)) (key : κ) (fresh : α) : List (κ × α) × α :=
  match store.find? (fun e => decide (e.1 = key)) with
  | some e => (store, e.2)
  | none => ((key, fresh) :: store, fresh)

end Verif.Shadow
