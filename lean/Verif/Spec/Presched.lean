import Verif.Model.Presched

/-!
Specification for the choice of times for deep drilling sequences.
-/

namespace Verif

open Pre

/-- The number wanted, rounded, is greater at cell `i` than at the cell before. -/
def RiseAt (d : List (Option ℚ)) (i : ℕ) : Prop :=
  ∃ x y, 1 ≤ i ∧ d[i - 1]? = some (some x) ∧ d[i]? = some (some y) ∧ roundHalfEven x < roundHalfEven y

/-- Cell `c` is used for a rise at `s`: it is free; no free cell after the rise is passed over; only when there is no
free cell after the rise is a cell before it used, and then the last free one. -/
def Near (free : List ℕ) (s c : ℕ) : Prop :=
  c ∈ free ∧ (∀ x ∈ free, s < x → s ≤ c ∧ c ≤ x) ∧ ((∀ x ∈ free, x ≤ s) → ∀ x ∈ free, x ≤ c)

/-- The rises are served one after the other; with `noDup` a cell that is used is no longer free. -/
inductive Placed (noDup : Bool) : List ℕ → List ℕ → List ℕ → Prop
  | done (free : List ℕ) : Placed noDup free [] []
  | step (free : List ℕ) (s c : ℕ) (ss cs : List ℕ) : Near free s c →
      Placed noDup (if noDup then free.filter (fun x => x ≠ c) else free) ss cs → Placed noDup free (s :: ss) (c :: cs)

/-- A season in which some night has a rate. -/
def Active (ns : List Night) (s : ℤ) : Prop := ∃ n ∈ ns, n.raw ≠ 0 ∧ ⌊n.season⌋ = s

/-- From the first to the last night of a season with a rate, as a fraction of a year. -/
def Span (ns : List Night) (s : ℤ) (l : ℚ) : Prop :=
  ∃ a ∈ ns, ∃ b ∈ ns, (a.raw ≠ 0 ∧ ⌊a.season⌋ = s) ∧ (b.raw ≠ 0 ∧ ⌊b.season⌋ = s) ∧
    (∀ n ∈ ns, n.raw ≠ 0 → ⌊n.season⌋ = s → a.season ≤ n.season ∧ n.season ≤ b.season) ∧ l = b.season - a.season

/-- The rates of a season added up, over some of the nights. -/
def rates (ns : List Night) (s : ℤ) : ℚ := ((ns.filter (fun n => ⌊n.season⌋ = s)).map (·.raw)).sum

/-- A row of the grid keeps to all the limits. -/
structure Within (c : Cfg) (r : Row) : Prop where
  sun : r.sunAlt < c.sunLimit
  airmass : ∀ a, r.airmass = some a → a < c.airmassLimit
  sky : ∀ l, c.skyLimit = some l → ∃ x, r.sky = some x ∧ l < x
  depth : ∃ x, r.m5 = some x ∧ ∀ l, c.depthLimit = some l → l ≤ x
  odd : c.evenOdd = some true → r.night % 2 = 1
  even : c.evenOdd = some false → r.night % 2 = 0
  dark : ∀ l, c.moonLt = some l → r.moon ≤ l
  bright : ∀ l, c.moonGt = some l → l ≤ r.moon

/-- No season without a rate lies between seasons with one. -/
def NoGap (ns : List Night) : Prop :=
  ∀ n ∈ ns, ∀ s t, Active ns s → Active ns t → s ≤ ⌊n.season⌋ → ⌊n.season⌋ ≤ t → Active ns ⌊n.season⌋

/-- A time in the part of the season at its ends that is not to be used. -/
def OffSeason (c : Cfg) (t : ℚ) : Prop :=
  Int.fract (Season.calcSeason c.ra t c.start) < c.offLength / 365.25 ∨ 1 - c.offLength / 365.25 < Int.fract (Season.calcSeason c.ra t c.start)

end Verif
