import Mathlib.Data.List.Sort
import Mathlib.Data.List.Dedup
import Verif.Model.Season

/-!
Model of the choice of times for deep drilling sequences
(`/repo/rubin_scheduler/scheduler/example/lsst_ddf_presched.py`). Line numbers refer to that file. Numbers are
rational; `none` stands for `nan` in lists of numbers, and for an exception as the result of a function.
-/

namespace Verif.Pre

/-! ### Lists of numbers -/

/-- `max()` of an array that is not empty. -/
def maxL (l : List ℚ) : ℚ := l.foldl max (l.headD 0)

/-- `min()` of an array that is not empty. -/
def minL (l : List ℚ) : ℚ := l.foldl min (l.headD 0)

/-- `np.max` with `nan`: the answer is `nan` when one of the numbers is. -/
def maxO (l : List (Option ℚ)) : Option ℚ := if l.all Option.isSome then some (maxL (l.map (·.getD 0))) else none

/-- `np.unique` of whole numbers. -/
def uniqueZ (l : List ℤ) : List ℤ := l.dedup.insertionSort (· ≤ ·)

/-- All the values, or an exception. -/
def collect {α : Type} : List (Option α) → Option (List α)
  | [] => some []
  | none :: _ => none
  | some a :: l => (collect l).map (fun r => a :: r)

/-! ### Where the desired number rises -/

/-- The rate and the season of a night. -/
structure Night where
  raw : ℚ
  season : ℚ
deriving DecidableEq, Repr

/-- The factors of the first seasons (121-132), used when all of them are given. -/
structure Boost where
  early : ℚ
  third : ℚ
  fractional : ℚ

/-- The seasons with a rate that is not zero (98-102). -/
def seasonList (ns : List Night) : List ℤ := uniqueZ ((ns.filter (fun n => n.raw ≠ 0)).map (fun n => ⌊n.season⌋))

/-- The season values of the nights of a season with a rate that is not zero (100, 108-109). -/
def activeIn (ns : List Night) (s : ℤ) : List ℚ :=
  ((ns.filter (fun n => n.raw ≠ 0)).filter (fun n => ⌊n.season⌋ = s)).map (·.season)

/-- Length of a season (104-109). -/
def seasonLength (ns : List Night) (s : ℤ) : ℚ := maxL (activeIn ns s) - minL (activeIn ns s)

/-- The number wanted in a season before rounding and boosts (111-117). All lengths are zero when the greatest
is, and zero divided by zero is `nan`. -/
def rawGoal (seq minLength : ℚ) (ns : List Night) (s : ℤ) : Option ℚ :=
  if seasonLength ns s < minLength / 365.25 then some 0
  else if maxL ((seasonList ns).map (seasonLength ns)) = 0 then none
  else some (seq * seasonLength ns s / maxL ((seasonList ns).map (seasonLength ns)))

/-- The boosts (119-132). -/
def boosted (seq : ℚ) (b : Option Boost) (s : ℤ) (v : Option ℚ) : Option ℚ :=
  match b with
  | none => v
  | some b =>
    if s = -1 ∧ 0 < b.fractional then some (seq * b.fractional)
    else if s = 0 ∨ s = 1 then v.map (· * b.early)
    else if s = 2 then v.map (· * b.third)
    else v

/-- The number wanted in a season (111-135). -/
def goal (seq minLength : ℚ) (b : Option Boost) (ns : List Night) (s : ℤ) : Option ℚ :=
  (boosted seq b s (rawGoal seq minLength ns s)).map (fun x => (roundHalfEven x : ℚ))

/-- The sum of rates of a season up to the `i`-th night (140, 144). -/
def upTo (ns : List Night) (s : ℤ) (i : ℕ) : ℚ := (((ns.take (i + 1)).filter (fun n => ⌊n.season⌋ = s)).map (·.raw)).sum

/-- The nights of a season (140). -/
def inSeason (ns : List Night) (s : ℤ) : List ℕ :=
  (List.range ns.length).filter (fun i => ⌊(ns.getD i ⟨0, 0⟩).season⌋ = s)

/-- One pass of the loop over seasons (139-147). -/
def addSeason (ns : List Night) (v : Option ℚ) (s : ℤ) (out : List (Option ℚ)) : List (Option ℚ) :=
  if 0 < maxL ((inSeason ns s).map (upTo ns s)) then
    (List.range ns.length).map (fun i =>
      if ⌊(ns.getD i ⟨0, 0⟩).season⌋ = s then
        (v.bind fun v => (maxO out).map fun t => upTo ns s i / maxL ((inSeason ns s).map (upTo ns s)) * v + t)
      else out.getD i none)
  else out

/-- `ddf_slopes` (54-149). -/
def slopes (seq minLength : ℚ) (b : Option Boost) (ns : List Night) : List (Option ℚ) :=
  (seasonList ns).foldl (fun out s => addSeason ns (goal seq minLength b ns s) s out) (ns.map (fun _ => some 0))

/-! ### Events at the rises -/

/-- The rounded number rises; `nan` never does (177, 185-186). -/
def up (a b : Option ℚ) : Bool :=
  match a, b with
  | some x, some y => decide (roundHalfEven x < roundHalfEven y)
  | _, _ => false

/-- The cells at which the rounded number rises (185-186). -/
def rises (d : List (Option ℚ)) : List ℕ :=
  ((List.range (d.length - 1)).filter (fun i => up (d.getD i none) (d.getD (i + 1) none))).map (· + 1)

/-- The position in `valid` that is used for a rise at `s` (193-204). The free cells are in rising order, so
`searchsorted` counts the smaller ones. With no free cell the position is -1 of an empty list, which raises. -/
def pick (valid : List ℕ) (s : ℕ) : Option ℕ :=
  let left := (valid.filter (· < s)).length
  let right := (valid.filter (· ≤ s)).length
  let at' := if (s : ℤ) - left < (right : ℤ) - s then left else right
  if valid.length = 0 then none else if valid.length ≤ at' then some (at' - 1) else some at'

/-- The cells used (188-208). -/
def place (noDup : Bool) : List ℕ → List ℕ → Option (List ℕ)
  | [], _ => some []
  | s :: ss, valid =>
    match pick valid s with
    | none => none
    | some k => (place noDup ss (if noDup then valid.eraseIdx k else valid)).map (fun r => valid.getD k 0 :: r)

/-- The cells that can be used (179-182). -/
def allowed (n : ℕ) (mask : Option (List Bool)) : List ℕ :=
  match mask with
  | none => List.range n
  | some m => (List.range n).filter (fun i => m.getD i false)

/-- `match_cumulative` (152-210): the number of events in each cell. -/
def matchCum (d : List (Option ℚ)) (mask : Option (List Bool)) (noDup : Bool) : Option (List ℕ) :=
  (place noDup (rises d) (allowed d.length mask)).map (fun ps => (List.range d.length).map (fun i => ps.count i))

/-! ### Times of sequences -/

/-- A row of the grid of times with the columns of one field, and the night the almanac gives for it (319-322).
`m5` is `none` when it is not finite. -/
structure Row where
  mjd : ℚ
  night : ℤ
  sunAlt : ℚ
  airmass : Option ℚ
  sky : Option ℚ
  m5 : Option ℚ
  moon : ℚ
deriving DecidableEq, Repr

/-- The arguments (213-235); the limit on the sun in the unit of the grid. -/
structure Cfg where
  ra : ℚ
  sunLimit : ℚ
  sequenceTime : ℚ := 60
  airmassLimit : ℚ := 2.5
  skyLimit : Option ℚ := none
  depthLimit : Option ℚ := some 23.5
  offLength : ℚ := 73.05
  lowFrac : ℚ := 0
  lowRate : ℚ := 0.3
  start : ℚ
  seq : ℚ := 30
  boost : Option Boost := none
  onlySeason : Option ℤ := none
  evenOdd : Option Bool := none
  moonLt : Option ℚ := none
  moonGt : Option ℚ := none
  earlyLate : Bool := false

/-- The sky brightness mask (334-338). -/
def skyOk (lim sky : Option ℚ) : Bool :=
  match lim with
  | none => true
  | some l => match sky with | none => false | some x => !decide (x ≤ l)

/-- The depth mask (340-344). -/
def depthOk (lim m5 : Option ℚ) : Bool :=
  match m5 with
  | none => false
  | some x => match lim with | none => true | some l => !decide (x < l)

/-- The mask of even or odd nights (346-353). -/
def parityOk (eo : Option Bool) (night : ℤ) : Bool :=
  match eo with
  | none => true
  | some true => !decide (night % 2 = 0)
  | some false => !decide (night % 2 ≠ 0)

/-- The airmass mask (331-332); a comparison with `nan` is false. -/
def airmassOk (lim : ℚ) (a : Option ℚ) : Bool := match a with | none => true | some x => !decide (lim ≤ x)

/-- The mask of the moon (355-361). -/
def moonOk (lt gt : Option ℚ) (x : ℚ) : Bool :=
  (match lt with | none => true | some l => !decide (l < x)) && (match gt with | none => true | some l => !decide (x < l))

/-- The masks together (326-364). -/
def rowOk (c : Cfg) (r : Row) : Bool :=
  !decide (c.sunLimit ≤ r.sunAlt) && airmassOk c.airmassLimit r.airmass && skyOk c.skyLimit r.sky &&
    depthOk c.depthLimit r.m5 && parityOk c.evenOdd r.night && moonOk c.moonLt c.moonGt r.moon

/-- One entry masked, `offset` before a masked one (372-374). -/
def clearAt (offset : ℕ) (m : List Bool) (b : ℕ) : List Bool := if offset ≤ b then m.set (b - offset) false else m

/-- The mask grown towards earlier times (370-374). -/
def grow (n : ℕ) (m : List Bool) : List Bool :=
  (List.range n).foldl (fun m' k => ((List.range m.length).filter (fun i => m.getD i true = false)).foldl (clearAt (k + 1)) m') m

/-- The number of steps the mask is grown by (317, 368-369). Fewer than two rows raise, and so do equal times. -/
def growSteps (c : Cfg) (rows : List Row) : Option ℕ :=
  match rows with
  | r0 :: r1 :: _ => if r1.mjd - r0.mjd = 0 then none else some ⌈c.sequenceTime / 60 / 24 / (r1.mjd - r0.mjd)⌉.toNat
  | _ => none

/-- The time of the first row of a night (379-380). -/
def nightMjd (rows : List Row) (n : ℤ) : ℚ := ((rows.find? (fun r => r.night = n)).map (·.mjd)).getD 0

/-- Night, time and season, the first season being 0 (379-386). -/
def nightSeasons (c : Cfg) (rows : List Row) : List (ℤ × ℚ × ℚ) :=
  let us := uniqueZ (rows.map (·.night))
  let ss := us.map (fun n => Season.calcSeason c.ra (nightMjd rows n) c.start)
  us.map (fun n => (n, nightMjd rows n, Season.calcSeason c.ra (nightMjd rows n) c.start - ⌊minL ss⌋))

/-- Only the season asked for (388-393). -/
def keptNights (c : Cfg) (rows : List Row) : List (ℤ × ℚ × ℚ) :=
  match c.onlySeason with
  | none => nightSeasons c rows
  | some s => (nightSeasons c rows).filter (fun x => ⌊x.2.2⌋ = s)

/-- The rate of a night (396, 402-413). -/
def rate (c : Cfg) (season : ℚ) : ℚ :=
  let m := Int.fract season
  let out := m < c.offLength / 365.25 ∨ 1 - c.offLength / 365.25 < m
  let low := m < c.lowFrac ∨ 1 - c.lowFrac < m
  if low then c.lowRate else if c.earlyLate then 0 else if out then 0 else 1

/-- Fewer sequences when there are not enough nights (436-443). -/
def scaleDown (n : ℕ) (d : List (Option ℚ)) : List (Option ℚ) :=
  match maxO d with
  | none => d
  | some m => if (n : ℚ) < m then d.map (fun x => x.map (fun y => y / m * n)) else d

/-- The rows of a night that can be used (457-459). -/
def usable (rows : List Row) (mask : List Bool) (n : ℤ) : List Row :=
  ((rows.zip mask).filter (fun x => decide (x.1.night = n) && x.1.m5.isSome && x.2)).map (·.1)

/-- The best time of a night (456-464). -/
def bestTime (rows : List Row) (mask : List Bool) (n : ℤ) : Option ℚ :=
  ((usable rows mask n).find? (fun r => r.m5 = some (maxL ((usable rows mask n).map (fun r => r.m5.getD 0))))).map (·.mjd)

/-- What is returned (465). -/
structure Result where
  mjds : List ℚ
  nightMjd : List ℚ
  desired : List (Option ℚ)
  sched : List ℕ
deriving DecidableEq, Repr

/-- Running sums (447). -/
def running : ℕ → List ℕ → List ℕ
  | _, [] => []
  | a, x :: l => (a + x) :: running (a + x) l

/-- `optimize_ddf_times` (213-465). -/
def optimize (c : Cfg) (rows : List Row) : Option Result :=
  match growSteps c rows with
  | none => none
  | some n =>
    let mask := grow n (rows.map (rowOk c))
    let kept := keptNights c rows
    let nights := kept.map (fun x => (⟨rate c x.2.2, x.2.2⟩ : Night))
    if 0 < (nights.map (·.raw)).sum then
      let nightMask := kept.map (fun x => (rows.zip mask).any (fun y => y.2 && decide (y.1.night = x.1)))
      let desired := scaleDown (nightMask.countP (· = true)) (slopes c.seq 0 c.boost nights)
      match matchCum desired (some nightMask) true with
      | none => none
      | some sched =>
        (collect (((kept.zip sched).filter (fun y => y.2 = 1)).map (fun y => bestTime rows mask y.1.1))).map
          (fun ts => ⟨ts, kept.map (·.2.1), desired, running 0 sched⟩)
    else some ⟨[], [], [], []⟩

end Verif.Pre
