import Mathlib.Data.Rat.Defs
import Mathlib.Data.Rat.Floor
import Mathlib.Data.List.Sort
import Mathlib.Data.Prod.Lex

/-!
Model of the downtime tables: generation of unscheduled downtimes
(`/repo/rubin_scheduler/site_models/unscheduled_downtime_data.py`) and merging of scheduled
and unscheduled ones (`/repo/rubin_scheduler/scheduler/model_observatory/model_observatory.py`
202-264).

A downtime is a pair (start, end) of MJDs, closed from `start` up to but not including `end`.
astropy times are exact rationals (days); leap-second and TAI/UTC differences are not modelled.
-/

namespace Verif.Down

/-- (start, end), one row of the `downtimes` array. -/
abbrev Iv := ℚ × ℚ

/-! ### Random unscheduled downtimes -/

/-- An event class: probability threshold and length in nights
(unscheduled_downtime_data.py 32-35). -/
structure Event where
  p : ℚ
  len : ℕ

/-- The four event classes, in the order the code tries them (109-146). -/
structure Classes where
  catastrophic : Event := ⟨274 / 1000000, 14⟩
  major : Event := ⟨137 / 100000, 7⟩
  intermediate : Event := ⟨548 / 100000, 3⟩
  minor : Event := ⟨137 / 10000, 1⟩

/-- The stream of numbers from `random.random()`, with how many were used. -/
structure Rng where
  val : ℕ → ℚ
  used : ℕ

/-- One call of `random.random()`. -/
def Rng.next (r : Rng) : ℚ × Rng := (r.val r.used, { r with used := r.used + 1 })

/-- One turn of the loop (unscheduled_downtime_data.py 108-147): the downtime added, if any,
and the next night.  After the three larger events `continue` skips the final `night += 1`;
after a minor event it does not. -/
def turn (cl : Classes) (night0 : ℚ) (night : ℕ) (r : Rng) : Option Iv × ℕ × Rng :=
  let s : ℚ := night0 + night
  let (p, r) := r.next
  if p < cl.catastrophic.p then (some (s, s + cl.catastrophic.len), night + (cl.catastrophic.len + 1), r)
  else
    let (p, r) := r.next
    if p < cl.major.p then (some (s, s + cl.major.len), night + (cl.major.len + 1), r)
    else
      let (p, r) := r.next
      if p < cl.intermediate.p then (some (s, s + cl.intermediate.len), night + (cl.intermediate.len + 1), r)
      else
        let (p, r) := r.next
        if p < cl.minor.p then (some (s, s + cl.minor.len), night + (cl.minor.len + 1) + 1, r)
        else (none, night + 1, r)

theorem turn_advances (cl : Classes) (night0 : ℚ) (night : ℕ) (r : Rng) : night < (turn cl night0 night r).2.1 := by
  unfold turn
  dsimp only
  split
  · dsimp only; omega
  · split
    · dsimp only; omega
    · split
      · dsimp only; omega
      · split <;> (dsimp only; omega)

/-- `UnscheduledDowntimeData.make_data` (unscheduled_downtime_data.py 86-151):
`while night < survey_length`. -/
def makeData (cl : Classes) (night0 : ℚ) (surveyLength : ℕ) (night : ℕ) (r : Rng) : List Iv :=
  if h : night < surveyLength then
    let t := turn cl night0 night r
    t.1.toList ++ makeData cl night0 surveyLength t.2.1 t.2.2
  else []
  termination_by surveyLength - night
  decreasing_by have := turn_advances cl night0 night r; omega

/-- The random numbers used for one of the first nights of the survey: `rng.random()`,
`rng.gumbel(...)`, and `rng.uniform` given as a fraction of its range. -/
structure Y1Rand where
  prob : ℚ
  gumbel : ℚ
  unif : ℚ

/-- The length of a first-year event in hours (unscheduled_downtime_data.py 217-221): at most
the night, then at least one hour. -/
def y1Length (hours gumbel : ℚ) : ℚ :=
  let pt := if gumbel ≥ hours then hours else gumbel
  if pt ≤ 1 then 1 else pt

/-- The event, if any, of one of the first nights (unscheduled_downtime_data.py 204-235).
`night_counted` is never set before its night is reached, so that test never fires.
Not modelled: how many random numbers are drawn; each night has its own. -/
def y1Night (endOfStart night : ℕ) (sunset sunrise : ℚ) (r : Y1Rand) : Option Iv :=
  let hours := (sunrise - sunset) * 24
  if night < endOfStart then
    if r.prob ≤ 1 / 2 * (1 - (night : ℚ) / (endOfStart + 45)) then
      let pt := y1Length hours r.gumbel
      let tmax := hours - pt
      if tmax ≤ 0 then some (sunset, sunrise)
      else
        let offset := sunset + tmax / 24 * r.unif
        some (offset, offset + pt / 24)
    else none
  else none

/-- The first-year events (unscheduled_downtime_data.py 204-235); each night is its number,
twilight times and random numbers. -/
def y1Events (endOfStart : ℕ) (nights : List (ℕ × (ℚ × ℚ) × Y1Rand)) : List Iv :=
  nights.filterMap (fun n => y1Night endOfStart n.1 n.2.1.1 n.2.1.2 n.2.2)

/-- `UnscheduledDowntimeMoreY1Data.make_data` (177-251): the first-year events and the regular
ones, sorted by start. -/
def makeDataY1 (endOfStart : ℕ) (nights : List (ℕ × (ℚ × ℚ) × Y1Rand)) (regular : List Iv) : List Iv :=
  (y1Events endOfStart nights ++ regular).insertionSort (fun a b => a.1 ≤ b.1)

/-! ### Merging -/

/-- `self.downtimes.sort(order="start")` (model_observatory.py 250); numpy breaks ties with
the remaining field. -/
def sortIv (l : List Iv) : List Iv := l.insertionSort (fun a b => a.1 < b.1 ∨ (a.1 = b.1 ∧ a.2 ≤ b.2))

/-- The inner `for` loop (256-260): a pair that overlaps gets the later of the two ends. The
rows are views, so a row changed as `i + 1` is seen changed as `i`. -/
def sweep : List Iv → List Iv
  | a :: b :: rest =>
    if b.1 < a.2 then (a.1, max a.2 b.2) :: sweep ((b.1, max a.2 b.2) :: rest)
    else a :: sweep (b :: rest)
  | l => l
  termination_by l => l.length

/-- `good = where(end - roll(end, 1) != 0)` (262-263): keep the rows whose end differs from
the end of the row before; the row before the first is the last (numpy's `roll` wraps). -/
def keepNew (l : List Iv) : List Iv :=
  match l.getLast? with
  | none => []
  | some z => (((z :: l).zip l).filter (fun p => p.2.2 ≠ p.1.2)).map Prod.snd

/-- Is there an overlapping neighbour pair, `np.min(diff) < 0` (253-254)? -/
def overlaps (l : List Iv) : Bool := (l.zip l.tail).any (fun p => p.2.1 < p.1.2)

/-- How the merging ends. -/
inductive Merged where
  | ok (l : List Iv)
  /-- `np.min` of an empty array raises `ValueError` -/
  | valueError
  | outOfFuel

/-- The `while` loop (254-264), with fuel. With fewer than two rows `diff` is empty and
`np.min` raises. -/
def mergeLoop : ℕ → List Iv → Merged
  | 0, l => if l.length < 2 then .valueError else if overlaps l then .outOfFuel else .ok l
  | n + 1, l =>
    if l.length < 2 then .valueError
    else if overlaps l then mergeLoop n (keepNew (sweep l))
    else .ok l

/-- Scheduled and unscheduled downtimes together (229-264). The fuel is the number of rows,
which is always enough (`C25_ends`). -/
def merge (sched unsched : List Iv) : Merged :=
  let l := sortIv (sched ++ unsched)
  mergeLoop l.length l

end Verif.Down
