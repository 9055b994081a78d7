import Mathlib.Analysis.SpecialFunctions.Pow.Real

/-!
Model of the motion times of telescope, dome and rotator
(`/repo/rubin_scheduler/scheduler/model_observatory/jerk.py`), over the real numbers.
-/

namespace Verif.Jerk

open Classical

/-- `_get_trajectory_instance_case` (jerk.py 135-189) for one distance; later assignments
overwrite earlier ones, 0 is the initial value. -/
noncomputable def caseOf (d v a j : ℝ) : ℕ :=
  let va := a * a / j
  let sa := 2 * a * a * a / (j * j)
  let sv := if v * j < a * a then v * 2 * √(v / j) else v * (v / a + a / j)
  let r := 0
  let r := if v < va ∧ d ≥ sa then 1 else r
  let r := if v ≥ va ∧ d < sa then 2 else r
  let r := if v < va ∧ sa > d ∧ d ≥ sv then 3 else r
  let r := if v < va ∧ d < sa ∧ d < sv then 4 else r
  let r := if v ≥ va ∧ d ≥ sa ∧ d ≥ sv then 5 else r
  let r := if v ≥ va ∧ sa ≤ d ∧ d < sv then 6 else r
  r

/-- `_calculate_times` (jerk.py 99-132) for one distance: (tj, ta, tv); `none` is the
exception at line 132. -/
noncomputable def times (d v a j : ℝ) (c : ℕ) : Option (ℝ × ℝ × ℝ) :=
  if c = 1 ∨ c = 3 then
    let tj := √(v / j)
    some (tj, tj, d / v)
  else if c = 2 ∨ c = 4 then
    let tj := (d / (2 * j)) ^ ((1 : ℝ) / 3)
    some (tj, tj, 2 * tj)
  else if c = 5 then some (a / j, v / a, d / v)
  else if c = 6 then
    let tj := a / j
    let ta := 1 / 2 * (√((4 * d * j * j + a * a * a) / (a * j * j)) - a / j)
    some (tj, ta, ta + tj)
  else none

/-- The sum returned by `jerk_time` (lines 54 and 66). -/
noncomputable def total (d v a j : ℝ) (c : ℕ) : Option ℝ :=
  (times d v a j c).map (fun t => t.2.2 + t.1 + t.2.1)

/-- `acc_time` (jerk.py 71-96) for one distance. -/
noncomputable def accTime (d v a : ℝ) : ℝ :=
  let dm := v ^ 2 / a
  if d < dm then 2 * √(d / a) else 2 * v / a + (d - dm) / v

/-- `result[indx] = tv + tj + ta` for the entries of one case (jerk.py 57-66). -/
noncomputable def fill (v a j : ℝ) (ds : List ℝ) (res : List ℝ) (c : ℕ) : Option (List ℝ) :=
  (List.zip ds res).mapM (fun p => if caseOf p.1 v a j = c then total p.1 v a j c else some p.2)

/-- `jerk_time` (jerk.py 6-68) for an array of distances; `none`: the exception. The cases
are visited in order of first appearance (`np.unique` sorts them, which does not matter, as
each entry is filled in by its own case only). -/
noncomputable def jerkTimes (ds : List ℝ) (v a : ℝ) (j : Option ℝ) : Option (List ℝ) :=
  match j with
  | none => some (ds.map (fun d => accTime d v a))
  | some j =>
    let cs := ds.map (fun d => caseOf d v a j)
    match cs.dedup with
    | [c] => ds.mapM (fun d => total d v a j c)
    | u => u.foldlM (fill v a j ds) (ds.map (fun _ => 0))

end Verif.Jerk
