import Verif.Model.Features

/-!
Model of how a survey passes completed visits to its features, basis functions and detailers
(`/repo/rubin_scheduler/scheduler/surveys/base_survey.py` 78-94, 182-261).

The parts of a survey are values with the two ways to be told of visits. numpy's sort by `mjd` breaks ties by the other columns; here the order of the
list is kept.
-/

namespace Verif.Replay

open Feat

/-- A feature, basis function or detailer: how it starts, and how it is told of one visit or of many (180-190, 244-256). -/
structure Part (σ : Type) where
  start : σ
  one : σ → Vis → σ
  many : σ → List Vis → List (ℕ × Vis) → σ

/-- `np.char.find` (215, 218, 235) from a place on: the first place where the text begins, -1 when there is none. -/
def findFrom (ig : List Char) (k : ℕ) : List Char → ℤ
  | [] => if ig <+: [] then (k : ℤ) else -1
  | c :: cs => if ig <+: c :: cs then (k : ℤ) else findFrom ig (k + 1) cs

/-- `np.char.find(note, ig)`. -/
def find (note ig : String) : ℤ := findFrom ig.toList 0 note.toList

/-- `check_good_note` (224-242). -/
def goodNote (ignore : List String) (note : String) : Bool :=
  match (ignore.map (find note)).max? with
  | none => true
  | some m => decide (m < 0)

/-- What a survey holds: its parts, in the order of extra features, extra basis functions, basis functions and detailers, and whether its reward is up to date. -/
structure State (σ : Type) where
  subs : List σ
  checked : Bool

/-- A new survey (63-113). -/
def start {σ : Type} (ps : List (Part σ)) : State σ := ⟨ps.map Part.start, false⟩

/-- `add_observation` (244-261). -/
def one {σ : Type} (ignore : List String) (ps : List (Part σ)) (s : State σ) (v : Vis) : State σ :=
  if goodNote ignore v.note then ⟨List.zipWith (fun p x => p.one x v) ps s.subs, false⟩ else s

/-- The loop over the texts to ignore (214-219). -/
def prune {α : Type} (note : α → String) (ignore : List String) (l : List α) : List α :=
  ignore.foldl (fun l ig => l.filter fun x => find (note x) ig == -1) l

/-- `add_observations_array` (192-222). -/
def many {σ : Type} (ignore : List String) (ps : List (Part σ)) (s : State σ) (h : List Vis) (rs : List (ℕ × Vis)) : State σ :=
  let h' := prune Vis.note ignore (h.insertionSort fun a b => a.mjd ≤ b.mjd)
  let rs' := prune (fun r => r.2.note) ignore (rs.insertionSort fun a b => a.2.mjd ≤ b.2.mjd)
  if 0 < h'.length then ⟨List.zipWith (fun p x => p.many x h' rs') ps s.subs, false⟩ else s

end Verif.Replay
