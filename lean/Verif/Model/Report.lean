import Verif.Model.Reward

/-!
Model of the tables and labels by which a user sees what the scheduler does: `survey_labels`, `surveys_df`, `make_reward_df` of `CoreScheduler`
(`/repo/rubin_scheduler/scheduler/schedulers/core_scheduler.py` 623-784) and `bf_short_labels`, `make_reward_df`, `_reward_to_scalars` of `BaseSurvey`
(`/repo/rubin_scheduler/scheduler/surveys/base_survey.py` 330-490).

A basis function is what it says at the current conditions, as in `Model/Reward`; the rewards of copies of the survey with fewer basis functions are
those of `Rew.reward`. `none` stands for an exception.
-/

namespace Verif.Report

open XReal Rew

/-! ### Labels -/

/-- A survey as far as its label goes: `survey_name`, when there is one, and the name of the class. -/
structure Named where
  name : Option String
  cls : String

/-- core_scheduler.py 724-731, 754-760. -/
def basicLabel (s : Named) : String :=
  match s.name with
  | none => s.cls
  | some n => if n.length = 0 then s.cls else n

/-- An entry of `survey_lists`: a survey, or a list of them. -/
inductive Item where
  | one (s : Named)
  | many (l : List Named)

/-- The labels that occur twice (core_scheduler.py 733-736; base_survey.py 478). -/
def twice (names : List String) : List String := names.filter fun n => decide (1 < names.count n)

/-- One more of a label (core_scheduler.py 765-768; base_survey.py 483). -/
def bump (cnt : String → ℕ) (n : String) : String → ℕ := fun m => if m = n then cnt m + 1 else cnt m

/-- A label with its number (core_scheduler.py 769, base_survey.py 484). -/
def numbered (n : String) (k : ℕ) : String := n ++ " " ++ toString k

/-- Labels given out in order, with the counts so far (core_scheduler.py 752-770, base_survey.py 481-486). -/
def give (dup : List String) (cnt : String → ℕ) : List String → List String × (String → ℕ)
  | [] => ([], cnt)
  | n :: ns =>
    if n ∈ dup then
      let r := give dup (bump cnt n) ns
      (numbered n (bump cnt n n) :: r.1, r.2)
    else
      let r := give dup cnt ns
      (n :: r.1, r.2)

/-- The labels of lists of surveys (core_scheduler.py 772-782). -/
def giveAll (dup : List String) (cnt : String → ℕ) : List (List String) → List (List String)
  | [] => []
  | l :: ls => (give dup cnt l).1 :: giveAll dup (give dup cnt l).2 ls

/-- The names of an entry; for a bare survey `label_lists.append()` raises (core_scheduler.py 740-743). -/
def Item.names : Item → Option (List String)
  | .one _ => none
  | .many l => some (l.map basicLabel)

/-- `survey_labels` (core_scheduler.py 709-784). -/
def surveyLabels (items : List Item) : Option (List (List String)) :=
  (items.mapM Item.names).map fun names => giveAll (twice names.flatten) (fun _ => 0) names

/-- `label.split(" @")[0]` (base_survey.py 477). -/
def beforeAt : List Char → List Char
  | [] => []
  | ' ' :: '@' :: _ => []
  | c :: cs => c :: beforeAt cs

/-- The same for strings. -/
def labelBase (s : String) : String := String.ofList (beforeAt s.toList)

/-- The short labels in order (base_survey.py 477-486). -/
def shorts (longs : List String) : List String := (give (twice (longs.map labelBase)) (fun _ => 0) (longs.map labelBase)).1

/-- `dict(zip(long_labels, short_labels))[label]` (base_survey.py 488): the last one with that key. -/
def shortLabel (longs : List String) (long : String) : Option String := (longs.zip (shorts longs)).reverse.lookup long

/-! ### Rewards in one number -/

/-- `_reward_to_scalars` (base_survey.py 330-351): the greatest reward and the area that is not masked. `roi` marks the pixels of the survey, `pix` is
the area of one. -/
def scalars (roi : List Bool) (pix : ℚ) : Val → Option (XReal × ℚ)
  | .scalar x => some (if x.isNan || eqB x .ninf then (.ninf, 0) else (x, pix * (roi.count true : ℕ)))
  | .map l =>
    if l.length = roi.length then
      let inRoi := List.zipWith (fun b x => if b then x else .ninf) roi l
      let n := inRoi.countP (fun x => ltB .ninf x)
      if pix * (n : ℕ) = 0 then some (.ninf, pix * (n : ℕ)) else (nanmax inRoi).map fun m => (m, pix * (n : ℕ))
    else none

/-- A row of the table: for a basis function whether it is feasible, its greatest reward and area, and those of the survey with the basis functions up to it. -/
structure Row where
  feasible : Bool
  maxReward : XReal
  area : ℚ
  weight : ℚ
  accum : XReal
  accumArea : ℚ
deriving DecidableEq

/-- One round of the loop (base_survey.py 390-414). -/
def row (kd : Kind) (roi : List Bool) (pix : ℚ) (bs : List (Basis × ℚ)) (k : ℕ) : Option Row :=
  match bs[k]? with
  | none => none
  | some b =>
    match scalars roi pix (call b.1), (reward kd (bs.take (k + 1))).bind (scalars roi pix) with
    | some (m, a), some (m', a') => some ⟨if a = 0 then false else b.1.feasible, m, a, b.2, m', a'⟩
    | _, _ => none

/-- `make_reward_df` of a survey (base_survey.py 353-429). -/
def rewardDf (kd : Kind) (roi : List Bool) (pix : ℚ) (bs : List (Basis × ℚ)) : Option (List Row) :=
  (List.range bs.length).mapM (row kd roi pix bs)

/-! ### Tables of all surveys -/

/-- The reward of a survey shown in `surveys_df` (core_scheduler.py 642-655). -/
def shown (tier : ℕ) (index0 : Option ℕ) (r : Option Val) : Option XReal :=
  match index0 with
  | none => none
  | some t =>
    if t < tier then none
    else match r with
      | none => none
      | some (.scalar x) => some x
      | some (.map l) => if l.countP (fun x => ltB .ninf x) = 0 then some .ninf else nanmax l

/-- Whether a survey is shown as chosen (core_scheduler.py 657-660). -/
def chosen (tier elem : ℕ) (index : Option ℕ × Option ℕ) : Bool := decide (index.1 = some tier) && decide (index.2 = some elem)

/-- `surveys_df` (core_scheduler.py 623-665) for the rewards of a tier; an empty list of surveys has no column to be the index and raises. -/
def surveysDf (tier : ℕ) (index : Option ℕ × Option ℕ) (rewards : List (Option Val)) : Option (List (Option XReal × Bool)) :=
  if rewards.isEmpty then none else some (rewards.mapIdx fun i r => (shown tier index.1 r, chosen tier i index))

/-- A survey with what the table needs. -/
structure Sv where
  named : Named
  kind : Kind
  roi : List Bool
  bs : List (Basis × ℚ)

/-- The greatest reward, nan when all are (core_scheduler.py 700-704). -/
def best (v : Val) : XReal :=
  if (entries v).all XReal.isNan then .nan else (nanmax (entries v)).getD .nan

/-- A row of the table of all surveys: where the survey stands, its label and reward, and the row of the survey. -/
structure CoreRow where
  tier : ℕ
  elem : ℕ
  label : String
  surveyReward : XReal
  row : Row
deriving DecidableEq

/-- The rows of one survey (core_scheduler.py 689-705); one without basis functions is left out before its reward is computed. -/
def svRows (pix : ℚ) (tier elem : ℕ) (label : String) (s : Sv) : Option (List CoreRow) :=
  match rewardDf s.kind s.roi pix s.bs with
  | none => none
  | some [] => some []
  | some rows =>
    match reward s.kind s.bs with
    | none => none
    | some v => some (rows.map fun r => ⟨tier, elem, label, best v, r⟩)

/-- The rows of a tier. -/
def tierRows (pix : ℚ) (tier : ℕ) (l : List (Sv × String)) : Option (List CoreRow) :=
  (l.zipIdx.mapM fun x => svRows pix tier x.2 x.1.2 x.1.1).map List.flatten

/-- `make_reward_df` (core_scheduler.py 667-707): without any row `pd.concat` raises. -/
def coreDf (pix : ℚ) (tiers : List (List Sv)) : Option (List CoreRow) :=
  match surveyLabels (tiers.map fun l => Item.many (l.map Sv.named)) with
  | none => none
  | some labels =>
    match ((List.zipWith List.zip tiers labels).zipIdx.mapM fun x => tierRows pix x.2 x.1).map List.flatten with
    | none => none
    | some [] => none
    | some rows => some rows

end Verif.Report
