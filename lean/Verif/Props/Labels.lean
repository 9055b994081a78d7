import Verif.Model.Report
import Verif.Props.ScriptedHistory
import Mathlib.Data.List.Nodup
import Mathlib.Data.List.Count

/-!
# Labels of surveys and basis functions (C148)
-/

namespace Verif

open Report

/-- The label of the `k`-th of some names: the name itself, or with its number among its equals when there are several. -/
def IsLabel (names : List String) (k : ℕ) (n label : String) : Prop :=
  if names.count n = 1 then label = n else label = n ++ " " ++ toString ((names.take k).count n + 1)

theorem mem_twice {names : List String} {n : String} (h : n ∈ names) : n ∈ twice names ↔ names.count n ≠ 1 := by
  unfold twice
  rw [List.mem_filter, decide_eq_true_eq]
  have := List.count_pos_iff.2 h
  constructor
  · rintro ⟨_, h⟩; omega
  · intro h'; exact ⟨h, by omega⟩

theorem give_length (dup : List String) (cnt : String → ℕ) (ns : List String) : (give dup cnt ns).1.length = ns.length := by
  induction ns generalizing cnt with
  | nil => rfl
  | cons n ns ih =>
    unfold give
    split_ifs <;> simp [ih]

theorem give_cnt (dup : List String) (cnt : String → ℕ) (ns : List String) (m : String) (hm : m ∈ dup) : (give dup cnt ns).2 m = cnt m + ns.count m := by
  induction ns generalizing cnt with
  | nil => rfl
  | cons n ns ih =>
    unfold give
    rw [List.count_cons]
    split_ifs with h1 h2 h2
    · dsimp only
      rw [ih]
      have : n = m := by simpa using h2
      subst this
      unfold bump
      rw [if_pos rfl]
      omega
    · dsimp only
      rw [ih]
      have : n ≠ m := by simpa using h2
      unfold bump
      rw [if_neg (fun e => this e.symm)]
      omega
    · have : n = m := by simpa using h2
      exact absurd (this ▸ hm) h1
    · dsimp only
      rw [ih]
      omega

theorem give_get (dup : List String) (cnt : String → ℕ) (ns : List String) (k : ℕ) (n : String) (hk : ns[k]? = some n) :
    (give dup cnt ns).1[k]? = some (if n ∈ dup then numbered n (cnt n + (ns.take k).count n + 1) else n) := by
  induction ns generalizing cnt k with
  | nil => simp at hk
  | cons a ns ih =>
    unfold give
    cases k with
    | zero =>
      have : a = n := by simpa using hk
      subst this
      split_ifs with h
      · simp [bump]
      · simp
    | succ k =>
      rw [List.getElem?_cons_succ] at hk
      split_ifs with h1 h2 h2
      · dsimp only
        rw [List.getElem?_cons_succ, ih _ _ hk, if_pos h2, List.take_succ_cons, List.count_cons]
        unfold bump
        congr 2
        by_cases e : n = a
        · subst e
          simp
          omega
        · rw [if_neg e, if_neg (by simpa using fun h => e h.symm)]
          rfl
      · dsimp only
        rw [List.getElem?_cons_succ, ih _ _ hk, if_neg h2]
      · dsimp only
        have e : ¬ a = n := fun e => h1 (e ▸ h2)
        rw [List.getElem?_cons_succ, ih _ _ hk, if_pos h2, List.take_succ_cons, List.count_cons, if_neg (by simpa using e)]
        rfl
      · dsimp only
        rw [List.getElem?_cons_succ, ih _ _ hk, if_neg h2]

theorem give_cons (dup : List String) (cnt : String → ℕ) (n : String) (ns : List String) :
    give dup cnt (n :: ns) = if n ∈ dup then (numbered n (bump cnt n n) :: (give dup (bump cnt n) ns).1, (give dup (bump cnt n) ns).2)
      else (n :: (give dup cnt ns).1, (give dup cnt ns).2) := by
  rw [give]

theorem giveAll_flatten (dup : List String) (cnt : String → ℕ) (ls : List (List String)) :
    (giveAll dup cnt ls).flatten = (give dup cnt ls.flatten).1 ∧ (giveAll dup cnt ls).map List.length = ls.map List.length := by
  have app : ∀ (a b : List String) (cnt : String → ℕ), give dup cnt (a ++ b) = ((give dup cnt a).1 ++ (give dup (give dup cnt a).2 b).1, (give dup (give dup cnt a).2 b).2) := by
    intro a
    induction a with
    | nil => intro b cnt; rfl
    | cons n a ih =>
      intro b cnt
      rw [List.cons_append, give_cons, give_cons]
      split_ifs with h
      · rw [ih]
        rfl
      · rw [ih]
        rfl
  induction ls generalizing cnt with
  | nil => exact ⟨rfl, rfl⟩
  | cons l ls ih =>
    obtain ⟨h1, h2⟩ := ih (give dup cnt l).2
    constructor
    · rw [giveAll, List.flatten_cons, List.flatten_cons, app, h1]
    · rw [giveAll, List.map_cons, List.map_cons, h2, give_length]

/-- The name of a survey: that given to it, if it has a character, and otherwise that of its class. -/
def properName (s : Named) : String := if s.name = none ∨ s.name = some "" then s.cls else s.name.getD ""

theorem basic_proper : basicLabel = properName := by
  funext s
  unfold basicLabel properName
  cases h : s.name with
  | none => simp
  | some n => by_cases hn : n = "" <;> simp [hn]

theorem names_many (ls : List (List Named)) : (ls.map Item.many).mapM Item.names = some (ls.map (List.map basicLabel)) := by
  induction ls with
  | nil => rfl
  | cons l ls ih =>
    rw [List.map_cons, List.mapM_cons, ih]
    rfl

/-- C148. There is one label for each survey, in lists of the same lengths, and it is the name of the survey (or of its class if it has none), with its number among the
surveys of that name when there are several. -/
theorem C148_surveys (ls : List (List Named)) :
    ∃ labels, surveyLabels (ls.map Item.many) = some labels ∧ labels.map List.length = ls.map List.length ∧
      ∀ k s, ls.flatten[k]? = some s → ∃ label, labels.flatten[k]? = some label ∧ IsLabel (ls.flatten.map properName) k (properName s) label := by
  rw [← basic_proper]
  have hflat : (ls.map (List.map basicLabel)).flatten = ls.flatten.map basicLabel := List.map_flatten.symm
  refine ⟨_, by unfold surveyLabels; rw [names_many]; rfl, ?_, ?_⟩
  · rw [(giveAll_flatten _ _ _).2, List.map_map]
    apply List.map_congr_left
    intro l _
    simp
  · intro k s hk
    have hk' : (ls.flatten.map basicLabel)[k]? = some (basicLabel s) := by rw [List.getElem?_map, hk]; rfl
    rw [(giveAll_flatten _ _ _).1, hflat]
    refine ⟨_, give_get _ _ _ k _ hk', ?_⟩
    unfold IsLabel
    have hm := mem_twice (List.mem_of_getElem? hk')
    by_cases h : (ls.flatten.map basicLabel).count (basicLabel s) = 1
    · rw [if_pos h, if_neg (fun x => hm.1 x h)]
    · rw [if_neg h, if_pos (hm.2 h), Nat.zero_add]
      rfl

theorem numbered_inj {n m : String} {k j : ℕ} (h : n ++ " " ++ toString k = m ++ " " ++ toString j) : n = m ∧ k = j := by
  have e : ∀ (n : String) (k : ℕ), (n ++ " " ++ toString k).toList = n.toList ++ ' ' :: Nat.toDigits 10 k := by
    intro n k
    rw [Nat.toString_eq_ofList_toDigits]
    simp
  have h' := congrArg String.toList h
  rw [e, e] at h'
  have nosp : ∀ k, ' ' ∉ Nat.toDigits 10 k := by
    intro k hk
    have := Nat.isDigit_of_mem_toDigits (by norm_num) (by norm_num) hk
    revert this; decide
  have hd := after_space _ _ (nosp k) (nosp j) _ _ h'
  rw [hd] at h'
  have h1 := Nat.ofDigitChars_toDigits (b := 10) (n := k) (by norm_num) (by norm_num)
  have h2 := Nat.ofDigitChars_toDigits (b := 10) (n := j) (by norm_num) (by norm_num)
  exact ⟨String.toList_inj.1 (List.append_cancel_right h'), by rw [← h1, ← h2, hd]⟩

theorem count_take_lt {names : List String} {i j : ℕ} {n : String} (hij : i < j) (hi : names[i]? = some n) : (names.take i).count n < (names.take j).count n := by
  have h1 : (names.take j).take (i + 1) = names.take (i + 1) := by rw [List.take_take, min_eq_left hij]
  have h2 : (names.take (i + 1)).count n = (names.take i).count n + 1 := by
    rw [List.take_add_one, hi, List.count_append]
    simp
  have h3 : ((names.take j).take (i + 1)).count n ≤ (names.take j).count n := (List.take_sublist _ _).count_le n
  rw [h1, h2] at h3
  omega

/-- C148 in part. The labels are all different when no name is one that occurs several times followed by a number.
Missing: names that end in numbers. -/
theorem C148_distinct_partial (ls : List (List Named)) (labels : List (List String)) (h : surveyLabels (ls.map Item.many) = some labels)
    (hn : ∀ a ∈ ls.flatten.map properName, ∀ b ∈ ls.flatten.map properName, 1 < (ls.flatten.map properName).count b → ∀ k : ℕ, a ≠ b ++ " " ++ toString k) :
    labels.flatten.Nodup := by
  obtain ⟨labels', h1, h2, h3⟩ := C148_surveys ls
  rw [h, Option.some.injEq] at h1
  subst h1
  have hlen : labels.flatten.length = ls.flatten.length := by rw [List.length_flatten, List.length_flatten, h2]
  set names := ls.flatten.map properName with hnames
  rw [List.nodup_iff_getElem?_ne_getElem?]
  intro i j hij hj heq
  have hj' : j < ls.flatten.length := hlen ▸ hj
  have hi' : i < ls.flatten.length := lt_trans hij hj'
  obtain ⟨l1, e1, f1⟩ := h3 i _ (List.getElem?_eq_getElem hi')
  obtain ⟨l2, e2, f2⟩ := h3 j _ (List.getElem?_eq_getElem hj')
  rw [e1, e2, Option.some.injEq] at heq
  subst heq
  have gi : names[i]? = some (properName ls.flatten[i]) := by rw [hnames, List.getElem?_map, List.getElem?_eq_getElem hi']; rfl
  have gj : names[j]? = some (properName ls.flatten[j]) := by rw [hnames, List.getElem?_map, List.getElem?_eq_getElem hj']; rfl
  generalize properName ls.flatten[i] = a at f1 gi
  generalize properName ls.flatten[j] = b at f2 gj
  have ma := List.mem_of_getElem? gi
  have mb := List.mem_of_getElem? gj
  have ca := List.count_pos_iff.2 ma
  have cb := List.count_pos_iff.2 mb
  have self : ∀ c, c ∈ names → names[i]? = some c → names[j]? = some c → names.count c ≠ 1 := by
    intro c _ hi hj hc
    have t1 := count_take_lt hij hi
    have t2 : (names.take (j + 1)).count c ≤ names.count c := (List.take_sublist _ _).count_le c
    rw [List.take_add_one, hj, List.count_append] at t2
    simp at t2
    omega
  unfold IsLabel at f1 f2
  split_ifs at f1 with u1 <;> split_ifs at f2 with u2
  · rw [f1] at f2
    subst f2
    exact self a ma gi gj u1
  · exact hn a ma b mb (by omega) _ (f1.symm.trans f2)
  · exact hn b mb a ma (by omega) _ (f2.symm.trans f1)
  · obtain ⟨e, e'⟩ := numbered_inj (f1.symm.trans f2)
    subst e
    have := count_take_lt hij gi
    omega

/-- C148 does not hold in full: a name that ends in a number may be the label of another survey, and a survey that stands outside of lists raises an exception. -/
theorem C148_same_violated : surveyLabels [.many [⟨some "wide", "S"⟩, ⟨some "wide", "S"⟩], .many [⟨some "wide 1", "S"⟩]] = some [["wide 1", "wide 2"], ["wide 1"]] ∧
    surveyLabels [.many [⟨some "a", "S"⟩], .one ⟨some "b", "S"⟩] = none := by decide +kernel

/-! ### Basis functions -/

theorem lookup_zip_last {α β : Type} [BEq α] [LawfulBEq α] (ks : List α) (vs : List β) (hl : vs.length = ks.length) (hn : ks.Nodup) (i : ℕ) (k : α) (hk : ks[i]? = some k) :
    (ks.zip vs).reverse.lookup k = vs[i]? := by
  induction ks using List.reverseRecOn generalizing vs i with
  | nil => simp at hk
  | append_singleton ks a ih =>
    obtain ⟨vs', v, rfl⟩ : ∃ vs' v, vs = vs' ++ [v] := by
      have : vs ≠ [] := by rintro rfl; simp at hl
      exact ⟨vs.dropLast, vs.getLast this, (List.dropLast_append_getLast this).symm⟩
    have hl' : vs'.length = ks.length := by simpa using hl
    rw [List.zip_append hl'.symm]
    simp only [List.zip_cons_cons, List.zip_nil_right, List.reverse_append, List.reverse_cons, List.reverse_nil, List.nil_append, List.cons_append]
    rw [List.lookup_cons]
    have hn' := List.nodup_append.1 hn
    rcases Nat.lt_or_ge i ks.length with hi | hi
    · rw [List.getElem?_append_left hi] at hk
      have : (k == a) = false := by
        rw [beq_eq_false_iff_ne]
        exact hn'.2.2 k (List.mem_of_getElem? hk) a (List.mem_singleton.2 rfl)
      rw [this, ih _ hl' hn'.1 i hk, List.getElem?_append_left (by omega)]
    · have hi2 : i < (ks ++ [a]).length := (List.getElem?_eq_some_iff.1 hk).1
      have hi3 : i = ks.length := by
        rw [List.length_append, List.length_singleton] at hi2
        omega
      subst hi3
      have : a = k := by simpa using hk
      subst this
      rw [beq_self_eq_true]
      simp [← hl']

/-- C148. The label of a basis function in a table is the part before the number of the object, with its number among its equals when there are several, when no basis function is
used twice in a survey. -/
theorem C148_basis_partial (longs : List String) (hn : longs.Nodup) (k : ℕ) (l : String) (hk : longs[k]? = some l) :
    ∃ label, shortLabel longs l = some label ∧ IsLabel (longs.map labelBase) k (labelBase l) label := by
  unfold shortLabel
  have hlen : (shorts longs).length = longs.length := by unfold shorts; rw [give_length, List.length_map]
  rw [lookup_zip_last longs (shorts longs) hlen hn k l hk]
  have hk' : (longs.map labelBase)[k]? = some (labelBase l) := by rw [List.getElem?_map, hk]; rfl
  unfold shorts
  refine ⟨_, give_get _ _ _ k _ hk', ?_⟩
  unfold IsLabel
  have hm := mem_twice (List.mem_of_getElem? hk')
  by_cases h : (longs.map labelBase).count (labelBase l) = 1
  · rw [if_pos h, if_neg (fun x => hm.1 x h)]
  · rw [if_neg h, if_pos (hm.2 h), Nat.zero_add]
    rfl

/-- C148: the base of a label is what comes before the first blank followed by an at sign. -/
theorem C148_base (a b : List Char) (h : ∀ i : ℕ, ¬ (a[i]? = some ' ' ∧ a[i + 1]? = some '@')) :
    beforeAt (a ++ ' ' :: '@' :: b) = a := by
  induction a with
  | nil => rfl
  | cons c a ih =>
    have h' : ∀ i : ℕ, ¬ (a[i]? = some ' ' ∧ a[i + 1]? = some '@') := fun i hi => h (i + 1) (by simpa using hi)
    have e := ih h'
    have h0 := h 0
    cases a with
    | nil =>
      rw [List.cons_append, List.nil_append]
      unfold beforeAt
      split
      · simp_all
      · rename_i heq
        simp at heq
      · rename_i heq
        simp only [List.cons.injEq] at heq
        rw [← heq.2, ← heq.1]
        rfl
    | cons d a =>
      rw [List.cons_append, List.cons_append]
      unfold beforeAt
      split
      · simp_all
      · rename_i heq
        simp only [List.cons.injEq] at heq
        exact absurd ⟨by simp [heq.1], by simp [heq.2.1]⟩ h0
      · rename_i heq
        simp only [List.cons.injEq] at heq
        rw [← heq.2, ← heq.1, ← List.cons_append, e]

/-- C148 does not hold in full: a basis function used twice in a survey has the same label in both places, though the other places count on. -/
theorem C148_twice_violated : ["Slew @1", "Slew @1"].map (shortLabel ["Slew @1", "Slew @1"]) = [some "Slew 2", some "Slew 2"] := by decide +kernel

example : ["Slew @1", "Slew @2", "M5 r @3"].Nodup ∧ ["Slew @1", "Slew @2", "M5 r @3"].map (shortLabel ["Slew @1", "Slew @2", "M5 r @3"]) = [some "Slew 1", some "Slew 2", some "M5 r"] := by
  decide +kernel

example : surveyLabels [.many [⟨some "wide", "S"⟩, ⟨none, "Greedy"⟩], .many [⟨some "wide", "S"⟩, ⟨some "", "Blob"⟩]] = some [["wide 1", "Greedy"], ["wide 2", "Blob"]] := by
  decide +kernel

end Verif
