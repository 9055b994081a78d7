import Verif.Model.Tagging
import Mathlib.Data.List.Perm.Basic
import Mathlib.Algebra.BigOperators.Group.List.Basic
import Mathlib.Algebra.Order.BigOperators.Group.List
import Mathlib.Tactic.Linarith

/-!
# Labels of regions and fields (C151)
-/

namespace Verif

open Tag

/-- The labels of a text are without commas. -/
def PlainText (s : Str) : Prop := ∀ x ∈ split s, ',' ∉ x

/-- An order in which a set is written: the members, in any order. -/
def IsJoinOrder (order : List Str → List Str) : Prop := ∀ l, (order l).Perm l

theorem split_ne (s : Str) : split s ≠ [] := by
  induction s using split.induct with
  | case1 => unfold split; simp
  | case2 cs ih => unfold split; simp
  | case3 c cs _ h ih => exact absurd h ih
  | case4 c cs hne x xs h ih => 
    unfold split
    split
    · simp
    · simp
    · split <;> simp

theorem split_cons {c : Char} {cs : Str} (h : ∀ r, c :: cs ≠ ',' :: ' ' :: r) : ∃ x xs, split cs = x :: xs ∧ split (c :: cs) = (c :: x) :: xs := by
  cases hs : split cs with
  | nil => exact absurd hs (split_ne cs)
  | cons x xs =>
    refine ⟨x, xs, rfl, ?_⟩
    rw [split]
    · rw [hs]
    · rintro r rfl hr
      exact h r (by rw [hr])

theorem split_one {x : Str} (h : ',' ∉ x) : split x = [x] := by
  induction x with
  | nil => rfl
  | cons c x ih =>
    obtain ⟨y, ys, h1, h2⟩ := split_cons (c := c) (cs := x) (by
      intro r e
      apply h
      rw [e]
      exact List.mem_cons_self)
    rw [ih (fun hx => h (List.mem_cons_of_mem _ hx))] at h1
    cases h1
    exact h2

theorem split_next {x r : Str} (h : ',' ∉ x) : split (x ++ ',' :: ' ' :: r) = x :: split r := by
  induction x with
  | nil => rw [List.nil_append, split]
  | cons c x ih =>
    obtain ⟨y, ys, h1, h2⟩ := split_cons (c := c) (cs := x ++ ',' :: ' ' :: r) (by
      intro r' e
      apply h
      rw [List.cons.injEq] at e
      rw [e.1]
      exact List.mem_cons_self)
    rw [ih (fun hx => h (List.mem_cons_of_mem _ hx))] at h1
    cases h1
    exact h2

theorem split_join {l : List Str} (hne : l ≠ []) (h : ∀ x ∈ l, ',' ∉ x) : split (join l) = l := by
  induction l with
  | nil => exact absurd rfl hne
  | cons x l ih =>
    cases l with
    | nil => exact split_one (h x List.mem_cons_self)
    | cons y l =>
      show split (x ++ ',' :: ' ' :: join (y :: l)) = _
      rw [split_next (h x List.mem_cons_self), ih (by simp) (fun z hz => h z (List.mem_cons_of_mem _ hz))]

/-- Room that texts take, each with a separator. -/
def room (l : List Str) : ℕ := (l.map fun x => x.length + 2).sum

theorem split_room (s : Str) : room (split s) = s.length + 2 := by
  induction s using split.induct with
  | case1 => rfl
  | case2 cs ih =>
    rw [split]
    show (0 + 2) + room (split cs) = _
    rw [ih]
    simp only [List.length_cons]
    omega
  | case3 c cs _ h ih => exact absurd h (split_ne cs)
  | case4 c cs hne x xs h ih =>
    have hs : split (c :: cs) = (c :: x) :: xs := by
      obtain ⟨y, ys, h1, h2⟩ := split_cons (c := c) (cs := cs) (by
        intro r e
        rw [List.cons.injEq] at e
        exact hne r e.1 e.2)
      rw [h] at h1
      cases h1
      exact h2
    rw [hs]
    rw [h] at ih
    show (x.length + 1 + 2) + room xs = _
    have : room (x :: xs) = (x.length + 2) + room xs := rfl
    rw [List.length_cons]
    omega

theorem join_room {l : List Str} (h : l ≠ []) : (join l).length + 2 = room l := by
  induction l with
  | nil => exact absurd rfl h
  | cons x l ih =>
    cases l with
    | nil => rfl
    | cons y l =>
      have := ih (by simp)
      show (x ++ ',' :: ' ' :: join (y :: l)).length + 2 = (x.length + 2) + room (y :: l)
      rw [List.length_append, List.length_cons, List.length_cons]
      omega

theorem room_sublist {a b : List Str} (h : a.Sublist b) : room a ≤ room b :=
  List.Sublist.sum_le_sum (h.map _) (fun _ _ => Nat.zero_le _)

/-- The values kept. -/
theorem mem_values (prev : Str) (new : List Str) (x : Str) : x ∈ values true prev new ↔ (x ∈ split prev ∨ x ∈ new) ∧ x ≠ [] ∧ x ≠ "None".toList := by
  unfold values
  rw [List.mem_dedup, List.mem_filter, if_pos rfl, List.mem_append]
  have : (!decide (x ∈ drop)) = true ↔ x ≠ [] ∧ x ≠ "None".toList := by
    unfold drop
    simp
  rw [this]

theorem retag_split {order : List Str → List Str} (ho : IsJoinOrder order) {prev : Str} {new : List Str} (hp : PlainText prev) (hn : ∀ x ∈ new, ',' ∉ x) (hl : prev.length + room new ≤ 60)
    (hne : ∃ x ∈ new, x ≠ [] ∧ x ≠ "None".toList) (x : Str) :
    x ∈ split (retag order true prev new) ↔ (x ∈ split prev ∨ x ∈ new) ∧ x ≠ [] ∧ x ≠ "None".toList := by
  rw [← mem_values]
  unfold retag
  have hperm := ho (values true prev new)
  obtain ⟨y, hy, hy'⟩ := hne
  have hyv : y ∈ values true prev new := (mem_values _ _ _).2 ⟨.inr hy, hy'⟩
  have hon : order (values true prev new) ≠ [] := by
    intro e
    have := hperm.mem_iff.2 hyv
    rw [e] at this
    cases this
  have hroom : room (order (values true prev new)) ≤ room (split prev ++ new) := by
    have h1 : room (order (values true prev new)) = room (values true prev new) := (hperm.map _).sum_eq
    rw [h1]
    unfold values
    rw [if_pos rfl]
    exact room_sublist ((List.dedup_sublist _).trans List.filter_sublist)
  have h2 : room (split prev ++ new) = prev.length + 2 + room new := by
    unfold room
    rw [List.map_append, List.sum_append]
    have := split_room prev
    unfold room at this
    rw [this]
  have h3 := join_room hon
  have hcut : Tag.cut (join (order (values true prev new))) = join (order (values true prev new)) := by
    unfold Tag.cut
    exact List.take_of_length_le (by omega)
  rw [hcut, split_join hon ?_]
  · exact hperm.mem_iff
  · intro z hz
    have := (mem_values _ _ _).1 (hperm.mem_iff.1 hz)
    rcases this.1 with h | h
    · exact hp z h
    · exact hn z h

/-- The labels of a visit: those of the pixels it covers, or the mark of a visit outside the footprint when there are none. -/
theorem mem_regionLabels (labels : List Str) (x : Str) :
    x ∈ regionLabels labels ↔ (x ≠ [] ∧ x ∈ labels) ∨ (x = "OOF".toList ∧ ∀ y ∈ labels, y = []) := by
  unfold regionLabels
  dsimp only
  split_ifs with h
  · rw [List.length_eq_zero_iff, List.dedup_eq_nil, List.filter_eq_nil_iff] at h
    have hall : ∀ y ∈ labels, y = [] := by
      intro y hy
      simpa using h y hy
    rw [List.mem_singleton]
    constructor
    · intro e; exact .inr ⟨e, hall⟩
    · rintro (⟨h1, h2⟩ | ⟨h1, _⟩)
      · exact absurd (hall x h2) h1
      · exact h1
  · rw [List.mem_dedup, List.mem_filter]
    constructor
    · rintro ⟨h1, h2⟩
      exact .inl ⟨by simpa using h2, h1⟩
    · rintro (⟨h1, h2⟩ | ⟨_, h2⟩)
      · exact ⟨h2, by simpa using h1⟩
      · exfalso
        apply h
        rw [List.length_eq_zero_iff, List.dedup_eq_nil, List.filter_eq_nil_iff]
        intro y hy
        simp [h2 y hy]

/-- C151. A visit labelled by regions has the labels it had and those of the pixels it covers, once each, or the mark of a visit outside the footprint when these have none. Missing here:
texts longer than the column. -/
theorem C151_region_partial (order : List Str → List Str) (ho : IsJoinOrder order) (label : ℕ → Str) (hlab : ∀ p, ',' ∉ label p ∧ label p ≠ "None".toList) (pix : List ℕ) (prev : Str)
    (hp : PlainText prev) (hl : prev.length + room (regionLabels (pix.map label)) ≤ 60) (x : Str) :
    x ∈ split (labelRegion order true label pix prev) ↔
      (x ≠ [] ∧ x ≠ "None".toList ∧ x ∈ split prev) ∨ (x ≠ [] ∧ ∃ p ∈ pix, label p = x) ∨ (x = "OOF".toList ∧ ∀ p ∈ pix, label p = []) := by
  unfold labelRegion
  have hm := mem_regionLabels (pix.map label)
  have hn : ∀ y ∈ regionLabels (pix.map label), ',' ∉ y ∧ y ≠ [] ∧ y ≠ "None".toList := by
    intro y hy
    rcases (hm y).1 hy with ⟨h1, h2⟩ | ⟨h1, _⟩
    · obtain ⟨p, _, rfl⟩ := List.mem_map.1 h2
      exact ⟨(hlab p).1, h1, (hlab p).2⟩
    · subst h1
      decide
  have hne : ∃ y ∈ regionLabels (pix.map label), y ≠ [] ∧ y ≠ "None".toList := by
    have : regionLabels (pix.map label) ≠ [] := by
      unfold regionLabels
      dsimp only
      split_ifs with h
      · simp
      · intro e
        rw [e] at h
        exact h rfl
    obtain ⟨y, hy⟩ := List.exists_mem_of_ne_nil _ this
    exact ⟨y, hy, (hn y hy).2⟩
  rw [retag_split ho hp (fun y hy => (hn y hy).1) hl hne]
  constructor
  · rintro ⟨h1 | h1, h2, h3⟩
    · exact .inl ⟨h2, h3, h1⟩
    · right
      rcases (hm x).1 h1 with ⟨_, h⟩ | ⟨h, h'⟩
      · obtain ⟨p, hp, e⟩ := List.mem_map.1 h
        exact .inl ⟨h2, p, hp, e⟩
      · exact .inr ⟨h, fun p hp => h' _ (List.mem_map_of_mem hp)⟩
  · rintro (⟨h1, h2, h3⟩ | ⟨h1, p, hp, rfl⟩ | ⟨rfl, h⟩)
    · exact ⟨.inl h3, h1, h2⟩
    · exact ⟨.inr ((hm _).2 (.inl ⟨h1, List.mem_map_of_mem hp⟩)), h1, (hlab p).2⟩
    · refine ⟨.inr ((hm _).2 (.inr ⟨rfl, ?_⟩)), by decide, by decide⟩
      intro y hy
      obtain ⟨p, hp, rfl⟩ := List.mem_map.1 hy
      exact h p hp

/-- C151. Told not to keep the labels a visit had, the detailer leaves those of the pixels it covers alone. -/
theorem C151_replaced_partial (order : List Str → List Str) (ho : IsJoinOrder order) (label : ℕ → Str) (hlab : ∀ p, ',' ∉ label p ∧ label p ≠ "None".toList) (pix : List ℕ) (prev : Str)
    (hl : room (regionLabels (pix.map label)) ≤ 60) (x : Str) :
    x ∈ split (labelRegion order false label pix prev) ↔ (x ≠ [] ∧ ∃ p ∈ pix, label p = x) ∨ (x = "OOF".toList ∧ ∀ p ∈ pix, label p = []) := by
  have e : labelRegion order false label pix prev = labelRegion order true label pix [] := by
    unfold labelRegion retag values
    simp [split, Tag.drop]
  have key := C151_region_partial order ho label hlab pix [] (by intro y hy; simp only [split, List.mem_singleton] at hy; simp [hy]) (by simpa using hl) x
  rw [e, key]
  constructor
  · rintro (⟨h1, -, h2⟩ | h)
    · simp only [split, List.mem_singleton] at h2
      exact absurd h2 h1
    · exact h
  · exact .inr

example : labelRegion id false (fun p => if p = 3 then "lowdust".toList else "bulgy".toList) [3, 4] "old".toList = "lowdust, bulgy".toList := by decide +kernel

theorem ddfLabel_ok (name : Str) (h : ',' ∉ name.map Char.toLower) : ',' ∉ ddfLabel name ∧ ddfLabel name ≠ [] ∧ ddfLabel name ≠ "None".toList := by
  refine ⟨?_, ?_, ?_⟩
  · unfold ddfLabel
    rw [List.mem_append]
    rintro (h' | h')
    · exact absurd h' (by decide)
    · exact h h'
  · intro e
    have := congrArg List.head? e
    exact absurd this (by unfold ddfLabel; simp)
  · intro e
    have := congrArg List.head? e
    exact absurd this (by unfold ddfLabel; simp)

/-- C151. A visit labelled by deep fields has the labels it had and those of exactly the fields within the radius. Missing here: texts longer than the column. -/
theorem C151_ddf_partial (order : List Str → List Str) (ho : IsJoinOrder order) (radius : ℚ) (fs : List (Str × ℚ)) (hfs : ∀ f ∈ fs, ',' ∉ f.1.map Char.toLower) (x : Str) (hx : x ≠ []) (hx' : x ≠ "None".toList) :
    ∀ prev, PlainText prev → prev.length + room (fs.map fun f => ddfLabel f.1) ≤ 60 →
      (x ∈ split (labelDDF order true radius fs prev) ↔ x ∈ split prev ∨ ∃ f ∈ fs, f.2 ≤ radius ∧ x = ddfLabel f.1) := by
  induction fs with
  | nil =>
    intro prev _ _
    unfold labelDDF
    simp
  | cons f fs ih =>
    obtain ⟨name, dist⟩ := f
    intro prev hp hl
    have hok := ddfLabel_ok name (hfs _ List.mem_cons_self)
    have hroom : room (List.map (fun f => ddfLabel f.1) ((name, dist) :: fs)) = room [ddfLabel name] + room (fs.map fun f => ddfLabel f.1) := by
      unfold room
      simp
    rw [hroom] at hl
    unfold labelDDF
    have ih := ih (fun g hg => hfs g (List.mem_cons_of_mem _ hg))
    split_ifs with hd
    · have hs := retag_split ho hp (new := [ddfLabel name]) (by intro y hy; rw [List.mem_singleton.1 hy]; exact hok.1) (by omega) ⟨_, List.mem_singleton.2 rfl, hok.2⟩
      have hplain : PlainText (retag order true prev [ddfLabel name]) := by
        intro y hy
        rcases ((hs y).1 hy).1 with h | h
        · exact hp y h
        · rw [List.mem_singleton.1 h]
          exact hok.1
      have hlen : (retag order true prev [ddfLabel name]).length ≤ prev.length + room [ddfLabel name] := by
        have h1 := split_room (retag order true prev [ddfLabel name])
        unfold retag at h1 ⊢
        have hperm := ho (values true prev [ddfLabel name])
        have h2 : room (order (values true prev [ddfLabel name])) ≤ room (split prev ++ [ddfLabel name]) := by
          have h1 : room (order (values true prev [ddfLabel name])) = room (values true prev [ddfLabel name]) := (hperm.map _).sum_eq
          rw [h1]
          unfold values
          rw [if_pos rfl]
          exact room_sublist ((List.dedup_sublist _).trans List.filter_sublist)
        have h3 : room (split prev ++ [ddfLabel name]) = prev.length + 2 + room [ddfLabel name] := by
          have := split_room prev
          unfold room at this ⊢
          rw [List.map_append, List.sum_append, this]
        have h4 : order (values true prev [ddfLabel name]) ≠ [] := by
          intro e
          have := hperm.mem_iff.2 ((mem_values prev [ddfLabel name] (ddfLabel name)).2 ⟨.inr (List.mem_singleton.2 rfl), hok.2⟩)
          rw [e] at this
          cases this
        have h5 := join_room h4
        unfold Tag.cut
        rw [List.length_take]
        omega
      rw [ih _ hplain (by omega), hs]
      constructor
      · rintro (⟨h | h, _⟩ | ⟨g, hg, h⟩)
        · exact .inl h
        · exact .inr ⟨_, List.mem_cons_self, hd, List.mem_singleton.1 h⟩
        · exact .inr ⟨g, List.mem_cons_of_mem _ hg, h⟩
      · rintro (h | ⟨g, hg, h⟩)
        · exact .inl ⟨.inl h, hx, hx'⟩
        · rcases List.mem_cons.1 hg with rfl | hg
          · exact .inl ⟨.inr (List.mem_singleton.2 h.2), hx, hx'⟩
          · exact .inr ⟨g, hg, h⟩
    · rw [ih _ hp (by omega)]
      constructor
      · rintro (h | ⟨g, hg, h⟩)
        · exact .inl h
        · exact .inr ⟨g, List.mem_cons_of_mem _ hg, h⟩
      · rintro (h | ⟨g, hg, h⟩)
        · exact .inl h
        · rcases List.mem_cons.1 hg with rfl | hg
          · exact absurd h.1 hd
          · exact .inr ⟨g, hg, h⟩

/-- C151 does not hold in full: a text longer than the column is cut in the middle of a label; without `append` a visit near two fields keeps the label of the last one only; a table of
fields of one's own raises an exception. -/
theorem C151_long_violated :
    labelRegion id true (fun _ => "lowdust".toList) [3] "a visit of a region of the sky with a very long name, bulgy".toList = "a visit of a region of the sky with a very long name, bulgy,".toList ∧
      labelDDF id false 2 [("EDFS_a".toList, 1), ("EDFS_b".toList, 3 / 2)] "EDFS".toList = "ddf_edfs_b".toList ∧
      ddfTable [("COSMOS".toList, (150 : ℚ))] (some [("MINE".toList, 10)]) = none := by decide +kernel

example : labelBoth id (fun p => if p = 3 then "lowdust".toList else []) [3, 4] 2 [("EDFS_a".toList, 1), ("COSMOS".toList, 50)] "None".toList = "lowdust, ddf_edfs_a".toList := by
  decide +kernel

example : PlainText "wide, lowdust".toList ∧ IsJoinOrder id ∧ "wide, lowdust".toList.length + room (regionLabels ([3, 4].map fun p => if p = 3 then "lowdust".toList else [])) ≤ 60 := by
  refine ⟨?_, fun l => List.Perm.refl l, by decide +kernel⟩
  unfold PlainText
  decide +kernel

end Verif
