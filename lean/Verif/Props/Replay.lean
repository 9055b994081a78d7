import Verif.Model.Replay
import Verif.Spec.Features
import Verif.Props.Features
import Mathlib.Data.List.Sort

/-!
# Telling a survey of visits (C150)
-/

namespace Verif

open Feat Replay

/-- A visit counts for a survey: its note contains none of the texts to ignore. -/
def Kept (ignore : List String) (v : Vis) : Bool := !ignore.any fun ig => isIn ig v.note

/-- A part that is told of visits one by one and then of many at once ends where it would be if told of all one by one. -/
def Replays {σ : Type} (Q : List Vis → List Vis → Prop) (p : Part σ) : Prop :=
  ∀ g h, Chrono (g ++ h) → Q g h → h ≠ [] → p.many (g.foldl p.one p.start) h (rows h) = (g ++ h).foldl p.one p.start

theorem findFrom_spec (ig l : List Char) : ∀ k : ℕ, (ig <:+: l ∧ (k : ℤ) ≤ findFrom ig k l) ∨ (¬ ig <:+: l ∧ findFrom ig k l = -1) := by
  induction l with
  | nil =>
    intro k
    unfold findFrom
    split_ifs with h
    · exact .inl ⟨h.isInfix, le_refl _⟩
    · refine .inr ⟨fun hi => h ?_, rfl⟩
      have := List.infix_nil.1 hi
      rw [this]
  | cons c cs ih =>
    intro k
    unfold findFrom
    split_ifs with h
    · exact .inl ⟨h.isInfix, le_refl _⟩
    · rcases ih (k + 1) with ⟨h1, h2⟩ | ⟨h1, h2⟩
      · exact .inl ⟨List.infix_cons h1, by push_cast at h2; omega⟩
      · refine .inr ⟨fun hi => ?_, h2⟩
        rcases List.infix_cons_iff.1 hi with h3 | h3
        · exact h h3
        · exact h1 h3

theorem find_iff (note ig : String) : find note ig = -1 ↔ isIn ig note = false := by
  unfold find isIn
  rw [decide_eq_false_iff_not]
  rcases findFrom_spec ig.toList note.toList 0 with ⟨h1, h2⟩ | ⟨h1, h2⟩
  · constructor
    · intro h; push_cast at h2; omega
    · intro h; exact absurd h1 h
  · exact ⟨fun _ => h1, fun _ => h2⟩

theorem find_neg (note ig : String) : find note ig < 0 ↔ find note ig = -1 := by
  unfold find
  rcases findFrom_spec ig.toList note.toList 0 with ⟨_, h2⟩ | ⟨_, h2⟩ <;> push_cast at h2 <;> omega

theorem goodNote_kept (ignore : List String) (v : Vis) : goodNote ignore v.note = Kept ignore v := by
  rw [Bool.eq_iff_iff]
  unfold goodNote Kept
  have hr : (!ignore.any fun ig => isIn ig v.note) = true ↔ ∀ ig ∈ ignore, find v.note ig < 0 := by
    rw [Bool.not_eq_true', List.any_eq_false]
    constructor
    · intro h ig hig
      rw [find_neg, find_iff]
      simpa using h ig hig
    · intro h ig hig
      have := h ig hig
      rw [find_neg, find_iff] at this
      simp [this]
  rw [hr]
  cases hm : (ignore.map (find v.note)).max? with
  | none =>
    rw [List.max?_eq_none_iff, List.map_eq_nil_iff] at hm
    subst hm
    simp
  | some m =>
    dsimp only
    rw [decide_eq_true_eq]
    rw [List.max?_eq_some_iff] at hm
    constructor
    · intro h ig hig
      exact lt_of_le_of_lt (hm.2 _ (List.mem_map_of_mem hig)) h
    · intro h
      obtain ⟨ig, hig, rfl⟩ := List.mem_map.1 hm.1
      exact h ig hig

theorem prune_kept {α : Type} (vis : α → Vis) (ignore : List String) : ∀ l : List α, prune (fun x => (vis x).note) ignore l = l.filter fun x => Kept ignore (vis x) := by
  induction ignore with
  | nil =>
    intro l
    unfold prune Kept
    simp
  | cons ig ignore ih =>
    intro l
    have : prune (fun x => (vis x).note) (ig :: ignore) l = prune (fun x => (vis x).note) ignore (l.filter fun x => find (vis x).note ig == -1) := rfl
    rw [this, ih, List.filter_filter]
    apply List.filter_congr
    intro x _
    unfold Kept
    rw [List.any_cons]
    have : (find (vis x).note ig == -1) = !isIn ig (vis x).note := by
      rw [Bool.eq_iff_iff, beq_iff_eq, find_iff]
      simp
    rw [this, Bool.not_or, Bool.and_comm]

theorem rows_filter (f : Vis → Bool) (h : List Vis) : (rows h).filter (fun r => f r.2) = rows (h.filter f) := by
  unfold rows
  induction h with
  | nil => rfl
  | cons v h ih =>
    rw [List.flatMap_cons, List.filter_append, ih, List.filter_cons, List.filter_map]
    by_cases hf : f v = true
    · rw [if_pos hf, List.flatMap_cons]
      congr 2
      rw [List.filter_eq_self]
      intro p _
      exact hf
    · rw [if_neg hf]
      have : v.pix.filter ((fun r : ℕ × Vis => f r.2) ∘ fun p => (p, v)) = [] := by
        rw [List.filter_eq_nil_iff]
        intro p _
        exact hf
      rw [this]
      rfl

theorem rows_sorted {h : List Vis} (hc : Chrono h) : (rows h).Pairwise fun a b => a.2.mjd ≤ b.2.mjd := by
  unfold rows
  rw [List.pairwise_flatMap]
  refine ⟨fun v _ => ?_, hc.imp ?_⟩
  · rw [List.pairwise_map]
    exact List.pairwise_iff_forall_sublist.2 (fun _ => le_refl _)
  · rintro a b ⟨hab, _⟩ x hx y hy
    obtain ⟨_, _, rfl⟩ := List.mem_map.1 hx
    obtain ⟨_, _, rfl⟩ := List.mem_map.1 hy
    exact hab

/-- C150. A survey that is told of visits one by one counts those whose note contains none of the texts to ignore, and no others. -/
theorem C150_ignored {σ : Type} (ignore : List String) (ps : List (Part σ)) (h : List Vis) :
    (h.foldl (one ignore ps) (start ps)).subs = ps.map fun p => (h.filter (Kept ignore)).foldl p.one p.start := by
  induction h using List.reverseRecOn with
  | nil => rfl
  | append_singleton h v ih =>
    rw [List.foldl_append, List.filter_append]
    show (one ignore ps (h.foldl (one ignore ps) (start ps)) v).subs = _
    generalize hg : h.foldl (one ignore ps) (start ps) = s
    rw [hg] at ih
    unfold one
    rw [goodNote_kept]
    by_cases hk : Kept ignore v = true
    · rw [if_pos hk]
      show List.zipWith (fun p x => p.one x v) ps s.subs = _
      rw [ih, List.zipWith_map_right]
      rw [show [v].filter (Kept ignore) = [v] by simp [hk]]
      clear ih hg
      induction ps with
      | nil => rfl
      | cons p ps ihp =>
        rw [List.zipWith_cons_cons, ihp, List.map_cons, List.foldl_append]
        rfl
    · rw [if_neg hk, ih]
      rw [show [v].filter (Kept ignore) = [] by simp [hk], List.append_nil]

theorem checked_false {σ : Type} (ignore : List String) (ps : List (Part σ)) (h : List Vis) : (h.foldl (one ignore ps) (start ps)).checked = false := by
  induction h using List.reverseRecOn with
  | nil => rfl
  | append_singleton h v ih =>
    rw [List.foldl_append]
    show (one ignore ps (h.foldl (one ignore ps) (start ps)) v).checked = false
    generalize h.foldl (one ignore ps) (start ps) = s at ih
    unfold one
    split_ifs
    · rfl
    · exact ih

/-- C150. When each of its parts can be told of many visits at once, so can a survey: after visits told one by one, being told of the rest at once leaves it as if it had been told
of all one by one. -/
theorem C150_survey {σ : Type} (ignore : List String) (ps : List (Part σ)) (Q : List Vis → List Vis → Prop) (hQ : ∀ f g h, Q g h → Q (g.filter f) (h.filter f))
    (hps : ∀ p ∈ ps, Replays Q p) (g h : List Vis) (hc : Chrono (g ++ h)) (hgh : Q g h) :
    many ignore ps (g.foldl (one ignore ps) (start ps)) h (rows h) = (g ++ h).foldl (one ignore ps) (start ps) := by
  have hch : Chrono h := (List.pairwise_append.1 hc).2.1
  unfold many
  rw [List.Pairwise.insertionSort_eq (hch.imp And.left), List.Pairwise.insertionSort_eq (rows_sorted hch)]
  rw [prune_kept (fun v => v), prune_kept (fun r : ℕ × Vis => r.2), rows_filter]
  have hs := C150_ignored ignore ps
  have hk := checked_false ignore ps
  have hext : ∀ s : State σ, ∀ l, s.subs = l → s.checked = false → s = ⟨l, false⟩ := by
    rintro ⟨a, b⟩ l rfl h2
    have : b = false := h2
    rw [this]
  rw [hext _ _ (hs (g ++ h)) (hk _)]
  dsimp only
  split_ifs with hl
  · rw [hs g, List.zipWith_map_right, List.filter_append]
    congr 1
    have hne : h.filter (fun v => Kept ignore v) ≠ [] := by
      intro e
      rw [e] at hl
      exact absurd hl (lt_irrefl _)
    have hcf : Chrono (g.filter (Kept ignore) ++ h.filter (Kept ignore)) := by
      rw [← List.filter_append]
      exact List.Pairwise.filter _ hc
    have hqf := hQ (Kept ignore) g h hgh
    clear hs hk hext
    induction ps with
    | nil => rfl
    | cons p ps ihp =>
      rw [List.zipWith_cons_cons, ihp (fun q hq => hps q (List.mem_cons_of_mem _ hq)), List.map_cons]
      congr 1
      exact hps p List.mem_cons_self _ _ hcf hqf hne
  · have hnil : h.filter (Kept ignore) = [] := by
      rw [← List.length_eq_zero_iff]
      have : (h.filter fun v => Kept ignore v) = h.filter (Kept ignore) := rfl
      rw [this] at hl
      omega
    rw [hext _ _ (hs g) (hk _), List.filter_append, hnil, List.append_nil]

/-- The part of a survey that remembers the visits of a night with given notes. -/
def notePart (notes : Option (List String)) : Part NoteInNight := ⟨NoteInNight.init, NoteInNight.one notes, fun s h _ => NoteInNight.bulk notes s h⟩

/-- Such a part can be told of many visits at once. -/
theorem notePart_replays (notes : Option (List String)) : Replays (fun _ _ => True) (notePart notes) :=
  fun g h hc _ _ => C33_note_in_night notes g h hc

/-- C150 for a survey that counts visits of the night by their notes. -/
theorem C150_notes (ignore : List String) (notes : List (Option (List String))) (g h : List Vis) (hc : Chrono (g ++ h)) :
    many ignore (notes.map notePart) (g.foldl (one ignore (notes.map notePart)) (start (notes.map notePart))) h (rows h) =
      (g ++ h).foldl (one ignore (notes.map notePart)) (start (notes.map notePart)) := by
  apply C150_survey ignore _ (fun _ _ => True) (fun _ _ _ _ => trivial) _ g h hc trivial
  intro p hp
  obtain ⟨n, _, rfl⟩ := List.mem_map.1 hp
  exact notePart_replays n

/-- C150. An empty text to ignore is contained in every note: the survey never counts any visit. -/
theorem C150_empty_text {σ : Type} (ignore : List String) (ps : List (Part σ)) (hi : "" ∈ ignore) (h : List Vis) :
    h.foldl (one ignore ps) (start ps) = start ps := by
  have : h.filter (Kept ignore) = [] := by
    rw [List.filter_eq_nil_iff]
    intro v _
    unfold Kept
    have : (ignore.any fun ig => isIn ig v.note) = true := by
      rw [List.any_eq_true]
      exact ⟨"", hi, by unfold isIn; simp⟩
    rw [this]
    decide
  have h1 := C150_ignored ignore ps h
  have h2 := checked_false ignore ps h
  rw [this] at h1
  cases hx : h.foldl (one ignore ps) (start ps) with
  | mk a b =>
    rw [hx] at h1 h2
    dsimp only at h1 h2
    rw [h1, h2]
    rfl

example : Chrono ([vis 1 10 1 "r" "blob" []] ++ [vis 2 10.1 1 "g" "DD:COSMOS" [], vis 3 10.2 1 "g" "pair" []]) ∧
    Kept ["DD", "twi"] (vis 1 10 1 "r" "blob" []) = true ∧ Kept ["DD", "twi"] (vis 2 10.1 1 "g" "DD:COSMOS" []) = false := by
  refine ⟨?_, by decide +kernel, by decide +kernel⟩
  unfold Chrono
  decide +kernel

end Verif
