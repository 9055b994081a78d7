import Verif.Spec.Htm

/-!
# Ranges of numbers of trixels (C137)
-/

namespace Verif

open Htm

theorem covers_nil (n : ℕ) : ¬ InRanges [] n := by rintro ⟨r, hr, -⟩; simp at hr

theorem covers_cons (r : ℕ × ℕ) (l : List (ℕ × ℕ)) (n : ℕ) : InRanges (r :: l) n ↔ (r.1 ≤ n ∧ n ≤ r.2) ∨ InRanges l n := by
  unfold InRanges
  simp

theorem covers_append (a b : List (ℕ × ℕ)) (n : ℕ) : InRanges (a ++ b) n ↔ InRanges a n ∨ InRanges b n := by
  unfold InRanges
  simp only [List.mem_append]
  constructor
  · rintro ⟨r, h | h, h'⟩
    · exact .inl ⟨r, h, h'⟩
    · exact .inr ⟨r, h, h'⟩
  · rintro (⟨r, h, h'⟩ | ⟨r, h, h'⟩)
    · exact ⟨r, .inl h, h'⟩
    · exact ⟨r, .inr h, h'⟩

theorem covers_perm {a b : List (ℕ × ℕ)} (h : a.Perm b) (n : ℕ) : InRanges a n ↔ InRanges b n := by
  unfold InRanges
  simp only [h.mem_iff]

/-- The ranges finished, the range being built, and what they came from. -/
structure MergeInv (out : List (ℕ × ℕ)) (r : Run) (done : List (ℕ × ℕ)) : Prop where
  filled : FullRanges out
  apart : Apart out
  before : ∀ x ∈ out, x.2 + 1 < r.lo
  le : r.lo ≤ r.hi
  cur : r.cur = r.hi
  covers : ∀ n, (InRanges out n ∨ (r.lo ≤ n ∧ n ≤ r.hi)) ↔ InRanges done n

theorem mergeStep_inv {out : List (ℕ × ℕ)} {r : Run} {done : List (ℕ × ℕ)} (h : MergeInv out r done) (row : ℕ × ℕ) (hrow : row.1 ≤ row.2)
    (hlo : r.lo ≤ row.1) : ∃ out' r', mergeStep (out, some r) row = (out', some r') ∧ MergeInv out' r' (done ++ [row]) ∧ r'.lo ≤ row.1 := by
  obtain ⟨h1, h2, h3, h4, h5, h6⟩ := h
  obtain ⟨a, b⟩ := row
  obtain ⟨lo, hi, cur⟩ := r
  simp only at *
  subst h5
  unfold mergeStep
  simp only
  split_ifs with hc
  · refine ⟨_, _, rfl, ⟨h1, h2, ?_, ?_, ?_, ?_⟩, ?_⟩
    · intro x hx
      have := h3 x hx
      simp only
      omega
    · simp only; omega
    · simp only; omega
    · intro n
      rw [covers_append, covers_cons, ← h6 n]
      simp only [covers_nil, or_false]
      constructor
      · rintro (h | h)
        · exact .inl (.inl h)
        · by_cases hn : n ≤ cur
          · left; right; omega
          · right; omega
      · rintro ((h | h) | h)
        · exact .inl h
        · right; omega
        · right; omega
    · simp only; omega
  · refine ⟨_, _, rfl, ⟨?_, ?_, ?_, ?_, ?_, ?_⟩, ?_⟩
    · intro x hx
      rcases List.mem_append.1 hx with hx | hx
      · exact h1 x hx
      · simp only [List.mem_singleton] at hx; subst hx; exact h4
    · unfold Apart
      rw [List.pairwise_append]
      refine ⟨h2, List.pairwise_singleton _ _, ?_⟩
      intro x hx y hy
      simp only [List.mem_singleton] at hy
      subst hy
      exact h3 x hx
    · intro x hx
      simp only
      rcases List.mem_append.1 hx with hx | hx
      · have := h3 x hx; omega
      · simp only [List.mem_singleton] at hx; subst hx; simp only; omega
    · simp only; omega
    · simp only; omega
    · intro n
      rw [covers_append, covers_append, covers_cons, covers_cons, ← h6 n]
      simp only [covers_nil, or_false]
      rw [show min a b = a by omega, show max a b = b by omega]
    · simp only; omega

theorem mergeFold (rows : List (ℕ × ℕ)) : ∀ (out : List (ℕ × ℕ)) (r : Run) (done : List (ℕ × ℕ)), MergeInv out r done → FullRanges rows →
    rows.Pairwise (fun a b => a.1 ≤ b.1) → (∀ x ∈ rows, r.lo ≤ x.1) →
    ∃ out' r', rows.foldl mergeStep (out, some r) = (out', some r') ∧ MergeInv out' r' (done ++ rows) := by
  induction rows with
  | nil => intro out r done h _ _ _; exact ⟨out, r, rfl, by simpa using h⟩
  | cons row rows ih =>
    intro out r done h hf hs hlo
    rw [List.pairwise_cons] at hs
    obtain ⟨out1, r1, e1, i1, l1⟩ := mergeStep_inv h row (hf row List.mem_cons_self) (hlo row List.mem_cons_self)
    obtain ⟨out2, r2, e2, i2⟩ := ih out1 r1 _ i1 (fun x hx => hf x (List.mem_cons_of_mem _ hx)) hs.2
      (fun x hx => le_trans l1 (hs.1 x hx))
    refine ⟨out2, r2, by rw [List.foldl_cons, e1, e2], ?_⟩
    simpa using i2

/-- C137. Merging ranges keeps the numbers, and gives ranges that rise and do not touch. -/
theorem C137_merge (l : List (ℕ × ℕ)) (hl : FullRanges l) : (∀ n, InRanges (mergeBounds l) n ↔ InRanges l n) ∧ FullRanges (mergeBounds l) ∧ Apart (mergeBounds l) := by
  have hperm : (l.insertionSort (fun a b => a.1 ≤ b.1)).Perm l := List.perm_insertionSort _ _
  have hsort : (l.insertionSort (fun a b : ℕ × ℕ => a.1 ≤ b.1)).Pairwise (fun a b => a.1 ≤ b.1) := by
    haveI : Std.Total (fun a b : ℕ × ℕ => a.1 ≤ b.1) := ⟨fun a b => le_total _ _⟩
    haveI : IsTrans (ℕ × ℕ) (fun a b => a.1 ≤ b.1) := ⟨fun a b c => le_trans⟩
    exact List.pairwise_insertionSort _ l
  have hfill : FullRanges (l.insertionSort (fun a b => a.1 ≤ b.1)) := fun r hr => hl r (hperm.mem_iff.1 hr)
  have hcov := covers_perm hperm
  unfold mergeBounds
  generalize l.insertionSort (fun a b => a.1 ≤ b.1) = s at *
  cases s with
  | nil =>
    simp only [List.foldl_nil]
    refine ⟨hcov, ?_, ?_⟩
    · intro r hr; simp at hr
    · exact List.Pairwise.nil
  | cons row rows =>
    rw [List.pairwise_cons] at hsort
    have hr := hfill row List.mem_cons_self
    have hinv : MergeInv [] ⟨min row.1 row.2, max row.1 row.2, row.2⟩ [row] := by
      refine ⟨?_, List.Pairwise.nil, ?_, ?_, ?_, ?_⟩
      · intro r hr; simp at hr
      · intro r hr; simp at hr
      · simp only; omega
      · simp only; omega
      · intro n
        rw [covers_cons]
        simp only [covers_nil, or_false, false_or]
        omega
    obtain ⟨out, r, e, h1, h2, h3, h4, h5, h6⟩ := mergeFold rows [] _ [row] hinv (fun x hx => hfill x (List.mem_cons_of_mem _ hx)) hsort.2
      (fun x hx => by have := hsort.1 x hx; simp only; omega)
    have e' : (row :: rows).foldl mergeStep ([], none) = (out, some r) := e
    simp only [e']
    refine ⟨?_, ?_, ?_⟩
    · intro n
      rw [← hcov n, covers_append, covers_cons]
      simp only [covers_nil, or_false]
      exact h6 n
    · intro x hx
      rcases List.mem_append.1 hx with hx | hx
      · exact h1 x hx
      · simp only [List.mem_singleton] at hx; subst hx; exact h4
    · unfold Apart
      rw [List.pairwise_append]
      refine ⟨h2, List.pairwise_singleton _ _, ?_⟩
      intro x hx y hy
      simp only [List.mem_singleton] at hy
      subst hy
      exact h3 x hx

/-- Ranges that rise and do not touch are determined by their numbers. -/
theorem C137_unique (a b : List (ℕ × ℕ)) (ha : FullRanges a) (hb : FullRanges b) (ha' : Apart a) (hb' : Apart b) (h : ∀ n, InRanges a n ↔ InRanges b n) : a = b := by
  induction a generalizing b with
  | nil =>
    cases b with
    | nil => rfl
    | cons r b => exact absurd ((h r.1).2 ⟨r, List.mem_cons_self, le_rfl, hb r List.mem_cons_self⟩) (covers_nil _)
  | cons r a ih =>
    cases b with
    | nil => exact absurd ((h r.1).1 ⟨r, List.mem_cons_self, le_rfl, ha r List.mem_cons_self⟩) (covers_nil _)
    | cons q b =>
      unfold Apart at ha' hb'
      rw [List.pairwise_cons] at ha' hb'
      have hr := ha r List.mem_cons_self
      have hq := hb q List.mem_cons_self
      have hra : ∀ n, InRanges a n → r.2 + 1 < n := by
        rintro n ⟨x, hx, h1, h2⟩
        have := ha'.1 x hx
        omega
      have hqb : ∀ n, InRanges b n → q.2 + 1 < n := by
        rintro n ⟨x, hx, h1, h2⟩
        have := hb'.1 x hx
        omega
      have hh : ∀ n, ((r.1 ≤ n ∧ n ≤ r.2) ∨ InRanges a n) ↔ ((q.1 ≤ n ∧ n ≤ q.2) ∨ InRanges b n) := by
        intro n
        rw [← covers_cons, ← covers_cons]
        exact h n
      have e1 : r.1 = q.1 := by
        have x1 := (hh r.1).1 (.inl ⟨le_rfl, hr⟩)
        have x2 := (hh q.1).2 (.inl ⟨le_rfl, hq⟩)
        have y1 : q.1 ≤ r.1 := by
          rcases x1 with x | x
          · exact x.1
          · have := hqb _ x; omega
        have y2 : r.1 ≤ q.1 := by
          rcases x2 with x | x
          · exact x.1
          · have := hra _ x; omega
        omega
      have e2 : r.2 = q.2 := by
        by_contra hne
        rcases Nat.lt_or_ge r.2 q.2 with hlt | hge
        · have := (hh (r.2 + 1)).2 (.inl ⟨by omega, by omega⟩)
          rcases this with x | x
          · omega
          · have := hra _ x; omega
        · have := (hh (q.2 + 1)).1 (.inl ⟨by omega, by omega⟩)
          rcases this with x | x
          · omega
          · have := hqb _ x; omega
      have e : r = q := Prod.ext e1 e2
      subst e
      congr 1
      refine ih b (fun x hx => ha x (List.mem_cons_of_mem _ hx)) (fun x hx => hb x (List.mem_cons_of_mem _ hx)) ha'.2 hb'.2 ?_
      intro n
      constructor
      · intro hn
        rcases (hh n).1 (.inr hn) with x | x
        · have := hra _ hn; omega
        · exact x
      · intro hn
        rcases (hh n).2 (.inr hn) with x | x
        · have := hqb _ hn; omega
        · exact x

/-- C137. The order of the ranges given, and how they are cut, have no influence. -/
theorem C137_order (a b : List (ℕ × ℕ)) (ha : FullRanges a) (hb : FullRanges b) (h : ∀ n, InRanges a n ↔ InRanges b n) : mergeBounds a = mergeBounds b := by
  obtain ⟨a1, a2, a3⟩ := C137_merge a ha
  obtain ⟨b1, b2, b3⟩ := C137_merge b hb
  exact C137_unique _ _ a2 b2 a3 b3 (fun n => by rw [a1, b1, h])

/-- The loop over two lists gives the numbers in both. -/
theorem joinLoop_spec (a b : List (ℕ × ℕ)) (ha : FullRanges a) (hb : FullRanges b) (ha' : a.Pairwise (fun x y => x.2 < y.1)) (hb' : b.Pairwise (fun x y => x.2 < y.1)) :
    FullRanges (joinLoop a b) ∧ ∀ n, InRanges (joinLoop a b) n ↔ InRanges a n ∧ InRanges b n := by
  induction hk : a.length + b.length generalizing a b with
  | zero =>
    have : a = [] := List.length_eq_zero_iff.1 (by omega)
    subst this
    rw [joinLoop]
    · exact ⟨fun r hr => by simp at hr, fun n => by simp [covers_nil]⟩
    · simp
  | succ k ih =>
    cases a with
    | nil =>
      rw [joinLoop]
      · exact ⟨fun r hr => by simp at hr, fun n => by simp [covers_nil]⟩
      · simp
    | cons r a =>
      cases b with
      | nil =>
        rw [joinLoop]
        · exact ⟨fun r hr => by simp at hr, fun n => by simp [covers_nil]⟩
        · simp
      | cons q b =>
        have fa : FullRanges a := fun x hx => ha x (List.mem_cons_of_mem _ hx)
        have fb : FullRanges b := fun x hx => hb x (List.mem_cons_of_mem _ hx)
        have hr := ha r List.mem_cons_self
        have hq := hb q List.mem_cons_self
        have pa := List.pairwise_cons.1 ha'
        have pb := List.pairwise_cons.1 hb'
        have hra : ∀ n, InRanges a n → r.2 < n := by
          rintro n ⟨x, hx, h1, h2⟩
          have := pa.1 x hx
          omega
        have hqb : ∀ n, InRanges b n → q.2 < n := by
          rintro n ⟨x, hx, h1, h2⟩
          have := pb.1 x hx
          omega
        simp only [List.length_cons] at hk
        obtain ⟨fL, cL⟩ := ih (r :: a) b ha fb ha' pb.2 (by simp only [List.length_cons]; omega)
        obtain ⟨fR, cR⟩ := ih a (q :: b) fa hb pa.2 hb' (by simp only [List.length_cons]; omega)
        rw [joinLoop]
        split_ifs with h1 h2 h3 h4 h5
        · refine ⟨?_, ?_⟩
          · intro x hx
            rcases List.mem_cons.1 hx with rfl | hx
            · exact hq
            · exact fL x hx
          · intro n
            rw [covers_cons, cL, covers_cons q, covers_cons r]
            constructor
            · rintro (h | ⟨h, h'⟩)
              · exact ⟨.inl (by omega), .inl h⟩
              · exact ⟨h, .inr h'⟩
            · rintro ⟨h, h' | h'⟩
              · exact .inl h'
              · exact .inr ⟨h, h'⟩
        · refine ⟨?_, ?_⟩
          · intro x hx
            rcases List.mem_cons.1 hx with rfl | hx
            · exact hr
            · exact fR x hx
          · intro n
            rw [covers_cons, cR, covers_cons q, covers_cons r]
            constructor
            · rintro (h | ⟨h, h'⟩)
              · exact ⟨.inl h, .inl (by omega)⟩
              · exact ⟨.inr h, h'⟩
            · rintro ⟨h | h, h'⟩
              · exact .inl h
              · exact .inr ⟨h, h'⟩
        · refine ⟨?_, ?_⟩
          · intro x hx
            rcases List.mem_append.1 hx with hx | hx
            · simp only [List.mem_singleton] at hx; subst hx; exact h3
            · exact fR x hx
          · intro n
            rw [covers_append, cR, covers_cons, covers_cons q, covers_cons r]
            simp only [covers_nil, or_false]
            constructor
            · rintro (h | ⟨h, h'⟩)
              · exact ⟨.inl (by omega), .inl (by omega)⟩
              · exact ⟨.inr h, h'⟩
            · rintro ⟨h | h, h'⟩
              · rcases h' with h' | h'
                · left; omega
                · have := hqb n h'; omega
              · exact .inr ⟨h, h'⟩
        · refine ⟨?_, ?_⟩
          · intro x hx
            rcases List.mem_append.1 hx with hx | hx
            · simp only [List.mem_singleton] at hx; subst hx; exact h3
            · exact fL x hx
          · intro n
            rw [covers_append, cL, covers_cons, covers_cons q, covers_cons r]
            simp only [covers_nil, or_false]
            constructor
            · rintro (h | ⟨h, h'⟩)
              · exact ⟨.inl (by omega), .inl (by omega)⟩
              · exact ⟨h, .inr h'⟩
            · rintro ⟨h, h' | h'⟩
              · rcases h with h | h
                · left; omega
                · have := hra n h; omega
              · exact .inr ⟨h, h'⟩
        · refine ⟨by simpa using fR, ?_⟩
          intro n
          rw [List.nil_append, cR, covers_cons q, covers_cons r]
          constructor
          · rintro ⟨h, h'⟩
            exact ⟨.inr h, h'⟩
          · rintro ⟨h | h, h'⟩
            · rcases h' with h' | h'
              · omega
              · have := hqb n h'; omega
            · exact ⟨h, h'⟩
        · refine ⟨by simpa using fL, ?_⟩
          intro n
          rw [List.nil_append, cL, covers_cons q, covers_cons r]
          constructor
          · rintro ⟨h, h'⟩
            exact ⟨h, .inr h'⟩
          · rintro ⟨h, h' | h'⟩
            · rcases h with h | h
              · omega
              · have := hra n h; omega
            · exact ⟨h, h'⟩

theorem merge_nil {l : List (ℕ × ℕ)} (hl : FullRanges l) : mergeBounds l = [] ↔ l = [] := by
  constructor
  · intro h
    cases l with
    | nil => rfl
    | cons r l =>
      have := ((C137_merge _ hl).1 r.1).2 ⟨r, List.mem_cons_self, le_rfl, hl r List.mem_cons_self⟩
      rw [h] at this
      exact absurd this (covers_nil _)
  · rintro rfl
    simp [mergeBounds]

theorem first_le {l : List (ℕ × ℕ)} (h' : Apart l) (h : FullRanges l) {f : ℕ × ℕ} (hf : l.head? = some f) {n : ℕ} (hn : InRanges l n) : f.1 ≤ n := by
  cases l with
  | nil => simp at hf
  | cons r l =>
    simp only [List.head?_cons, Option.some.injEq] at hf
    subst hf
    unfold Apart at h'
    rw [List.pairwise_cons] at h'
    have := h r List.mem_cons_self
    obtain ⟨x, hx, h1, h2⟩ := hn
    rcases List.mem_cons.1 hx with rfl | hx
    · exact h1
    · have := h'.1 x hx; omega

theorem le_last {l : List (ℕ × ℕ)} (h' : Apart l) (h : FullRanges l) {f : ℕ × ℕ} (hf : l.getLast? = some f) {n : ℕ} (hn : InRanges l n) : n ≤ f.2 := by
  obtain ⟨l', rfl⟩ : ∃ l', l = l' ++ [f] := List.getLast?_eq_some_iff.1 hf
  unfold Apart at h'
  rw [List.pairwise_append] at h'
  have := h f (by simp)
  obtain ⟨x, hx, h1, h2⟩ := hn
  rcases List.mem_append.1 hx with hx | hx
  · have := h'.2.2 x hx f (by simp); omega
  · simp only [List.mem_singleton] at hx; subst hx; exact h2

/-- C137 in part. Joining two lists that are not empty gives the numbers in both, in ranges that rise and do not touch. -/
theorem C137_join_partial (a b : List (ℕ × ℕ)) (ha : FullRanges a) (hb : FullRanges b) (na : a ≠ []) (nb : b ≠ []) :
    ∃ l, joinBounds a b = some l ∧ (∀ n, InRanges l n ↔ InRanges a n ∧ InRanges b n) ∧ FullRanges l ∧ Apart l := by
  obtain ⟨a1, a2, a3⟩ := C137_merge a ha
  obtain ⟨b1, b2, b3⟩ := C137_merge b hb
  have ma : mergeBounds a ≠ [] := fun h => na ((merge_nil ha).1 h)
  have mb : mergeBounds b ≠ [] := fun h => nb ((merge_nil hb).1 h)
  unfold joinBounds
  simp only
  simp only [← a1, ← b1]
  generalize mergeBounds a = m1 at *
  generalize mergeBounds b = m2 at *
  obtain ⟨f1, hf1⟩ : ∃ f, m1.head? = some f := by cases m1 with | nil => exact absurd rfl ma | cons r l => exact ⟨r, rfl⟩
  obtain ⟨f2, hf2⟩ : ∃ f, m2.head? = some f := by cases m2 with | nil => exact absurd rfl mb | cons r l => exact ⟨r, rfl⟩
  obtain ⟨l1, hl1⟩ : ∃ f, m1.getLast? = some f := by
    cases e : m1.getLast? with
    | none => exact absurd (List.getLast?_eq_none_iff.1 e) ma
    | some f => exact ⟨f, rfl⟩
  obtain ⟨l2, hl2⟩ : ∃ f, m2.getLast? = some f := by
    cases e : m2.getLast? with
    | none => exact absurd (List.getLast?_eq_none_iff.1 e) mb
    | some f => exact ⟨f, rfl⟩
  rw [hf1, hf2, hl1, hl2]
  simp only
  have hkeep : ∀ n, InRanges m1 n → InRanges m2 n → max f1.1 f2.1 ≤ n ∧ n ≤ min l1.2 l2.2 := by
    intro n h1 h2
    have := first_le a3 a2 hf1 h1
    have := first_le b3 b2 hf2 h2
    have := le_last a3 a2 hl1 h1
    have := le_last b3 b2 hl2 h2
    omega
  have hfilt : ∀ (m : List (ℕ × ℕ)) (n lo hi : ℕ), lo ≤ n → n ≤ hi → (InRanges (m.filter (fun r => decide (r.1 ≤ hi) && decide (lo ≤ r.2))) n ↔ InRanges m n) := by
    intro m n lo hi h1 h2
    constructor
    · rintro ⟨r, hr, h⟩
      exact ⟨r, (List.mem_filter.1 hr).1, h⟩
    · rintro ⟨r, hr, h3, h4⟩
      refine ⟨r, List.mem_filter.2 ⟨hr, ?_⟩, h3, h4⟩
      simp
      omega
  have hsub : ∀ (m : List (ℕ × ℕ)) (n lo hi : ℕ), InRanges (m.filter (fun r => decide (r.1 ≤ hi) && decide (lo ≤ r.2))) n → InRanges m n := by
    rintro m n lo hi ⟨r, hr, h⟩
    exact ⟨r, (List.mem_filter.1 hr).1, h⟩
  have hcov : ∀ n, (InRanges (m1.filter (fun r => decide (r.1 ≤ min l1.2 l2.2) && decide (max f1.1 f2.1 ≤ r.2))) n ∧
      InRanges (m2.filter (fun r => decide (r.1 ≤ min l1.2 l2.2) && decide (max f1.1 f2.1 ≤ r.2))) n) ↔ InRanges m1 n ∧ InRanges m2 n := by
    intro n
    constructor
    · rintro ⟨h1, h2⟩
      exact ⟨hsub _ _ _ _ h1, hsub _ _ _ _ h2⟩
    · rintro ⟨h1, h2⟩
      obtain ⟨g1, g2⟩ := hkeep n h1 h2
      exact ⟨(hfilt m1 n _ _ g1 g2).2 h1, (hfilt m2 n _ _ g1 g2).2 h2⟩
  have k1f : FullRanges (m1.filter (fun r => decide (r.1 ≤ min l1.2 l2.2) && decide (max f1.1 f2.1 ≤ r.2))) := fun r hr => a2 r (List.mem_filter.1 hr).1
  have k2f : FullRanges (m2.filter (fun r => decide (r.1 ≤ min l1.2 l2.2) && decide (max f1.1 f2.1 ≤ r.2))) := fun r hr => b2 r (List.mem_filter.1 hr).1
  have k1p : (m1.filter (fun r => decide (r.1 ≤ min l1.2 l2.2) && decide (max f1.1 f2.1 ≤ r.2))).Pairwise (fun x y => x.2 < y.1) :=
    (List.Pairwise.filter _ a3).imp (fun {x y} h => by omega)
  have k2p : (m2.filter (fun r => decide (r.1 ≤ min l1.2 l2.2) && decide (max f1.1 f2.1 ≤ r.2))).Pairwise (fun x y => x.2 < y.1) :=
    (List.Pairwise.filter _ b3).imp (fun {x y} h => by omega)
  generalize m1.filter (fun r => decide (r.1 ≤ min l1.2 l2.2) && decide (max f1.1 f2.1 ≤ r.2)) = k1 at *
  generalize m2.filter (fun r => decide (r.1 ≤ min l1.2 l2.2) && decide (max f1.1 f2.1 ≤ r.2)) = k2 at *
  split_ifs with he
  · refine ⟨_, rfl, ?_, fun r hr => by simp at hr, List.Pairwise.nil⟩
    intro n
    rw [← hcov n]
    rcases he with rfl | rfl <;> simp [covers_nil]
  · obtain ⟨j1, j2⟩ := joinLoop_spec k1 k2 k1f k2f k1p k2p
    obtain ⟨c1, c2, c3⟩ := C137_merge _ j1
    exact ⟨_, rfl, fun n => by rw [c1, j2, hcov], c2, c3⟩

/-- C137, the case left out. Joining with an empty list, which an earlier join can give, raises. -/
theorem C137_empty_violated (a b : List (ℕ × ℕ)) (h : a = [] ∨ b = []) : joinBounds a b = none := by
  have h0 : mergeBounds [] = [] := by simp [mergeBounds]
  unfold joinBounds
  rcases h with rfl | rfl
  · rw [h0]; simp
  · rw [h0]; cases (mergeBounds a).head? <;> simp

example : mergeBounds [(40, 43), (32, 35), (36, 36), (33, 34)] = [(32, 36), (40, 43)] := by decide +kernel
example : joinBounds [(32, 40), (45, 50)] [(38, 46)] = some [(38, 40), (45, 46)] := by decide +kernel

end Verif
