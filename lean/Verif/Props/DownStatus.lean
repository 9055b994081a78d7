import Mathlib.Tactic.Linarith
import Verif.Model.DownStatus
import Verif.Props.Downtime

/-!
C193: what is said about downtimes is true of the tables.
-/

namespace Verif

open Stat

/-- Downtimes one after the other, none ending before it starts. -/
def Orderly (table : List Row) : Prop :=
  (∀ r ∈ table, r.start ≤ r.stop) ∧ table.Pairwise (fun a b => a.stop ≤ b.start)

/-- The telescope is down at a time because of this row. -/
def DownAt (r : Row) (t : ℚ) : Prop := r.start ≤ t ∧ t < r.stop

/-- The first of all scheduled starts after a time. -/
def FirstAfter (table : List Row) (t n : ℚ) : Prop :=
  (∃ r ∈ table, r.start = n) ∧ t < n ∧ ∀ r ∈ table, t < r.start → n ≤ r.start

theorem orderly_tail {r : Row} {l : List Row} (h : Orderly (r :: l)) : Orderly l :=
  ⟨fun x hx => h.1 x (List.mem_cons_of_mem _ hx), (List.pairwise_cons.1 h.2).2⟩

theorem after_nil (t : ℚ) : after [] t = 0 := rfl

theorem after_cons (a : ℚ) (l : List ℚ) (t : ℚ) : after (a :: l) t = if a ≤ t then after l t + 1 else 0 := by
  unfold after
  by_cases h : a ≤ t <;> simp [h]

theorem later_starts {r : Row} {l : List Row} (h : Orderly (r :: l)) : ∀ x ∈ l, r.stop ≤ x.start ∧ r.start ≤ x.start := by
  intro x hx
  have h1 := (List.pairwise_cons.1 h.2).1 x hx
  have h2 := h.1 r (by simp)
  exact ⟨h1, by linarith⟩

theorem after_zero {l : List Row} (f : Row → ℚ) {t : ℚ} (h : ∀ x ∈ l, t < f x) : after (l.map f) t = 0 := by
  cases l with
  | nil => rfl
  | cons r l =>
    rw [List.map_cons, after_cons, if_neg (not_le.2 (h r (by simp)))]

theorem future_spec {table : List Row} (h : Orderly table) (t : ℚ) :
    future table t = table.filter (fun r => decide (t < r.start)) := by
  unfold future
  induction table with
  | nil => rfl
  | cons r l ih =>
    rw [List.map_cons, after_cons]
    by_cases hr : r.start ≤ t
    · rw [if_pos hr, List.drop_succ_cons, ih (orderly_tail h), List.filter_cons_of_neg (by simpa using hr)]
    · rw [if_neg hr, List.drop_zero]
      rw [not_le] at hr
      rw [List.filter_eq_self.2]
      intro x hx
      rcases List.mem_cons.1 hx with rfl | hx
      · simpa using hr
      · have := (later_starts h x hx).2
        simp only [decide_eq_true_eq]; linarith

/-- C193, one table: the current downtime is the one that covers the time, there is none if no
downtime does, and the future ones are those that start later; nothing is raised. -/
theorem C193_current (table : List Row) (h : Orderly table) (t : ℚ) :
    future table t = table.filter (fun r => decide (t < r.start)) ∧
    ∃ c, current table t = some c ∧ ∀ r, c = some r ↔ r ∈ table ∧ DownAt r t := by
  refine ⟨future_spec h t, ?_⟩
  induction table with
  | nil => exact ⟨none, rfl, by simp⟩
  | cons r l ih =>
    obtain ⟨c, hc, hspec⟩ := ih (orderly_tail h)
    have hlt := h.1 r (by simp)
    have hlater := later_starts h
    unfold current at hc ⊢
    dsimp only at hc ⊢
    rw [List.map_cons, List.map_cons, after_cons, after_cons]
    by_cases h1 : r.stop ≤ t
    · -- over
      have h0 : r.start ≤ t := by linarith
      rw [if_pos h1, if_pos h0]
      simp only [Nat.add_lt_add_iff_right, List.getElem?_cons_succ]
      refine ⟨c, hc, fun x => ?_⟩
      rw [hspec x, List.mem_cons]
      constructor
      · rintro ⟨a, b⟩; exact ⟨.inr a, b⟩
      · rintro ⟨rfl | a, b⟩
        · exact absurd b.2 (by linarith)
        · exact ⟨a, b⟩
    · rw [not_le] at h1
      have hstarts : after (l.map Row.start) t = 0 := after_zero _ fun x hx => by have := (hlater x hx).1; linarith
      rw [if_neg (not_le.2 h1), hstarts]
      by_cases h2 : r.start ≤ t
      · rw [if_pos h2]
        refine ⟨some r, by simp, fun x => ?_⟩
        constructor
        · intro e
          cases e
          exact ⟨by simp, h2, h1⟩
        · rintro ⟨hx, b⟩
          rcases List.mem_cons.1 hx with rfl | hx
          · rfl
          · have := (hlater x hx).1
            exact absurd b.1 (by linarith)
      · rw [if_neg h2]
        refine ⟨none, by simp, fun x => ?_⟩
        simp only [reduceCtorEq, false_iff, not_and]
        intro hx b
        rcases List.mem_cons.1 hx with rfl | hx
        · exact h2 b.1
        · have := (hlater x hx).2
          exact h2 (by linarith [b.1])

/-- A short scheduled table. -/
def demoTable : List Row := [⟨10, 17, "general maintenance"⟩, ⟨100, 114, "recoat mirror"⟩]

example : Orderly demoTable ∧ current demoTable 12 = some (some ⟨10, 17, "general maintenance"⟩) ∧ current demoTable 17 = some none ∧
    future demoTable 10 = [⟨100, 114, "recoat mirror"⟩] := by
  refine ⟨⟨?_, ?_⟩, ?_, ?_, ?_⟩
  · intro r hr
    simp only [demoTable, List.mem_cons, List.not_mem_nil, or_false] at hr
    rcases hr with rfl | rfl <;> decide +kernel
  · decide +kernel
  · decide +kernel
  · decide +kernel
  · decide +kernel

theorem next_spec {table : List Row} (h : Orderly table) (t : ℚ) :
    match table[after (table.map Row.start) t]? with
    | some n => FirstAfter table t n.start
    | none => ∀ r ∈ table, r.start ≤ t := by
  have e := future_spec h t
  unfold future at e
  cases hn : table[after (table.map Row.start) t]? with
  | none =>
    dsimp only
    rw [List.getElem?_eq_none_iff] at hn
    rw [List.drop_of_length_le hn] at e
    intro r hr
    by_contra hc
    have : r ∈ table.filter (fun r => decide (t < r.start)) := List.mem_filter.2 ⟨hr, by simpa using hc⟩
    rw [← e] at this
    simp at this
  | some n =>
    dsimp only
    obtain ⟨hlt, hget⟩ := List.getElem?_eq_some_iff.1 hn
    have hd : table.drop (after (table.map Row.start) t) = n :: table.drop (after (table.map Row.start) t + 1) := by
      rw [List.drop_eq_getElem_cons hlt, hget]
    have hmem : n ∈ table.filter (fun r => decide (t < r.start)) := by rw [← e, hd]; simp
    obtain ⟨m1, m2⟩ := List.mem_filter.1 hmem
    refine ⟨⟨n, m1, rfl⟩, by simpa using m2, fun r hr hlt2 => ?_⟩
    have hr' : r ∈ table.filter (fun r => decide (t < r.start)) := List.mem_filter.2 ⟨hr, by simpa using hlt2⟩
    rw [← e, hd] at hr'
    rcases List.mem_cons.1 hr' with rfl | hr'
    · exact le_rfl
    · have hp : (table.drop (after (table.map Row.start) t)).Pairwise (fun a b => a.stop ≤ b.start) := h.2.sublist (List.drop_sublist _ _)
      rw [hd, List.pairwise_cons] at hp
      have := hp.1 r hr'
      have := h.1 n m1
      linarith

/-- C193, in part: while a scheduled downtime is still to come, the telescope is said to be
down exactly when a downtime of either table covers the time; the end said is the last of the
ends of these, and the next downtime the first scheduled one that starts later. -/
theorem C193_report_partial (sched unsched : List Row) (hs : Orderly sched) (hu : Orderly unsched) (t : ℚ)
    (hnext : ∃ r ∈ sched, t < r.start) :
    ∃ R, report sched unsched t = some R ∧
      (R.status = true ↔ ∃ r ∈ sched ++ unsched, DownAt r t) ∧
      (R.status = false → R.stop = none) ∧
      (R.status = true → ∃ r ∈ sched ++ unsched, DownAt r t ∧ R.stop = some r.stop ∧ ∀ q ∈ sched ++ unsched, DownAt q t → q.stop ≤ r.stop) ∧
      FirstAfter sched t R.next := by
  obtain ⟨-, s, hs1, hs2⟩ := C193_current sched hs t
  obtain ⟨-, u, hu1, hu2⟩ := C193_current unsched hu t
  have hn := next_spec hs t
  unfold report
  rw [hs1, hu1]
  cases hg : sched[after (sched.map Row.start) t]? with
  | none =>
    rw [hg] at hn
    obtain ⟨r, hr, hlt⟩ := hnext
    exact absurd (hn r hr) (not_le.2 hlt)
  | some n =>
    rw [hg] at hn
    refine ⟨_, rfl, ?_, ?_, ?_, hn⟩
    · rw [Bool.or_eq_true, Option.isSome_iff_exists, Option.isSome_iff_exists]
      constructor
      · rintro (⟨r, rfl⟩ | ⟨r, rfl⟩)
        · obtain ⟨a, b⟩ := (hs2 r).1 rfl
          exact ⟨r, List.mem_append_left _ a, b⟩
        · obtain ⟨a, b⟩ := (hu2 r).1 rfl
          exact ⟨r, List.mem_append_right _ a, b⟩
      · rintro ⟨r, hr, b⟩
        rcases List.mem_append.1 hr with hr | hr
        · exact .inl ⟨r, (hs2 r).2 ⟨hr, b⟩⟩
        · exact .inr ⟨r, (hu2 r).2 ⟨hr, b⟩⟩
    · intro hst
      simp only [Bool.or_eq_false_iff, Option.isSome_eq_false_iff, Option.isNone_iff_eq_none] at hst
      rw [hst.1, hst.2]; rfl
    · intro hst
      have cov : ∀ q ∈ sched ++ unsched, DownAt q t → s = some q ∨ u = some q := by
        intro q hq b
        rcases List.mem_append.1 hq with hq | hq
        · exact .inl ((hs2 q).2 ⟨hq, b⟩)
        · exact .inr ((hu2 q).2 ⟨hq, b⟩)
      cases s with
      | none =>
        cases u with
        | none => simp at hst
        | some u =>
          obtain ⟨a, b⟩ := (hu2 u).1 rfl
          refine ⟨u, List.mem_append_right _ a, b, rfl, fun q hq c => ?_⟩
          rcases cov q hq c with e | e <;> cases e
          exact le_rfl
      | some s =>
        obtain ⟨a, b⟩ := (hs2 s).1 rfl
        cases u with
        | none =>
          refine ⟨s, List.mem_append_left _ a, b, rfl, fun q hq c => ?_⟩
          rcases cov q hq c with e | e <;> cases e
          exact le_rfl
        | some u =>
          obtain ⟨a', b'⟩ := (hu2 u).1 rfl
          rcases le_total s.stop u.stop with hle | hle
          · refine ⟨u, List.mem_append_right _ a', b', by simp [endOf, hle], fun q hq c => ?_⟩
            rcases cov q hq c with e | e <;> cases e
            · exact hle
            · exact le_rfl
          · refine ⟨s, List.mem_append_left _ a, b, by simp [endOf, hle], fun q hq c => ?_⟩
            rcases cov q hq c with e | e <;> cases e
            · exact le_rfl
            · exact hle

example : report demoTable [⟨16, 19, "minor event"⟩] (33 / 2) = some ⟨true, some 19, 100⟩ ∧
    report demoTable [⟨16, 19, "minor event"⟩] 19 = some ⟨false, none, 100⟩ := by
  decide +kernel

/-- C193 is violated once the last scheduled downtime has started: whatever the tables say, the
call raises. -/
theorem C193_last_violated (sched unsched : List Row) (hs : Orderly sched) (t : ℚ) (h : ∀ r ∈ sched, r.start ≤ t) :
    report sched unsched t = none := by
  have hn := next_spec hs t
  unfold report
  cases hg : sched[after (sched.map Row.start) t]? with
  | none => cases current sched t <;> rfl
  | some n =>
    rw [hg] at hn
    obtain ⟨⟨r, hr, e⟩, hlt, -⟩ := hn
    have := h r hr
    exact absurd (e ▸ hlt) (not_lt.2 this)

example : Orderly demoTable ∧ (∀ r ∈ demoTable, r.start ≤ 200) ∧ report demoTable [] 200 = none := by
  refine ⟨⟨by decide +kernel, by decide +kernel⟩, by decide +kernel, by decide +kernel⟩

/-- C193 is violated by the end said: another downtime may go on. -/
theorem C193_end_violated : ∃ (sched unsched : List Row) (t e : ℚ) (n : ℚ), Orderly sched ∧ Orderly unsched ∧
    report sched unsched t = some ⟨true, some e, n⟩ ∧ ∃ r ∈ sched ++ unsched, DownAt r e :=
  ⟨demoTable, [⟨16, 17, "minor event"⟩, ⟨17, 20, "intermediate event"⟩], 12, 17, 100,
    ⟨by decide +kernel, by decide +kernel⟩, ⟨by decide +kernel, by decide +kernel⟩, by decide +kernel,
    ⟨17, 20, "intermediate event"⟩, by decide +kernel, by unfold DownAt; decide +kernel⟩

/-- C193: the tables the report is made from are of this kind: the random downtimes always, and
the scheduled ones if the nights in the database are in order and apart. Their total is the
number of nights in the database. -/
theorem C193_tables (cl : Down.Classes) (night0 : ℚ) (n : ℕ) (rng : Down.Rng) (act : Down.Iv → String)
    (rows : List (ℤ × ℤ × String)) :
    Orderly ((Down.makeData cl night0 n 0 rng).map (fun d => ⟨d.1, d.2, act d⟩)) ∧
    (((∀ r ∈ rows, 0 ≤ r.2.1) ∧ rows.Pairwise (fun a b => a.1 + a.2.1 ≤ b.1)) → Orderly (readData night0 rows)) ∧
    total (readData night0 rows) = ((rows.map (fun r => r.2.1)).sum : ℤ) := by
  refine ⟨?_, ?_, ?_⟩
  · obtain ⟨-, h1, h2, -⟩ := C26_ordered_partial cl night0 n rng
    refine ⟨?_, ?_⟩
    · intro r hr
      obtain ⟨x, hx, rfl⟩ := List.mem_map.1 hr
      exact h1 x hx
    · rw [List.pairwise_map]
      refine h2.imp ?_
      intro a b hab
      dsimp only; linarith
  · rintro ⟨h1, h2⟩
    refine ⟨?_, ?_⟩
    · intro r hr
      obtain ⟨x, hx, rfl⟩ := List.mem_map.1 hr
      have : (0 : ℚ) ≤ x.2.1 := by exact_mod_cast h1 x hx
      dsimp only; linarith
    · unfold readData
      rw [List.pairwise_map]
      refine h2.imp ?_
      intro a b hab
      have : (a.1 : ℚ) + a.2.1 ≤ b.1 := by exact_mod_cast hab
      dsimp only; linarith
  · unfold total readData
    rw [List.map_map]
    have : ∀ (l : List (ℤ × ℤ × String)) (acc : ℚ), (l.map ((fun r : Row => r.stop - r.start) ∘ fun r => ⟨night0 + r.1, night0 + r.1 + r.2.1, r.2.2⟩)).foldl (· + ·) acc
        = acc + ((l.map (fun r => r.2.1)).sum : ℤ) := by
      intro l
      induction l with
      | nil => intro acc; simp
      | cons r l ih =>
        intro acc
        rw [List.map_cons, List.foldl_cons, ih]
        simp only [Function.comp, List.map_cons, List.sum_cons, Int.cast_add]
        ring
    rw [this, zero_add]

end Verif
