import Verif.Model.Altitudes
import Mathlib.Tactic.Linarith
import Mathlib.Tactic.FieldSimp
import Mathlib.Tactic.Ring
import Mathlib.Data.List.Perm.Subperm
import Mathlib.Algebra.Order.Field.Basic
import Mathlib.Algebra.Order.Field.Rat

/-!
# Passages of an altitude and the table of nights (C145, C146)
-/

namespace Verif

open Alt

/-! ### Passages -/

theorem length_le_max {l : List ℕ} {m : ℕ} (hn : l.Nodup) (hm : ∀ x ∈ l, x ≤ m) : l.length ≤ m + 1 := by
  have hsub : l ⊆ List.range (m + 1) := fun x hx => List.mem_range.2 (Nat.lt_succ_of_le (hm x hx))
  simpa using (hn.subperm hsub).length_le

theorem before_nodup (alts : List ℚ) (goal : ℚ) (rising : Bool) : (Alt.before alts goal rising).Nodup := List.nodup_range.filter _

theorem before_sorted (alts : List ℚ) (goal : ℚ) (rising : Bool) : (Alt.before alts goal rising).Pairwise (· < ·) :=
  List.pairwise_lt_range.filter _

theorem dropLast?_eq {l : List ℕ} (hn : l.Nodup) : dropLast? l = if l = [] then none else some l.dropLast := by
  unfold dropLast?
  cases h : l.max? with
  | none =>
    rw [List.max?_eq_none_iff] at h
    rw [if_pos h]
  | some m =>
    obtain ⟨h1, h2⟩ := (List.max?_eq_some_iff).1 h
    have hne : l ≠ [] := List.ne_nil_of_mem h1
    simp only
    rw [if_neg hne, if_pos]
    exact Or.inr (length_le_max hn (fun x hx => h2 x hx))

/-- The straight line through two samples is at the goal at `t`, between the two. -/
def PassesAt (times alts : List ℚ) (goal : ℚ) (rising : Bool) (i : ℕ) (t : ℚ) : Prop :=
  ∃ a b t0 t1, alts[i]? = some a ∧ alts[i + 1]? = some b ∧ times[i]? = some t0 ∧ times[i + 1]? = some t1 ∧ t0 < t ∧ t < t1 ∧
    a + (b - a) * ((t - t0) / (t1 - t0)) = goal ∧ (if rising then a < goal ∧ goal < b else b < goal ∧ goal < a)

theorem passTime_spec {times alts : List ℚ} {goal : ℚ} {rising : Bool} {i : ℕ} (hl : times.length = alts.length) (hs : times.Pairwise (· < ·))
    (hp : passes alts goal rising i = true) (hi : i + 1 < alts.length) :
    ∃ t, passTime times alts goal rising i = some t ∧ PassesAt times alts goal rising i t := by
  have ha : alts[i]? = some alts[i] := List.getElem?_eq_getElem (by omega)
  have hb : alts[i + 1]? = some alts[i + 1] := List.getElem?_eq_getElem hi
  have ht : times[i]? = some times[i] := List.getElem?_eq_getElem (by omega)
  have hu : times[i + 1]? = some times[i + 1] := List.getElem?_eq_getElem (by omega)
  have htu : times[i] < times[i + 1] := List.pairwise_iff_getElem.1 hs i (i + 1) (by omega) (by omega) (by omega)
  set a := alts[i]
  set b := alts[i + 1]
  set t := times[i]'(by omega)
  set u := times[i + 1]'(by omega)
  unfold passes rollNext at hp
  rw [if_pos hi, ha, hb] at hp
  simp only at hp
  cases rising with
  | true =>
    simp only [if_true, Bool.and_eq_true, decide_eq_true_eq] at hp
    refine ⟨linInterp goal b a u t, by unfold passTime; rw [ha, hb, ht, hu]; rfl, a, b, t, u, ha, hb, ht, hu, ?_⟩
    obtain ⟨p1, p2⟩ := hp
    have hba : 0 < b - a := by linarith
    have e : linInterp goal b a u t = t + (u - t) * ((goal - a) / (b - a)) := by
      unfold linInterp
      have : a - b ≠ 0 := by linarith
      have : b - a ≠ 0 := by linarith
      field_simp
      ring
    rw [e]
    have f0 : 0 < (goal - a) / (b - a) := div_pos (by linarith) hba
    have f1 : (goal - a) / (b - a) < 1 := by rw [div_lt_one hba]; linarith
    have htu' : 0 < u - t := by linarith
    refine ⟨by nlinarith, by nlinarith, ?_, by simp [p1, p2]⟩
    have : u - t ≠ 0 := by linarith
    have : b - a ≠ 0 := by linarith
    field_simp
    ring
  | false =>
    simp only [Bool.false_eq_true, if_false, Bool.and_eq_true, decide_eq_true_eq] at hp
    refine ⟨linInterp goal a b t u, by unfold passTime; rw [ha, hb, ht, hu]; rfl, a, b, t, u, ha, hb, ht, hu, ?_⟩
    obtain ⟨p1, p2⟩ := hp
    have hba : 0 < a - b := by linarith
    have e : linInterp goal a b t u = t + (u - t) * ((a - goal) / (a - b)) := by
      unfold linInterp
      have : a - b ≠ 0 := by linarith
      have : b - a ≠ 0 := by linarith
      field_simp
      ring
    rw [e]
    have f0 : 0 < (a - goal) / (a - b) := div_pos (by linarith) hba
    have f1 : (a - goal) / (a - b) < 1 := by rw [div_lt_one hba]; linarith
    have htu' : 0 < u - t := by linarith
    refine ⟨by nlinarith, by nlinarith, ?_, by simp [p1, p2]⟩
    have : u - t ≠ 0 := by linarith
    have : a - b ≠ 0 := by linarith
    field_simp
    ring

theorem dropLast_lt {l : List ℕ} (hs : l.Pairwise (· < ·)) {n : ℕ} (hn : ∀ x ∈ l, x < n) {x : ℕ} (hx : x ∈ l.dropLast) : x + 1 < n := by
  have hne : l ≠ [] := by rintro rfl; simp at hx
  have e := List.dropLast_append_getLast hne
  have hlt : x < l.getLast hne := by
    rw [← e, List.pairwise_append] at hs
    exact hs.2.2 x hx _ (by simp)
  have := hn _ (List.getLast_mem hne)
  omega

theorem mapM_all {α β : Type} {f : α → Option β} {Q : α → β → Prop} : ∀ {l : List α}, (∀ x ∈ l, ∃ y, f x = some y ∧ Q x y) →
    ∃ ys, l.mapM f = some ys ∧ List.Forall₂ Q l ys := by
  intro l
  induction l with
  | nil => intro _; exact ⟨[], by simp⟩
  | cons x l ih =>
    intro h
    obtain ⟨y, hy, hq⟩ := h x List.mem_cons_self
    obtain ⟨ys, hys, hf⟩ := ih (fun z hz => h z (List.mem_cons_of_mem _ hz))
    refine ⟨y :: ys, ?_, List.Forall₂.cons hq hf⟩
    rw [List.mapM_cons, hy, hys]
    rfl

theorem passing_spec (times alts : List ℚ) (goal : ℚ) (rising : Bool) (hl : times.length = alts.length) (hs : times.Pairwise (· < ·)) :
    (Alt.before alts goal rising = [] → passing times alts goal rising = none) ∧
      (Alt.before alts goal rising ≠ [] → ∃ out, passing times alts goal rising = some out ∧
        List.Forall₂ (PassesAt times alts goal rising) (Alt.before alts goal rising).dropLast out) := by
  unfold passing
  rw [dropLast?_eq (before_nodup alts goal rising)]
  refine ⟨fun h => by rw [if_pos h]; rfl, fun h => ?_⟩
  rw [if_neg h, Option.bind_some]
  apply mapM_all
  intro i hi
  have hmem := (List.dropLast_sublist _).subset hi
  have hp := (List.mem_filter.1 hmem).2
  exact passTime_spec hl hs hp (dropLast_lt (before_sorted alts goal rising) (fun x hx => List.mem_range.1 (List.mem_filter.1 hx).1) hi)

/-- C145. Every time returned is between two neighbouring samples on the two sides of the altitude, and there the line through the two samples has the
altitude. -/
theorem C145_times (times alts : List ℚ) (goal : ℚ) (rising : Bool) (hl : times.length = alts.length) (hs : times.Pairwise (· < ·)) (out : List ℚ)
    (h : passing times alts goal rising = some out) : ∀ t ∈ out, ∃ i, PassesAt times alts goal rising i t := by
  obtain ⟨h1, h2⟩ := passing_spec times alts goal rising hl hs
  by_cases hb : Alt.before alts goal rising = []
  · rw [h1 hb] at h; simp at h
  · obtain ⟨o, e, hf⟩ := h2 hb
    rw [h, Option.some.injEq] at e
    subst e
    intro t ht
    obtain ⟨k, hk, rfl⟩ := List.getElem_of_mem ht
    have hlen := hf.length_eq
    exact ⟨_, (List.forall₂_iff_get.1 hf).2 k (by omega) hk⟩

/-- C145 in part. A passage between two neighbouring samples is found when there is one later on. Missing: the last passage of all. -/
theorem C145_all_partial (times alts : List ℚ) (goal : ℚ) (rising : Bool) (hl : times.length = alts.length) (hs : times.Pairwise (· < ·)) (i j : ℕ)
    (hij : i < j) (hj : j + 1 < alts.length)
    (hi : if rising then (∃ a b, alts[i]? = some a ∧ alts[i + 1]? = some b ∧ a < goal ∧ goal < b) else (∃ a b, alts[i]? = some a ∧ alts[i + 1]? = some b ∧ goal < a ∧ b < goal))
    (hj' : if rising then (∃ a b, alts[j]? = some a ∧ alts[j + 1]? = some b ∧ a < goal ∧ goal < b) else (∃ a b, alts[j]? = some a ∧ alts[j + 1]? = some b ∧ goal < a ∧ b < goal)) :
    ∃ out, passing times alts goal rising = some out ∧ ∃ t ∈ out, PassesAt times alts goal rising i t := by
  have hmem : ∀ k, k + 1 < alts.length →
      (if rising then (∃ a b, alts[k]? = some a ∧ alts[k + 1]? = some b ∧ a < goal ∧ goal < b) else (∃ a b, alts[k]? = some a ∧ alts[k + 1]? = some b ∧ goal < a ∧ b < goal)) →
      k ∈ Alt.before alts goal rising := by
    intro k hk hc
    refine List.mem_filter.2 ⟨List.mem_range.2 (by omega), ?_⟩
    unfold passes rollNext
    rw [if_pos hk]
    cases rising with
    | true =>
      obtain ⟨a, b, e1, e2, p⟩ := hc
      rw [e1, e2]
      simpa using p
    | false =>
      obtain ⟨a, b, e1, e2, p⟩ := hc
      rw [e1, e2]
      simpa using p
  have mi := hmem i (by omega) hi
  have mj := hmem j hj hj'
  obtain ⟨out, e, hf⟩ := (passing_spec times alts goal rising hl hs).2 (List.ne_nil_of_mem mi)
  refine ⟨out, e, ?_⟩
  have hmi : i ∈ (Alt.before alts goal rising).dropLast := by
    have hne : Alt.before alts goal rising ≠ [] := List.ne_nil_of_mem mi
    have e := List.dropLast_append_getLast hne
    have hsorted := before_sorted alts goal rising
    have hmem2 : i ∈ (Alt.before alts goal rising).dropLast ∨ i = (Alt.before alts goal rising).getLast hne := by
      rw [← e] at mi
      simpa using mi
    rcases hmem2 with h | h
    · exact h
    · exfalso
      have mj2 : j ∈ (Alt.before alts goal rising).dropLast ∨ j = (Alt.before alts goal rising).getLast hne := by
        rw [← e] at mj
        simpa using mj
      rcases mj2 with h2 | h2
      · rw [← e, List.pairwise_append] at hsorted
        have := hsorted.2.2 j h2 ((Alt.before alts goal rising).getLast hne) (List.mem_singleton.2 rfl)
        omega
      · omega
  obtain ⟨k, hk, rfl⟩ := List.getElem_of_mem hmi
  have hlen := hf.length_eq
  exact ⟨out[k]'(by omega), List.getElem_mem _, (List.forall₂_iff_get.1 hf).2 k hk (by omega)⟩

/-- C145 does not hold in full: the last passage is always left out, as its index is compared with the number of passages; a passage through a sample at the
altitude itself is not seen. -/
theorem C145_last_violated : passing [0, 1] [-1, 1] 0 true = some [] ∧ passing [0, 1, 2, 3] [-1, 1, -1, 1] 0 true = some [1 / 2] ∧
    passing [0, 1, 2, 3, 4] [-1, 0, 1, -1, 1] 0 true = some [] := by decide +kernel

example : [(0 : ℚ), 1, 2, 3].Pairwise (· < ·) ∧ passing [0, 1, 2, 3] [1, -1, 1, -1] 0 false = some [1 / 2] := by decide +kernel

end Verif
