import Verif.Model.ConsdbTable
import Mathlib.Tactic.NormNum
import Mathlib.Data.List.Nodup

/-! C217: the table of visits in the format of simulations. -/

namespace Verif
open Cdt

theorem filter_key {R : Type} (key : R → ℕ) : ∀ (l : List R), (l.map key).Nodup → ∀ r ∈ l, l.filter (fun x => decide (key x = key r)) = [r]
  | [], _, r, hr => by cases hr
  | a :: l, h, r, hr => by
    rw [List.map_cons, List.nodup_cons] at h
    rcases List.mem_cons.1 hr with rfl | hr
    · rw [List.filter_cons_of_pos (by simp)]
      have : l.filter (fun x => decide (key x = key r)) = [] := by
        rw [List.filter_eq_nil_iff]
        intro x hx
        have : key x ≠ key r := fun e => h.1 (e ▸ List.mem_map_of_mem hx)
        simpa using this
      rw [this]
    · have : key a ≠ key r := fun e => h.1 (e ▸ List.mem_map_of_mem hr)
      rw [List.filter_cons_of_neg (by simpa using this)]
      exact filter_key key l h.2 r hr

/-- C217: when no two visits have the same id and no visit has two rows in the quick look, every visit is
returned once, in order, with its own row of the quick look, if it has one; the table in the format of simulations, joined to the visits,
has exactly one row for each visit, in order, and it is the one computed from it.

Missing: the joins with repeated ids (`C217_repeated_violated`), depths (`C217_latiss_violated`). -/
theorem C217_rows_partial {V Q O : Type} (idV : V → ℕ) (idQ : Q → ℕ) (vs : List V) (qs : List Q) (f : V × Option Q → O)
    (hv : (vs.map idV).Nodup) (hq : (qs.map idQ).Nodup) :
    (leftJoin idV idQ vs qs).map Prod.fst = vs ∧
    (∀ v q, (v, some q) ∈ leftJoin idV idQ vs qs ↔ v ∈ vs ∧ q ∈ qs ∧ idQ q = idV v) ∧
    (∀ v, (v, none) ∈ leftJoin idV idQ vs qs ↔ v ∈ vs ∧ ∀ q ∈ qs, idQ q ≠ idV v) ∧
    merged (fun r => idV r.1) (leftJoin idV idQ vs qs) (opsim (fun r => idV r.1) f (leftJoin idV idQ vs qs)) =
      (leftJoin idV idQ vs qs).map (fun r => (r, f r)) := by
  have hfst : (leftJoin idV idQ vs qs).map Prod.fst = vs := by
    unfold leftJoin
    rw [List.map_flatMap]
    have : ∀ v : V, (if (qs.filter (fun q => decide (idQ q = idV v))).length = 0 then [(v, (none : Option Q))]
        else (qs.filter (fun q => decide (idQ q = idV v))).map (fun q => (v, some q))).map Prod.fst = [v] := by
      intro v
      by_cases h0 : (qs.filter (fun q => decide (idQ q = idV v))).length = 0
      · rw [if_pos h0]; rfl
      · rw [if_neg h0]
        obtain ⟨q, hqm⟩ := List.exists_mem_of_ne_nil (qs.filter (fun q => decide (idQ q = idV v))) (fun e => h0 (by rw [e]; rfl))
        rw [List.mem_filter] at hqm
        have hid : idQ q = idV v := by simpa using hqm.2
        have := filter_key idQ qs hq q hqm.1
        rw [hid] at this
        rw [this]; rfl
    simp only [this]
    simp
  refine ⟨hfst, ?_, ?_, ?_⟩
  · intro v q
    unfold leftJoin
    rw [List.mem_flatMap]
    constructor
    · rintro ⟨v', hv', hm⟩
      by_cases h0 : (qs.filter (fun q => decide (idQ q = idV v'))).length = 0
      · rw [if_pos h0] at hm; simp at hm
      · rw [if_neg h0, List.mem_map] at hm
        obtain ⟨q', hq', he⟩ := hm
        rw [Prod.mk.injEq, Option.some.injEq] at he
        obtain ⟨rfl, rfl⟩ := he
        rw [List.mem_filter] at hq'
        exact ⟨hv', hq'.1, by simpa using hq'.2⟩
    · rintro ⟨hv', hq', he⟩
      refine ⟨v, hv', ?_⟩
      have hmem : q ∈ qs.filter (fun q => decide (idQ q = idV v)) := by rw [List.mem_filter]; exact ⟨hq', by simpa using he⟩
      rw [if_neg (fun h0 => by rw [List.length_eq_zero_iff.1 h0] at hmem; cases hmem)]
      exact List.mem_map_of_mem hmem
  · intro v
    unfold leftJoin
    rw [List.mem_flatMap]
    constructor
    · rintro ⟨v', hv', hm⟩
      by_cases h0 : (qs.filter (fun q => decide (idQ q = idV v'))).length = 0
      · rw [if_pos h0] at hm
        have : v = v' := by simpa using hm
        subst this
        refine ⟨hv', fun q hq' he => ?_⟩
        have := List.filter_eq_nil_iff.1 (List.length_eq_zero_iff.1 h0) q hq'
        exact this (by simpa using he)
      · rw [if_neg h0, List.mem_map] at hm
        obtain ⟨q', _, he⟩ := hm
        simp at he
    · rintro ⟨hv', hno⟩
      refine ⟨v, hv', ?_⟩
      have : qs.filter (fun q => decide (idQ q = idV v)) = [] := by
        rw [List.filter_eq_nil_iff]; intro q hq'; simpa using hno q hq'
      rw [this]
      simp
  · have hnd : ((leftJoin idV idQ vs qs).map (fun r => idV r.1)).Nodup := by
      have : (leftJoin idV idQ vs qs).map (fun r => idV r.1) = vs.map idV := by
        rw [← hfst, List.map_map, hfst]; rfl
      rw [this]; exact hv
    generalize leftJoin idV idQ vs qs = rows at hnd
    unfold merged opsim
    have : ∀ r ∈ rows, ((rows.map (fun r => (idV r.1, f r))).filter (fun t => decide (t.1 = idV r.1))).map (fun t => (r, t.2)) = [(r, f r)] := by
      intro r hr
      rw [List.filter_map]
      have := filter_key (fun r : V × Option Q => idV r.1) rows hnd r hr
      have e : ((fun t : ℕ × O => decide (t.1 = idV r.1)) ∘ fun r => (idV r.1, f r)) = fun x : V × Option Q => decide (idV x.1 = idV r.1) := rfl
      rw [e, this]
      rfl
    have e2 : rows.flatMap (fun r => ((rows.map (fun r => (idV r.1, f r))).filter (fun t => decide (t.1 = idV r.1))).map (fun t => (r, t.2))) =
        rows.flatMap (fun r => [(r, f r)]) := by
      rw [List.flatMap_def, List.flatMap_def]
      congr 1
      exact List.map_congr_left this
    rw [e2]
    exact List.flatMap_pure_eq_map _ _

/-- C217: exactly the four instruments are served, each by the class that asks for its own visits, and LATISS alone as an instrument of the auxiliary telescope. -/
theorem C217_instruments (i : String) :
    load i = if i ∈ ["lsstcam", "lsstcomcam", "lsstcomcamsim", "latiss"] then some (i, if i = "latiss" then "auxtel" else "rubin") else none := by
  by_cases h : i ∈ ["lsstcam", "lsstcomcam", "lsstcomcamsim", "latiss"]
  · rw [if_pos h]
    simp only [List.mem_cons, List.not_mem_nil, or_false] at h
    rcases h with rfl | rfl | rfl | rfl <;> decide
  · rw [if_neg h]
    unfold load
    rw [if_neg (by simpa [known] using h)]

/-- C217 fails when a visit has two rows in the quick look: it is returned twice, and the joined table has it four times, half of
them with the values of the other row. -/
theorem C217_repeated_violated :
    leftJoin (fun v : ℕ => v) (fun q : ℕ × ℕ => q.1) [7] [(7, 1), (7, 2)] = [(7, some (7, 1)), (7, some (7, 2))] ∧
    merged (fun r => r.1) (leftJoin (fun v : ℕ => v) (fun q : ℕ × ℕ => q.1) [7] [(7, 1), (7, 2)])
      (opsim (fun r => r.1) (fun r => r.2.map Prod.snd) (leftJoin (fun v : ℕ => v) (fun q : ℕ × ℕ => q.1) [7] [(7, 1), (7, 2)])) =
    [((7, some (7, 1)), some 1), ((7, some (7, 1)), some 2), ((7, some (7, 2)), some 1), ((7, some (7, 2)), some 2)] := by
  constructor <;> decide +kernel

/-- C217 fails for the depths of LATISS: with effective times in the column the class names (`eff_time`) and no other, the table cannot be
made. -/
theorem C217_latiss_violated (n : ℕ) (l : List (Option ℚ)) : latissDepth n (.num l) .absent = none := rfl

/-- The depths of LATISS when the table can be made: without effective times in the column the class names there are none, one missing depth for each of the visits;
with them, they are those of the column `eff_time_m5`. -/
theorem C217_latiss_partial (n : ℕ) (t d : Col) (l : List (Option ℚ)) (h : latissDepth n t d = some l) :
    (∃ ts, t = .num ts) ∧ d = .num l ∨ (t = .absent ∨ t = .text) ∧ l.length = n ∧ ∀ x ∈ l, x = none := by
  have hnone : some (List.replicate n (none : Option ℚ)) = some l → l.length = n ∧ ∀ x ∈ l, x = none := by
    intro h
    cases h
    exact ⟨List.length_replicate, fun x hx => (List.mem_replicate.1 hx).2⟩
  rcases t with _ | _ | ts
  · exact Or.inr ⟨Or.inl rfl, hnone h⟩
  · exact Or.inr ⟨Or.inr rfl, hnone h⟩
  · rcases d with _ | _ | ds
    · cases h
    · cases h
    · cases h
      exact Or.inl ⟨⟨ts, rfl⟩, rfl⟩

example : latissDepth 2 .absent (.num [some 20, some 21]) = some [none, none] ∧ latissDepth 2 (.num [some 1, none]) (.num [some 20, some 21]) = some [some 20, some 21] := by
  decide +kernel

/-- Non-vacuity: three visits, one without a quick look. -/
example : leftJoin (fun v : ℕ => v) (fun q : ℕ × ℕ => q.1) [7, 8, 9] [(9, 1), (7, 2)] = [(7, some (7, 2)), (8, none), (9, some (9, 1))] ∧
    ([7, 8, 9].map (fun v : ℕ => v)).Nodup ∧ ([(9, 1), (7, 2)].map (fun q : ℕ × ℕ => q.1)).Nodup := by
  decide +kernel

end Verif
