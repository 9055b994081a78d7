import Verif.Spec.Presched
import Mathlib.Tactic.Linarith
import Mathlib.Algebra.BigOperators.Group.List.Basic
import Mathlib.Data.List.Nodup
import Mathlib.Data.List.GetD

/-!
C130: events at the rises of a desired number.
-/

namespace Verif

open Pre

theorem pickCell_lt {valid : List ℕ} {s k : ℕ} (h : pick valid s = some k) : k < valid.length := by
  have h1 : (valid.filter (· < s)).length ≤ valid.length := List.length_filter_le _ _
  have h2 : (valid.filter (· ≤ s)).length ≤ valid.length := List.length_filter_le _ _
  unfold pick at h
  simp only at h
  split_ifs at h <;> simp only [Option.some.injEq] at h <;> omega

theorem pickCell_none {valid : List ℕ} {s : ℕ} : pick valid s = none ↔ valid = [] := by
  unfold pick
  simp only
  constructor
  · intro h
    split_ifs at h with h1
    exact List.eq_nil_of_length_eq_zero h1
  · intro h
    simp [h]

theorem sorted_filter_lt {l : List ℕ} (hl : l.Pairwise (· < ·)) (s : ℕ) :
    ∀ k (hk : k < l.length), l[k] < s ↔ k < (l.filter (· < s)).length := by
  induction l with
  | nil => intro k hk; simp at hk
  | cons a l ih =>
    intro k hk
    have hp := List.pairwise_cons.1 hl
    by_cases ha : a < s
    · rw [List.filter_cons_of_pos (by simpa using ha)]
      cases k with
      | zero => simpa using ha
      | succ k =>
        have := ih hp.2 k (by simpa using hk)
        simpa using this
    · rw [List.filter_cons_of_neg (by simpa using ha)]
      have hn : l.filter (· < s) = [] := by
        rw [List.filter_eq_nil_iff]
        intro x hx
        have := hp.1 x hx
        simp only [decide_eq_true_eq]; omega
      rw [hn]
      simp only [List.length_nil, Nat.not_lt_zero, iff_false, not_lt]
      cases k with
      | zero => simpa using ha
      | succ k =>
        have hk' : k < l.length := by simpa using hk
        have := hp.1 l[k] (List.getElem_mem hk')
        simp only [List.getElem_cons_succ]; omega

theorem sorted_filter_le {l : List ℕ} (hl : l.Pairwise (· < ·)) (s k : ℕ) (hk : k < l.length) :
    l[k] ≤ s ↔ k < (l.filter (· ≤ s)).length := by
  have := sorted_filter_lt hl (s + 1) k hk
  simpa [Nat.lt_succ_iff] using this

/-- Free cells before a rise are no more than the cells before it. -/
theorem sorted_count_le {l : List ℕ} (hl : l.Pairwise (· < ·)) (s : ℕ) : (l.filter (· < s)).length ≤ s := by
  have h1 : (l.filter (· < s)).Nodup := (hl.imp (fun h => Nat.ne_of_lt h)).filter _
  have h2 : (l.filter (· < s)) ⊆ List.range s := by
    intro x hx
    simpa using (List.mem_filter.1 hx).2
  have := (List.subperm_of_subset h1 h2).length_le
  simpa using this

theorem pickCell_near {valid : List ℕ} (hv : valid.Pairwise (· < ·)) {s k : ℕ} (h : pick valid s = some k) :
    Near valid s (valid.getD k 0) := by
  have hk := pickCell_lt h
  have hg : valid.getD k 0 = valid[k] := List.getD_eq_getElem _ _ hk
  rw [hg]
  have hL : (valid.filter (· < s)).length ≤ valid.length := List.length_filter_le _ _
  have hR : (valid.filter (· ≤ s)).length ≤ valid.length := List.length_filter_le _ _
  have hs := sorted_count_le hv s
  have hs' := sorted_count_le hv (s + 1)
  simp only [Nat.lt_succ_iff] at hs'
  have key : ∀ x ∈ valid, ∃ j, ∃ hj : j < valid.length, valid[j] = x := fun x hx => List.mem_iff_getElem.1 hx
  have mono : ∀ i j (hi : i < valid.length) (hj : j < valid.length), i ≤ j → valid[i] ≤ valid[j] := by
    intro i j hi hj hij
    rcases Nat.lt_or_ge i j with h' | h'
    · exact le_of_lt (List.pairwise_iff_getElem.1 hv i j hi hj h')
    · have : i = j := by omega
      subst this; exact le_refl _
  have lt := sorted_filter_lt hv s
  have le := fun j hj => sorted_filter_le hv s j hj
  generalize hl' : (valid.filter (· < s)).length = L at *
  generalize hr' : (valid.filter (· ≤ s)).length = R at *
  unfold pick at h
  simp only [hl', hr'] at h
  refine ⟨List.getElem_mem hk, ?_, ?_⟩
  · intro x hx hsx
    obtain ⟨j, hj, rfl⟩ := key x hx
    have hjR : R ≤ j := by
      by_contra hc
      have := (le j hj).2 (by omega)
      omega
    split_ifs at h with h1 h2 h3 h4
    all_goals simp only [Option.some.injEq] at h
    all_goals subst h
    · omega
    · refine ⟨?_, mono _ _ _ _ (by omega)⟩
      by_contra hc
      have := (lt L hk).1 (by omega)
      omega
    · omega
    · refine ⟨?_, mono _ _ _ _ (by omega)⟩
      by_contra hc
      have := (le R hk).1 (by omega)
      omega
  · intro hall x hx
    obtain ⟨j, hj, rfl⟩ := key x hx
    apply mono
    have hlast : R = valid.length := by
      by_contra hc
      have h5 : R < valid.length := by omega
      have := (le R h5).1 (hall _ (List.getElem_mem h5))
      omega
    split_ifs at h with h1 h2 h3 h4
    all_goals simp only [Option.some.injEq] at h
    all_goals subst h
    all_goals omega

theorem eraseIdx_sorted {l : List ℕ} (hl : l.Pairwise (· < ·)) (k : ℕ) (hk : k < l.length) :
    l.eraseIdx k = l.filter (fun x => x ≠ l.getD k 0) := by
  induction l generalizing k with
  | nil => simp at hk
  | cons a l ih =>
    have hp := List.pairwise_cons.1 hl
    cases k with
    | zero =>
      simp only [List.eraseIdx_zero, List.tail_cons, List.getD_cons_zero]
      rw [List.filter_cons_of_neg (by simp)]
      symm
      rw [List.filter_eq_self]
      intro x hx
      have := hp.1 x hx
      simp only [ne_eq, decide_eq_true_eq]; omega
    | succ k =>
      have hk' : k < l.length := by simpa using hk
      simp only [List.eraseIdx_cons_succ, List.getD_cons_succ]
      rw [ih hp.2 k hk']
      have : a ≠ l.getD k 0 := by
        rw [List.getD_eq_getElem _ _ hk']
        have := hp.1 _ (List.getElem_mem hk')
        omega
      rw [List.filter_cons_of_pos (by simpa using this)]

theorem place_placed (noDup : Bool) : ∀ (ss valid cs : List ℕ), valid.Pairwise (· < ·) → place noDup ss valid = some cs →
    Placed noDup valid ss cs := by
  intro ss
  induction ss with
  | nil => intro valid cs _ h; simp only [place, Option.some.injEq] at h; subst h; exact .done _
  | cons s ss ih =>
    intro valid cs hv h
    simp only [place] at h
    cases hp : pick valid s with
    | none => rw [hp] at h; simp at h
    | some k =>
      rw [hp] at h
      simp only [Option.map_eq_some_iff] at h
      obtain ⟨r, h1, rfl⟩ := h
      refine .step _ _ _ _ _ (pickCell_near hv hp) ?_
      have h2 := ih _ _ (by split_ifs; exact hv.sublist (List.eraseIdx_sublist _ _); exact hv) h1
      cases noDup with
      | false => simpa using h2
      | true =>
        simp only [if_true] at h2 ⊢
        rw [eraseIdx_sorted hv k (pickCell_lt hp)] at h2
        exact h2

theorem place_spec (noDup : Bool) : ∀ (ss valid cs : List ℕ), place noDup ss valid = some cs →
    cs.length = ss.length ∧ (∀ c ∈ cs, c ∈ valid) ∧ (noDup = true → valid.Nodup → cs.Nodup) := by
  intro ss
  induction ss with
  | nil => intro valid cs h; simp only [place, Option.some.injEq] at h; subst h; simp
  | cons s ss ih =>
    intro valid cs h
    simp only [place] at h
    cases hp : pick valid s with
    | none => rw [hp] at h; simp at h
    | some k =>
      rw [hp] at h
      simp only [Option.map_eq_some_iff] at h
      obtain ⟨r, h1, rfl⟩ := h
      have hk := pickCell_lt hp
      have hg : valid.getD k 0 = valid[k] := List.getD_eq_getElem _ _ hk
      obtain ⟨i1, i2, i3⟩ := ih _ _ h1
      have hsub : ∀ c ∈ r, c ∈ valid := by
        intro c hc
        have := i2 c hc
        split_ifs at this
        · exact List.mem_of_mem_eraseIdx this
        · exact this
      refine ⟨by simp [i1], ?_, ?_⟩
      · intro c hc
        rcases List.mem_cons.1 hc with rfl | hc
        · rw [hg]; exact List.getElem_mem hk
        · exact hsub c hc
      · intro hn hd
        rw [if_pos hn] at i2 i3
        refine List.nodup_cons.2 ⟨?_, i3 hn (hd.sublist (List.eraseIdx_sublist _ _))⟩
        intro hc
        have := i2 _ hc
        rw [hg] at this
        obtain ⟨j, hj, hjk, e⟩ := List.mem_eraseIdx_iff_getElem.1 this
        exact hjk ((List.Nodup.getElem_inj_iff hd).1 e)

theorem place_some (noDup : Bool) : ∀ (ss valid : List ℕ),
    ((place noDup ss valid).isSome ↔ if noDup then ss.length ≤ valid.length else (ss = [] ∨ valid ≠ [])) := by
  intro ss
  induction ss with
  | nil => intro valid; simp [place]
  | cons s ss ih =>
    intro valid
    simp only [place]
    cases hp : pick valid s with
    | none =>
      have := pickCell_none.1 hp
      subst this
      cases noDup <;> simp
    | some k =>
      have hk := pickCell_lt hp
      have hne : valid ≠ [] := by rintro rfl; simp at hk
      simp only [Option.isSome_map]
      rw [ih]
      cases noDup with
      | false => simp [hne]
      | true =>
        simp only [if_true, List.length_cons]
        rw [List.length_eraseIdx_of_lt hk]
        omega

theorem sum_count_range (n : ℕ) (ps : List ℕ) (h : ∀ p ∈ ps, p < n) : ((List.range n).map (fun i => ps.count i)).sum = ps.length := by
  induction ps with
  | nil => simp
  | cons p ps ih =>
    have h1 : ((List.range n).map (fun i => (p :: ps).count i)) = (List.range n).map (fun i => ps.count i + if p = i then 1 else 0) := by
      apply List.map_congr_left
      intro i _
      rw [List.count_cons]
      simp
    rw [h1, List.sum_map_add, ih (fun q hq => h q (List.mem_cons_of_mem _ hq))]
    have h2 : ((List.range n).map (fun i => if p = i then 1 else 0)).sum = 1 := by
      have e : ((List.range n).map (fun i => if p = i then 1 else 0)).sum = (List.range n).count p := by
        induction (List.range n) with
        | nil => simp
        | cons a l ih2 =>
          rw [List.map_cons, List.sum_cons, ih2, List.count_cons]
          by_cases hpa : p = a
          · simp [hpa]; omega
          · have : ¬ a = p := fun e => hpa e.symm
            simp [hpa, this]
      rw [e]
      exact List.count_eq_one_of_mem List.nodup_range (by simpa using h p (List.mem_cons_self))
    rw [h2, List.length_cons]

theorem allowed_mem (n : ℕ) (mask : Option (List Bool)) (i : ℕ) :
    i ∈ allowed n mask ↔ i < n ∧ ∀ m, mask = some m → m[i]? = some true := by
  cases mask with
  | none => simp [allowed]
  | some m =>
    simp only [allowed, List.mem_filter, List.mem_range, Option.some.injEq, forall_eq']
    refine and_congr_right (fun _ => ?_)
    rw [List.getD_eq_getElem?_getD]
    cases m[i]? <;> simp

theorem allowed_sorted (n : ℕ) (mask : Option (List Bool)) : (allowed n mask).Pairwise (· < ·) := by
  cases mask with
  | none => exact List.pairwise_lt_range
  | some m => exact List.pairwise_lt_range.filter _

theorem mem_rises (d : List (Option ℚ)) (i : ℕ) : i ∈ rises d ↔ RiseAt d i := by
  unfold rises RiseAt
  simp only [List.mem_map, List.mem_filter, List.mem_range]
  constructor
  · rintro ⟨j, ⟨hj, hu⟩, rfl⟩
    rw [List.getD_eq_getElem _ _ (by omega), List.getD_eq_getElem _ _ (by omega)] at hu
    unfold up at hu
    split at hu
    · next x y e1 e2 =>
      refine ⟨x, y, by omega, ?_, ?_, by simpa using hu⟩
      · simp only [Nat.add_sub_cancel]; rw [List.getElem?_eq_getElem (by omega), e1]
      · rw [List.getElem?_eq_getElem (by omega), e2]
    · simp at hu
  · rintro ⟨x, y, h1, e1, e2, h⟩
    have hi : i < d.length := (List.getElem?_eq_some_iff.1 e2).1
    refine ⟨i - 1, ⟨by omega, ?_⟩, by omega⟩
    have e3 : i - 1 + 1 = i := by omega
    rw [e3, List.getD_eq_getElem?_getD, List.getD_eq_getElem?_getD, e1, e2]
    simpa [up] using h

theorem rises_sorted (d : List (Option ℚ)) : (rises d).Pairwise (· < ·) := by
  unfold rises
  rw [List.pairwise_map]
  exact (List.pairwise_lt_range.filter _).imp (by intro a b h; omega)

/-- C130. Events are only put in cells that are allowed; with `noDup` at most one in a cell; there are as many events as
cells at which the rounded number rises. -/
theorem C130_allowed (d : List (Option ℚ)) (mask : Option (List Bool)) (noDup : Bool) (s : List ℕ)
    (h : matchCum d mask noDup = some s) :
    s.length = d.length ∧
    (∀ (i k : ℕ), s[i]? = some k → 0 < k → ∀ m, mask = some m → m[i]? = some true) ∧
    (noDup = true → ∀ k ∈ s, k ≤ 1) ∧
    ∃ rs : List ℕ, rs.Nodup ∧ (∀ i, i ∈ rs ↔ RiseAt d i) ∧ s.sum = rs.length := by
  unfold matchCum at h
  simp only [Option.map_eq_some_iff] at h
  obtain ⟨ps, h1, rfl⟩ := h
  obtain ⟨i1, i2, i3⟩ := place_spec _ _ _ _ h1
  have hlt : ∀ p ∈ ps, p < d.length := fun p hp => ((allowed_mem _ _ _).1 (i2 p hp)).1
  refine ⟨by simp, ?_, ?_, rises d, (rises_sorted d).imp (fun h => Nat.ne_of_lt h), mem_rises d, ?_⟩
  · intro i k hik hk m hm
    obtain ⟨hi, e⟩ := List.getElem?_eq_some_iff.1 hik
    simp only [List.getElem_map, List.getElem_range] at e
    have : i ∈ ps := by
      by_contra hc
      rw [List.count_eq_zero_of_not_mem hc] at e
      omega
    exact ((allowed_mem _ _ _).1 (i2 i this)).2 m hm
  · intro hn k hk
    obtain ⟨i, -, rfl⟩ := List.mem_map.1 hk
    exact List.nodup_iff_count_le_one.1 (i3 hn ((allowed_sorted _ _).imp (fun h => Nat.ne_of_lt h))) i
  · rw [sum_count_range _ _ hlt, i1]

/-- C130. A schedule is made exactly when there are enough cells. -/
theorem C130_returns (d : List (Option ℚ)) (mask : Option (List Bool)) (noDup : Bool) (cells rs : List ℕ)
    (hc : cells.Nodup) (hc' : ∀ i, i ∈ cells ↔ i < d.length ∧ ∀ m, mask = some m → m[i]? = some true)
    (hr : rs.Nodup) (hr' : ∀ i, i ∈ rs ↔ RiseAt d i) :
    (matchCum d mask noDup).isSome ↔ if noDup then rs.length ≤ cells.length else (rs = [] ∨ cells ≠ []) := by
  have e1 : cells.Perm (allowed d.length mask) :=
    (List.perm_ext_iff_of_nodup hc ((allowed_sorted _ _).imp (fun h => Nat.ne_of_lt h))).2
      (fun i => by rw [hc', allowed_mem])
  have e2 : rs.Perm (rises d) :=
    (List.perm_ext_iff_of_nodup hr ((rises_sorted d).imp (fun h => Nat.ne_of_lt h))).2 (fun i => by rw [hr', mem_rises])
  unfold matchCum
  rw [Option.isSome_map, place_some]
  cases noDup with
  | true => simp only [if_true]; rw [e1.length_eq, e2.length_eq]
  | false =>
    simp only [Bool.false_eq_true, if_false, ne_eq]
    have h1 : rises d = [] ↔ rs = [] := by
      constructor <;> intro h
      · rw [h] at e2; exact e2.eq_nil
      · rw [h] at e2; exact e2.symm.eq_nil
    have h2 : allowed d.length mask = [] ↔ cells = [] := by
      constructor <;> intro h
      · rw [h] at e1; exact e1.eq_nil
      · rw [h] at e1; exact e1.symm.eq_nil
    rw [h1, h2]

/-- C130. Each rise is served in turn by a cell near it. -/
theorem C130_near_partial (d : List (Option ℚ)) (mask : Option (List Bool)) (noDup : Bool) (s : List ℕ)
    (h : matchCum d mask noDup = some s) :
    ∃ cells rs cs : List ℕ, cells.Pairwise (· < ·) ∧
      (∀ i, i ∈ cells ↔ i < d.length ∧ ∀ m, mask = some m → m[i]? = some true) ∧
      rs.Pairwise (· < ·) ∧ (∀ i, i ∈ rs ↔ RiseAt d i) ∧ Placed noDup cells rs cs ∧
      ∀ i, i < d.length → s[i]? = some (cs.count i) := by
  unfold matchCum at h
  simp only [Option.map_eq_some_iff] at h
  obtain ⟨ps, h1, rfl⟩ := h
  refine ⟨allowed d.length mask, rises d, ps, allowed_sorted _ _, allowed_mem _ _, rises_sorted d, mem_rises d,
    place_placed _ _ _ _ (allowed_sorted _ _) h1, ?_⟩
  intro i hi
  rw [List.getElem?_map, List.getElem?_range hi]
  rfl

theorem pickCell_range {n s : ℕ} (h : s < n) : pick (List.range n) s = some s := by
  have e1 : ((List.range n).filter (· < s)).length = s := by
    have h1 := sorted_count_le (List.pairwise_lt_range (n := n)) s
    by_contra hc
    have h2 : ((List.range n).filter (· < s)).length < n := by omega
    have := (sorted_filter_lt (List.pairwise_lt_range (n := n)) s ((List.range n).filter (· < s)).length (by simpa using h2)).1
      (by simp only [List.getElem_range]; omega)
    omega
  have e2 : ((List.range n).filter (· ≤ s)).length = s + 1 := by
    have h0 := sorted_count_le (List.pairwise_lt_range (n := n)) (s + 1)
    simp only [Nat.lt_succ_iff] at h0
    by_contra hc
    have h2 : ((List.range n).filter (· ≤ s)).length < n := by omega
    have := (sorted_filter_le (List.pairwise_lt_range (n := n)) s ((List.range n).filter (· ≤ s)).length (by simpa using h2)).1
      (by simp only [List.getElem_range]; omega)
    omega
  unfold pick
  simp only [e1, e2, List.length_range]
  rw [if_pos (show (s : ℤ) - (s : ℤ) < ((s + 1 : ℕ) : ℤ) - s by omega), if_neg (show ¬ n = 0 by omega), if_neg (show ¬ n ≤ s by omega)]

/-- C130. Without a mask and with repeats allowed the events are exactly at the rises. -/
theorem C130_exact (d : List (Option ℚ)) :
    ∃ s, matchCum d none false = some s ∧ ∀ i, i < d.length → (s[i]? = some 1 ∧ RiseAt d i ∨ s[i]? = some 0 ∧ ¬ RiseAt d i) := by
  have key : ∀ ss : List ℕ, (∀ s ∈ ss, s < d.length) → place false ss (List.range d.length) = some ss := by
    intro ss
    induction ss with
    | nil => intro _; rfl
    | cons s ss ih =>
      intro h
      have hs := h s (List.mem_cons_self)
      simp only [place]
      rw [pickCell_range hs]
      simp only [Bool.false_eq_true, if_false]
      rw [ih (fun x hx => h x (List.mem_cons_of_mem _ hx))]
      simp only [Option.map_some]
      rw [List.getD_eq_getElem _ _ (by simpa using hs), List.getElem_range]
  have hr : ∀ s ∈ rises d, s < d.length := by
    intro s hs
    obtain ⟨x, y, h1, e1, e2, h⟩ := (mem_rises d s).1 hs
    exact (List.getElem?_eq_some_iff.1 e2).1
  refine ⟨_, by unfold matchCum; rw [show allowed d.length none = List.range d.length from rfl, key _ hr]; rfl, ?_⟩
  intro i hi
  rw [List.getElem?_map, List.getElem?_range hi]
  simp only [Option.map_some, Option.some.injEq]
  by_cases hm : i ∈ rises d
  · exact .inl ⟨List.count_eq_one_of_mem ((rises_sorted d).imp (fun h => Nat.ne_of_lt h)) hm, (mem_rises d i).1 hm⟩
  · exact .inr ⟨List.count_eq_zero_of_not_mem hm, fun h => hm ((mem_rises d i).2 h)⟩

/-- C130 does not hold in full: one cell before the rise is masked, and the cell after the rise is used although the cell
of the rise is allowed and free. -/
theorem C130_near_violated :
    matchCum [some 0, some 0, some 1, some 1] (some [false, true, true, true]) true = some [0, 0, 0, 1] := by
  decide +kernel

/-- C130 does not hold in full: four events are wanted, one in the first cell and then three at once, and one is
scheduled. -/
theorem C130_lost_violated : matchCum [some 1, some 1, some 4, some 4] none false = some [0, 0, 1, 0] := by
  decide +kernel

/-- Three of five cells are allowed, and there are two rises, one of them in a masked cell. -/
example : matchCum [some 0, some (3 / 5), some (6 / 5), some (9 / 5), some 2] (some [true, false, true, false, true]) true =
    some [0, 0, 1, 0, 1] := by
  decide +kernel

end Verif
