import Verif.Spec.Presched
import Verif.Lemmas.IntRounded
import Verif.Props.Too
import Verif.Props.BandSched
import Mathlib.Tactic.Linarith
import Mathlib.Tactic.FieldSimp
import Mathlib.Algebra.Order.BigOperators.Group.List
import Mathlib.Data.List.Nodup
import Mathlib.Data.List.GetD
import Mathlib.Data.List.Induction

/-!
C131: the number of sequences wanted up to each night.
-/

namespace Verif

open Pre

theorem maxL_spec {l : List ℚ} (h : l ≠ []) : maxL l ∈ l ∧ ∀ x ∈ l, x ≤ maxL l := by
  cases l with
  | nil => exact absurd rfl h
  | cons a l =>
    obtain ⟨h1, h2, h3⟩ := foldl_max_spec (a :: l) a
    refine ⟨?_, h2⟩
    rcases h3 with h3 | h3
    · have : maxL (a :: l) = a := h3
      rw [this]; exact List.mem_cons_self
    · exact h3

theorem maxL_eq {l : List ℚ} {m : ℚ} (h1 : m ∈ l) (h2 : ∀ x ∈ l, x ≤ m) : maxL l = m := by
  obtain ⟨g1, g2⟩ := maxL_spec (List.ne_nil_of_mem h1)
  exact le_antisymm (h2 _ g1) (g2 _ h1)

theorem minL_eq {l : List ℚ} {m : ℚ} (h1 : m ∈ l) (h2 : ∀ x ∈ l, m ≤ x) : minL l = m := by
  cases l with
  | nil => simp at h1
  | cons a l =>
    obtain ⟨g1, g2, g3⟩ := foldl_min_spec (a :: l) a
    have e : minL (a :: l) = (a :: l).foldl min a := rfl
    rw [e]
    apply le_antisymm (g2 _ h1)
    rcases g3 with g3 | g3
    · rw [g3]; exact h2 _ List.mem_cons_self
    · exact h2 _ g3

theorem mem_uniqueZ (l : List ℤ) (x : ℤ) : x ∈ uniqueZ l ↔ x ∈ l := by
  unfold uniqueZ
  rw [List.mem_insertionSort, List.mem_dedup]

theorem uniqueZ_sorted (l : List ℤ) : (uniqueZ l).Pairwise (· < ·) := by
  have h1 : (uniqueZ l).Pairwise (· ≤ ·) := List.pairwise_insertionSort (· ≤ ·) _
  have h2 : (uniqueZ l).Nodup := (List.perm_insertionSort _ _).nodup_iff.2 (List.nodup_dedup l)
  exact h1.imp₂ (fun a b h h' => lt_of_le_of_ne h h') h2

theorem mem_seasonList (ns : List Night) (s : ℤ) : s ∈ seasonList ns ↔ Active ns s := by
  unfold seasonList Active
  rw [mem_uniqueZ]
  simp only [List.mem_map, List.mem_filter, decide_eq_true_eq]
  constructor
  · rintro ⟨n, ⟨h1, h2⟩, h3⟩; exact ⟨n, h1, h2, h3⟩
  · rintro ⟨n, h1, h2, h3⟩; exact ⟨n, ⟨h1, h2⟩, h3⟩

theorem mem_activeIn (ns : List Night) (s : ℤ) (x : ℚ) : x ∈ activeIn ns s ↔ ∃ n ∈ ns, n.raw ≠ 0 ∧ ⌊n.season⌋ = s ∧ n.season = x := by
  unfold activeIn
  simp only [List.mem_map, List.mem_filter, decide_eq_true_eq]
  constructor
  · rintro ⟨n, ⟨⟨h1, h2⟩, h3⟩, h4⟩; exact ⟨n, h1, h2, h3, h4⟩
  · rintro ⟨n, h1, h2, h3, h4⟩; exact ⟨n, ⟨⟨h1, h2⟩, h3⟩, h4⟩

theorem span_length {ns : List Night} {s : ℤ} {l : ℚ} (h : Span ns s l) : seasonLength ns s = l := by
  obtain ⟨a, ha, b, hb, ⟨a1, a2⟩, ⟨b1, b2⟩, h1, rfl⟩ := h
  unfold seasonLength
  rw [maxL_eq (m := b.season) ((mem_activeIn _ _ _).2 ⟨b, hb, b1, b2, rfl⟩) ?_, minL_eq (m := a.season) ((mem_activeIn _ _ _).2 ⟨a, ha, a1, a2, rfl⟩) ?_]
  · intro x hx
    obtain ⟨n, hn, h2, h3, rfl⟩ := (mem_activeIn _ _ _).1 hx
    exact (h1 n hn h2 h3).1
  · intro x hx
    obtain ⟨n, hn, h2, h3, rfl⟩ := (mem_activeIn _ _ _).1 hx
    exact (h1 n hn h2 h3).2

theorem minL_spec {l : List ℚ} (h : l ≠ []) : minL l ∈ l ∧ ∀ x ∈ l, minL l ≤ x := by
  cases l with
  | nil => exact absurd rfl h
  | cons a l =>
    obtain ⟨h1, h2, h3⟩ := foldl_min_spec (a :: l) a
    refine ⟨?_, h2⟩
    rcases h3 with h3 | h3
    · have : minL (a :: l) = a := h3
      rw [this]; exact List.mem_cons_self
    · exact h3

theorem span_exists {ns : List Night} {s : ℤ} (h : Active ns s) : Span ns s (seasonLength ns s) := by
  obtain ⟨n, hn, h1, h2⟩ := h
  have hne : activeIn ns s ≠ [] := List.ne_nil_of_mem ((mem_activeIn ns s n.season).2 ⟨n, hn, h1, h2, rfl⟩)
  obtain ⟨m1, m2⟩ := maxL_spec hne
  obtain ⟨m3, m4⟩ := minL_spec hne
  obtain ⟨b, hb, b1, b2, b3⟩ := (mem_activeIn _ _ _).1 m1
  obtain ⟨a, ha, a1, a2, a3⟩ := (mem_activeIn _ _ _).1 m3
  refine ⟨a, ha, b, hb, ⟨a1, a2⟩, ⟨b1, b2⟩, ?_, ?_⟩
  · intro n hn h1 h2
    have := (mem_activeIn ns s n.season).2 ⟨n, hn, h1, h2, rfl⟩
    rw [a3, b3]
    exact ⟨m4 _ this, m2 _ this⟩
  · unfold seasonLength; rw [a3, b3]

theorem raw_goal (seq : ℚ) (ns : List Night) (s s' : ℤ) (l M : ℚ) (h : Span ns s l) (hM : Span ns s' M)
    (hmax : ∀ t k, Span ns t k → k ≤ M) (hpos : 0 < M) : rawGoal seq 0 ns s = some (seq * l / M) := by
  have hl := span_length h
  have hM' := span_length hM
  have hl0 : 0 ≤ l := by
    obtain ⟨a, ha, b, hb, ⟨a1, a2⟩, ⟨b1, b2⟩, h1, rfl⟩ := h
    have := (h1 b hb b1 b2).1
    linarith
  have hmx : maxL ((seasonList ns).map (seasonLength ns)) = M := by
    apply maxL_eq
    · refine List.mem_map.2 ⟨s', (mem_seasonList _ _).2 ?_, hM'⟩
      obtain ⟨a, ha, b, hb, h2, h3⟩ := hM
      exact ⟨a, ha, h2.1, h2.2⟩
    · intro x hx
      obtain ⟨t, ht, rfl⟩ := List.mem_map.1 hx
      exact hmax t _ (span_exists ((mem_seasonList _ _).1 ht))
  unfold rawGoal
  simp only [hl, hmx]
  rw [if_neg (show ¬ l < 0 / 365.25 by simpa using hl0), if_neg (ne_of_gt hpos)]

/-- C131. The number wanted in a season is the number asked for, scaled by the length of the season relative to the
longest, rounded. -/
theorem C131_goal (seq : ℚ) (ns : List Night) (s s' : ℤ) (l M : ℚ) (h : Span ns s l) (hM : Span ns s' M)
    (hmax : ∀ t k, Span ns t k → k ≤ M) (hpos : 0 < M) :
    goal seq 0 none ns s = some (roundHalfEven (seq * l / M) : ℚ) := by
  unfold goal boosted
  rw [raw_goal seq ns s s' l M h hM hmax hpos]
  rfl

theorem upTo_rates (ns : List Night) (s : ℤ) (i : ℕ) : upTo ns s i = rates (ns.take (i + 1)) s := rfl

theorem rates_append (a b : List Night) (s : ℤ) : rates (a ++ b) s = rates a s + rates b s := by
  unfold rates
  rw [List.filter_append, List.map_append, List.sum_append]

theorem rates_nonneg {ns : List Night} (h : ∀ n ∈ ns, 0 ≤ n.raw) (s : ℤ) : 0 ≤ rates ns s := by
  unfold rates
  apply List.sum_nonneg
  intro x hx
  obtain ⟨n, hn, rfl⟩ := List.mem_map.1 hx
  exact h n (List.mem_filter.1 hn).1

theorem rates_take_mono {ns : List Night} (h : ∀ n ∈ ns, 0 ≤ n.raw) (s : ℤ) {i j : ℕ} (hij : i ≤ j) :
    rates (ns.take i) s ≤ rates (ns.take j) s := by
  have e : ns.take j = (ns.take j).take i ++ (ns.take j).drop i := (List.take_append_drop _ _).symm
  rw [e, rates_append, List.take_take, min_eq_left hij]
  have := rates_nonneg (ns := (ns.take j).drop i) (fun n hn => h n (List.mem_of_mem_take (List.mem_of_mem_drop hn))) s
  linarith

theorem rates_take_le {ns : List Night} (h : ∀ n ∈ ns, 0 ≤ n.raw) (s : ℤ) (i : ℕ) : rates (ns.take i) s ≤ rates ns s := by
  have := rates_take_mono h s (le_max_left i ns.length)
  rwa [List.take_of_length_le (le_max_right i ns.length)] at this

theorem mem_inSeason (ns : List Night) (s : ℤ) (i : ℕ) : i ∈ inSeason ns s ↔ ∃ n, ns[i]? = some n ∧ ⌊n.season⌋ = s := by
  unfold inSeason
  simp only [List.mem_filter, List.mem_range, decide_eq_true_eq]
  constructor
  · rintro ⟨h1, h2⟩
    rw [List.getD_eq_getElem _ _ h1] at h2
    exact ⟨_, List.getElem?_eq_getElem h1, h2⟩
  · rintro ⟨n, h1, h2⟩
    have hi := (List.getElem?_eq_some_iff.1 h1)
    refine ⟨hi.1, ?_⟩
    rw [List.getD_eq_getElem _ _ hi.1, hi.2]; exact h2

theorem last_inSeason {ns : List Night} {s : ℤ} (h : Active ns s) : ∃ i n, ns[i]? = some n ∧ ⌊n.season⌋ = s ∧ upTo ns s i = rates ns s := by
  have hne : inSeason ns s ≠ [] := by
    obtain ⟨n, hn, h1, h2⟩ := h
    obtain ⟨i, hi⟩ := List.mem_iff_getElem?.1 hn
    exact List.ne_nil_of_mem ((mem_inSeason _ _ _).2 ⟨n, hi, h2⟩)
  have hmem := List.getLast_mem hne
  obtain ⟨n, h1, h2⟩ := (mem_inSeason _ _ _).1 hmem
  refine ⟨(inSeason ns s).getLast hne, n, h1, h2, ?_⟩
  have hlast : ∀ j ∈ inSeason ns s, j ≤ (inSeason ns s).getLast hne := by
    intro j hj
    have hs : (inSeason ns s).Pairwise (· < ·) := List.pairwise_lt_range.filter _
    obtain ⟨k, hk, rfl⟩ := List.mem_iff_getElem.1 hj
    rw [List.getLast_eq_getElem]
    rcases Nat.lt_or_ge k ((inSeason ns s).length - 1) with h' | h'
    · exact le_of_lt (List.pairwise_iff_getElem.1 hs _ _ _ _ h')
    · have : k = (inSeason ns s).length - 1 := by omega
      simp [this]
  rw [upTo_rates]
  generalize (inSeason ns s).getLast hne = m at *
  conv_rhs => rw [← List.take_append_drop (m + 1) ns, rates_append]
  have hz : rates (ns.drop (m + 1)) s = 0 := by
    unfold rates
    have : (ns.drop (m + 1)).filter (fun n => ⌊n.season⌋ = s) = [] := by
      rw [List.filter_eq_nil_iff]
      intro x hx hx2
      obtain ⟨j, hj⟩ := List.mem_iff_getElem?.1 hx
      rw [List.getElem?_drop] at hj
      have := hlast _ ((mem_inSeason _ _ _).2 ⟨x, hj, by simpa using hx2⟩)
      omega
    rw [this]; rfl
  rw [hz, add_zero]

theorem rates_pos {ns : List Night} (hr : ∀ n ∈ ns, 0 ≤ n.raw) {s : ℤ} (h : Active ns s) : 0 < rates ns s := by
  obtain ⟨n, hn, h1, h2⟩ := h
  have h0 : 0 < n.raw := lt_of_le_of_ne (hr n hn) (Ne.symm h1)
  unfold rates
  have hm : n.raw ∈ (ns.filter (fun n => ⌊n.season⌋ = s)).map (·.raw) :=
    List.mem_map.2 ⟨n, List.mem_filter.2 ⟨hn, by simpa using h2⟩, rfl⟩
  have := List.single_le_sum (l := (ns.filter (fun n => ⌊n.season⌋ = s)).map (·.raw)) (by
    intro x hx
    obtain ⟨k, hk, rfl⟩ := List.mem_map.1 hx
    exact hr k (List.mem_filter.1 hk).1) _ hm
  linarith

theorem max_upTo {ns : List Night} (hr : ∀ n ∈ ns, 0 ≤ n.raw) {s : ℤ} (h : Active ns s) :
    maxL ((inSeason ns s).map (upTo ns s)) = rates ns s := by
  obtain ⟨i, n, h1, h2, h3⟩ := last_inSeason h
  apply maxL_eq
  · exact List.mem_map.2 ⟨i, (mem_inSeason _ _ _).2 ⟨n, h1, h2⟩, h3⟩
  · intro x hx
    obtain ⟨j, hj, rfl⟩ := List.mem_map.1 hx
    exact rates_take_le hr s _

/-- The value on a night when the seasons `P` have been dealt with. -/
def wantedAt (ns : List Night) (g : ℤ → ℚ) (P : List ℤ) (i : ℕ) (s : ℤ) : ℚ :=
  if s ∈ P then ((P.filter (· < s)).map g).sum + g s * (upTo ns s i / rates ns s) else 0

/-- The invariant of the loop over seasons. -/
def SlopesInv (ns : List Night) (g : ℤ → ℚ) (P : List ℤ) (out : List (Option ℚ)) : Prop :=
  out.length = ns.length ∧ (∀ i n, ns[i]? = some n → out[i]? = some (some (wantedAt ns g P i ⌊n.season⌋))) ∧
    maxO out = some (P.map g).sum

theorem maxO_eq {l : List (Option ℚ)} {m : ℚ} (h1 : some m ∈ l) (h2 : ∀ x ∈ l, ∃ y, x = some y ∧ y ≤ m) : maxO l = some m := by
  unfold maxO
  rw [if_pos]
  · congr 1
    apply maxL_eq
    · exact List.mem_map.2 ⟨_, h1, rfl⟩
    · intro x hx
      obtain ⟨y, hy, rfl⟩ := List.mem_map.1 hx
      obtain ⟨z, rfl, hz⟩ := h2 y hy
      exact hz
  · rw [List.all_eq_true]
    intro x hx
    obtain ⟨y, rfl, -⟩ := h2 x hx
    rfl

theorem maxO_le {l : List (Option ℚ)} {m : ℚ} (h : maxO l = some m) {y : ℚ} (hy : some y ∈ l) : y ≤ m := by
  unfold maxO at h
  split_ifs at h
  simp only [Option.some.injEq] at h
  rw [← h]
  have : y ∈ l.map (·.getD 0) := List.mem_map.2 ⟨_, hy, rfl⟩
  exact (maxL_spec (List.ne_nil_of_mem this)).2 y this

theorem addSeason_inv {ns : List Night} (hr : ∀ n ∈ ns, 0 ≤ n.raw) (g : ℤ → ℚ) {P : List ℤ} {s : ℤ} {out : List (Option ℚ)}
    (hg : 0 ≤ g s) (hs : Active ns s) (hP : ∀ t ∈ P, t < s) (h : SlopesInv ns g P out) :
    SlopesInv ns g (P ++ [s]) (addSeason ns (some (g s)) s out) := by
  obtain ⟨h1, h2, h3⟩ := h
  have hpos := rates_pos hr hs
  have hmax := max_upTo hr hs
  have hval : ∀ i n, ns[i]? = some n → (addSeason ns (some (g s)) s out)[i]? = some (some (wantedAt ns g (P ++ [s]) i ⌊n.season⌋)) := by
    intro i n hi
    have hlt := (List.getElem?_eq_some_iff.1 hi).1
    unfold addSeason
    rw [hmax, if_pos hpos, List.getElem?_map, List.getElem?_range hlt]
    simp only [Option.map_some, Option.some.injEq]
    have hgd : ns.getD i ⟨0, 0⟩ = n := by rw [List.getD_eq_getElem?_getD, hi]; rfl
    rw [hgd]
    split_ifs with hc
    · rw [h3]
      simp only [Option.bind_some, Option.map_some, Option.some.injEq]
      unfold wantedAt
      rw [if_pos (by simp [hc]), hc, List.filter_append]
      have e1 : P.filter (· < s) = P := List.filter_eq_self.2 (fun t ht => by simpa using hP t ht)
      have e2 : [s].filter (· < s) = [] := by simp
      rw [e1, e2, List.append_nil]
      ring
    · rw [List.getD_eq_getElem?_getD, h2 i n hi]
      simp only [Option.getD_some, Option.some.injEq]
      unfold wantedAt
      by_cases hm : ⌊n.season⌋ ∈ P
      · rw [if_pos hm, if_pos (by simp [hm]), List.filter_append]
        have e2 : [s].filter (· < ⌊n.season⌋) = [] := by
          have := hP _ hm
          rw [List.filter_eq_nil_iff]
          intro x hx
          simp only [List.mem_singleton] at hx
          subst hx
          simp only [decide_eq_true_eq, not_lt]; omega
        rw [e2, List.append_nil]
      · rw [if_neg hm, if_neg (by simp [hm, hc])]
  have hlen : (addSeason ns (some (g s)) s out).length = ns.length := by
    unfold addSeason
    split_ifs <;> simp [h1]
  refine ⟨hlen, hval, ?_⟩
  obtain ⟨i0, n0, k1, k2, k3⟩ := last_inSeason hs
  apply maxO_eq
  · rw [List.mem_iff_getElem?]
    refine ⟨i0, ?_⟩
    rw [hval i0 n0 k1, k2]
    unfold wantedAt
    rw [if_pos (by simp), k3, div_self (ne_of_gt hpos), List.filter_append]
    have e1 : P.filter (· < s) = P := List.filter_eq_self.2 (fun t ht => by simpa using hP t ht)
    have e2 : [s].filter (· < s) = [] := by simp
    rw [e1, e2, List.append_nil, List.map_append, List.sum_append]
    simp
  · intro x hx
    obtain ⟨i, hi⟩ := List.mem_iff_getElem?.1 hx
    have hlt := (List.getElem?_eq_some_iff.1 hi).1
    rw [hlen] at hlt
    have hn := List.getElem?_eq_getElem hlt
    rw [hval i _ hn] at hi
    simp only [Option.some.injEq] at hi
    refine ⟨_, hi.symm, ?_⟩
    rw [List.map_append, List.sum_append]
    simp only [List.map_cons, List.map_nil, List.sum_cons, List.sum_nil, add_zero]
    have hold : wantedAt ns g P i ⌊ns[i].season⌋ ≤ (P.map g).sum :=
      maxO_le h3 (List.mem_iff_getElem?.2 ⟨i, h2 i _ hn⟩)
    by_cases hc : ⌊ns[i].season⌋ = s
    · unfold wantedAt
      rw [if_pos (by simp [hc]), hc, List.filter_append]
      have e1 : P.filter (· < s) = P := List.filter_eq_self.2 (fun t ht => by simpa using hP t ht)
      have e2 : [s].filter (· < s) = [] := by simp
      rw [e1, e2, List.append_nil]
      have : upTo ns s i / rates ns s ≤ 1 := by
        rw [div_le_one hpos]; exact rates_take_le hr s _
      have := mul_le_mul_of_nonneg_left this hg
      linarith
    · have e : wantedAt ns g (P ++ [s]) i ⌊ns[i].season⌋ = wantedAt ns g P i ⌊ns[i].season⌋ := by
        unfold wantedAt
        by_cases hm : ⌊ns[i].season⌋ ∈ P
        · rw [if_pos hm, if_pos (by simp [hm]), List.filter_append]
          have e2 : [s].filter (· < ⌊ns[i].season⌋) = [] := by
            have := hP _ hm
            rw [List.filter_eq_nil_iff]
            intro x hx
            simp only [List.mem_singleton] at hx
            subst hx
            simp only [decide_eq_true_eq, not_lt]; omega
          rw [e2, List.append_nil]
        · rw [if_neg hm, if_neg (by simp [hm, hc])]
      rw [e]
      linarith

theorem slopes_inv {ns : List Night} (hne : ns ≠ []) (hr : ∀ n ∈ ns, 0 ≤ n.raw) (seq ml : ℚ) (b : Option Boost) (g : ℤ → ℚ) :
    ∀ P : List ℤ, P.Pairwise (· < ·) → (∀ s ∈ P, Active ns s ∧ goal seq ml b ns s = some (g s) ∧ 0 ≤ g s) →
      SlopesInv ns g P (P.foldl (fun out s => addSeason ns (goal seq ml b ns s) s out) (ns.map (fun _ => some 0))) := by
  intro P
  induction P using List.reverseRecOn with
  | nil =>
    intro _ _
    refine ⟨by simp, ?_, ?_⟩
    · intro i n hi
      simp only [List.foldl_nil]
      rw [List.getElem?_map, hi]
      simp [wantedAt]
    · simp only [List.foldl_nil, List.map_nil, List.sum_nil]
      apply maxO_eq
      · cases ns with
        | nil => exact absurd rfl hne
        | cons a l => simp
      · intro x hx
        obtain ⟨n, -, rfl⟩ := List.mem_map.1 hx
        exact ⟨0, rfl, le_refl _⟩
  | append_singleton P s ih =>
    intro hp hall
    rw [List.pairwise_append] at hp
    obtain ⟨p1, -, p3⟩ := hp
    obtain ⟨a1, a2, a3⟩ := hall s (by simp)
    rw [List.foldl_append]
    simp only [List.foldl_cons, List.foldl_nil]
    rw [a2]
    exact addSeason_inv hr g a3 a1 (fun t ht => p3 t ht s (by simp)) (ih p1 (fun t ht => hall t (by simp [ht])))

/-- C131. On a night of a season with a rate, the number wanted is that of the seasons before, and of this season the part
given by the rates so far; other nights get nothing. -/
theorem C131_value (seq ml : ℚ) (b : Option Boost) (ns : List Night) (hr : ∀ n ∈ ns, 0 ≤ n.raw) (g : ℤ → ℚ)
    (hg : ∀ s, Active ns s → goal seq ml b ns s = some (g s) ∧ 0 ≤ g s) (i : ℕ) (n : Night) (hi : ns[i]? = some n) :
    (Active ns ⌊n.season⌋ → ∃ before : List ℤ, before.Nodup ∧ (∀ s, s ∈ before ↔ Active ns s ∧ s < ⌊n.season⌋) ∧
      (slopes seq ml b ns)[i]? = some (some ((before.map g).sum +
        g ⌊n.season⌋ * (rates (ns.take (i + 1)) ⌊n.season⌋ / rates ns ⌊n.season⌋)))) ∧
    (¬ Active ns ⌊n.season⌋ → (slopes seq ml b ns)[i]? = some (some 0)) := by
  have hne : ns ≠ [] := by rintro rfl; simp at hi
  obtain ⟨-, h2, -⟩ := slopes_inv hne hr seq ml b g (seasonList ns) (uniqueZ_sorted _)
    (fun s hs => ⟨(mem_seasonList _ _).1 hs, hg s ((mem_seasonList _ _).1 hs)⟩)
  have hv := h2 i n hi
  change (slopes seq ml b ns)[i]? = _ at hv
  constructor
  · intro ha
    refine ⟨(seasonList ns).filter (· < ⌊n.season⌋), ((uniqueZ_sorted _).imp (fun h => ne_of_lt h)).filter _, ?_, ?_⟩
    · intro s
      rw [List.mem_filter, mem_seasonList]
      simp
    · rw [hv]
      unfold wantedAt
      rw [if_pos ((mem_seasonList _ _).2 ha)]
      rfl
  · intro ha
    rw [hv]
    unfold wantedAt
    rw [if_neg (fun h => ha ((mem_seasonList _ _).1 h))]

theorem sum_before {P : List ℤ} (g : ℤ → ℚ) (hg : ∀ t ∈ P, 0 ≤ g t) {s s' : ℤ} (hs : s ∈ P) (h : s < s') :
    ((P.filter (· < s)).map g).sum + g s ≤ ((P.filter (· < s')).map g).sum := by
  have hp := (List.filter_append_perm (fun t => decide (t < s)) (P.filter (· < s'))).map g
  rw [← hp.sum_eq, List.map_append, List.sum_append, List.filter_filter]
  have e : P.filter (fun t => decide (t < s) && decide (t < s')) = P.filter (· < s) := by
    apply List.filter_congr
    intro t _
    by_cases ht : t < s
    · have : t < s' := by omega
      simp [ht, this]
    · simp [ht]
  rw [e]
  have hm : g s ∈ (((P.filter (· < s')).filter (fun t => !decide (t < s))).map g) :=
    List.mem_map.2 ⟨s, List.mem_filter.2 ⟨List.mem_filter.2 ⟨hs, by simpa using h⟩, by simp⟩, rfl⟩
  have := List.single_le_sum (l := ((P.filter (· < s')).filter (fun t => !decide (t < s))).map g) (by
    intro x hx
    obtain ⟨t, ht, rfl⟩ := List.mem_map.1 hx
    exact hg t (List.mem_filter.1 (List.mem_filter.1 ht).1).1) _ hm
  linarith

/-- C131. Over the nights of seasons with a rate, in the order of time, the number wanted never falls. -/
theorem C131_rising_partial (seq ml : ℚ) (b : Option Boost) (ns : List Night) (hr : ∀ n ∈ ns, 0 ≤ n.raw) (g : ℤ → ℚ)
    (hg : ∀ s, Active ns s → goal seq ml b ns s = some (g s) ∧ 0 ≤ g s) (hord : ns.Pairwise (fun a b => a.season ≤ b.season))
    (i j : ℕ) (m n : Night) (hi : ns[i]? = some m) (hj : ns[j]? = some n) (hij : i ≤ j) (ha : Active ns ⌊m.season⌋)
    (ha' : Active ns ⌊n.season⌋) :
    ∃ x y, (slopes seq ml b ns)[i]? = some (some x) ∧ (slopes seq ml b ns)[j]? = some (some y) ∧ x ≤ y := by
  have hne : ns ≠ [] := by rintro rfl; simp at hi
  obtain ⟨-, h2, -⟩ := slopes_inv hne hr seq ml b g (seasonList ns) (uniqueZ_sorted _)
    (fun s hs => ⟨(mem_seasonList _ _).1 hs, hg s ((mem_seasonList _ _).1 hs)⟩)
  refine ⟨_, _, h2 i m hi, h2 j n hj, ?_⟩
  have hle : m.season ≤ n.season := by
    obtain ⟨i1, rfl⟩ := List.getElem?_eq_some_iff.1 hi
    obtain ⟨j1, rfl⟩ := List.getElem?_eq_some_iff.1 hj
    rcases Nat.lt_or_ge i j with h' | h'
    · exact List.pairwise_iff_getElem.1 hord i j i1 j1 h'
    · have : i = j := by omega
      subst this; exact le_refl _
  have hfl := Int.floor_le_floor hle
  have hgs := (hg _ ha).2
  have hgs' := (hg _ ha').2
  unfold wantedAt
  rw [if_pos ((mem_seasonList _ _).2 ha), if_pos ((mem_seasonList _ _).2 ha')]
  rcases lt_or_eq_of_le hfl with h | h
  · have h3 := sum_before (P := seasonList ns) g (fun t ht => (hg t ((mem_seasonList _ _).1 ht)).2) ((mem_seasonList _ _).2 ha) h
    have h4 : upTo ns ⌊m.season⌋ i / rates ns ⌊m.season⌋ ≤ 1 := by
      rw [div_le_one (rates_pos hr ha)]; exact rates_take_le hr _ _
    have h5 : 0 ≤ upTo ns ⌊n.season⌋ j / rates ns ⌊n.season⌋ :=
      div_nonneg (rates_nonneg (fun k hk => hr k (List.mem_of_mem_take hk)) _) (rates_nonneg hr _)
    have h6 := mul_le_mul_of_nonneg_left h4 hgs
    have h7 := mul_nonneg hgs' h5
    linarith
  · rw [h]
    have h4 : upTo ns ⌊n.season⌋ i / rates ns ⌊n.season⌋ ≤ upTo ns ⌊n.season⌋ j / rates ns ⌊n.season⌋ :=
      div_le_div_of_nonneg_right (rates_take_mono hr _ (by omega)) (rates_nonneg hr _)
    have := mul_le_mul_of_nonneg_left h4 hgs'
    linarith

/-- C131. The greatest number wanted is the sum over all seasons with a rate. -/
theorem C131_total (seq ml : ℚ) (b : Option Boost) (ns : List Night) (hne : ns ≠ []) (hr : ∀ n ∈ ns, 0 ≤ n.raw) (g : ℤ → ℚ)
    (hg : ∀ s, Active ns s → goal seq ml b ns s = some (g s) ∧ 0 ≤ g s) :
    ∃ ss : List ℤ, ss.Nodup ∧ (∀ s, s ∈ ss ↔ Active ns s) ∧ (slopes seq ml b ns).length = ns.length ∧
      maxO (slopes seq ml b ns) = some (ss.map g).sum := by
  obtain ⟨h1, -, h3⟩ := slopes_inv hne hr seq ml b g (seasonList ns) (uniqueZ_sorted _)
    (fun s hs => ⟨(mem_seasonList _ _).1 hs, hg s ((mem_seasonList _ _).1 hs)⟩)
  exact ⟨seasonList ns, (uniqueZ_sorted _).imp (fun h => ne_of_lt h), mem_seasonList ns, h1, h3⟩

/-- C131. A single season gets the whole number asked for, however short it is. -/
theorem C131_alone (seq : ℚ) (ns : List Night) (s : ℤ) (l : ℚ) (h : Span ns s l) (hl : 0 < l) (hs : ∀ t, Active ns t → t = s) :
    goal seq 0 none ns s = some (roundHalfEven seq : ℚ) := by
  have := C131_goal seq ns s s l l h h (by
    intro t k hk
    have : t = s := by
      obtain ⟨a, ha, b, hb, h2, h3⟩ := hk
      exact hs t ⟨a, ha, h2.1, h2.2⟩
    subst this
    rw [← span_length h, ← span_length hk]) hl
  rwa [mul_div_assoc, div_self (ne_of_gt hl), mul_one] at this

/-- C131 does not hold in full: after the last season with a rate the number wanted falls to nothing. -/
theorem C131_rising_violated : slopes 10 0 none [⟨1, 1 / 4⟩, ⟨1, 3 / 4⟩, ⟨0, 5 / 4⟩] = [some 5, some 10, some 0] := by
  decide +kernel

/-- C131 does not hold in full: with a single night that has a rate the number wanted is not a number. -/
theorem C131_one_night_violated : slopes 1 0 none [⟨0, 1 / 4⟩, ⟨1, 1 / 2⟩, ⟨0, 3 / 4⟩] = [none, none, none] := by
  decide +kernel

/-- Two seasons, the second half as long and with a night without a rate. -/
example : slopes 10 0 none [⟨1, 1 / 4⟩, ⟨1, 1 / 2⟩, ⟨1, 3 / 4⟩, ⟨1, 5 / 4⟩, ⟨0, 11 / 8⟩, ⟨1, 3 / 2⟩] =
    [some (10 / 3), some (20 / 3), some 10, some (25 / 2), some (25 / 2), some 15] := by
  decide +kernel

example : Span [⟨1, 1 / 4⟩, ⟨1, 3 / 4⟩, ⟨0, 7 / 8⟩] 0 (1 / 2) :=
  ⟨⟨1, 1 / 4⟩, by simp, ⟨1, 3 / 4⟩, by simp, by norm_num, by norm_num, by
    intro n hn h1 h2
    simp only [List.mem_cons, List.not_mem_nil, or_false] at hn
    rcases hn with rfl | rfl | rfl
    · norm_num
    · norm_num
    · exact absurd rfl h1, by norm_num⟩

end Verif
