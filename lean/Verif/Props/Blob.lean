import Verif.Model.Blob
import Verif.Props.Reward

/-! C97-C99: from a map of rewards to a list of fields. -/

namespace Verif

open Rew Blob

/-! ### Sorting -/

theorem sortLe_trans {x y z : XReal} (h1 : sortLe x y = true) (h2 : sortLe y z = true) : sortLe x z = true := by
  unfold sortLe at *
  cases z <;> cases y <;> cases x <;> simp_all [XReal.isNan, XReal.leB]
  exact le_trans h1 h2

theorem sortLe_total (x y : XReal) : sortLe x y = true ∨ sortLe y x = true := by
  unfold sortLe
  cases x <;> cases y <;> simp [XReal.isNan, XReal.leB]
  exact le_total _ _

theorem descending_perm (v : ℕ → XReal) (ids : List ℕ) : (descending v ids).Perm ids :=
  (List.reverse_perm _).trans (List.perm_insertionSort _ _)

theorem descending_sorted (v : ℕ → XReal) (ids : List ℕ) :
    (descending v ids).Pairwise (fun i j => sortLe (v j) (v i) = true) := by
  unfold descending
  rw [List.pairwise_reverse]
  have : Std.Total (fun i j => sortLe (v i) (v j) = true) := ⟨fun i j => sortLe_total _ _⟩
  have : IsTrans ℕ (fun i j => sortLe (v i) (v j) = true) := ⟨fun _ _ _ h1 h2 => sortLe_trans h1 h2⟩
  exact List.pairwise_insertionSort _ _

theorem take_best {α : Type} {R : α → α → Prop} {l : List α} (h : l.Pairwise R) (n : ℕ) {x y : α}
    (hx : x ∈ l.take n) (hy : y ∈ l) (hn : y ∉ l.take n) : R x y := by
  have hd : y ∈ l.drop n := by
    rw [← List.take_append_drop n l] at hy
    exact (List.mem_append.1 hy).resolve_left hn
  rw [← List.take_append_drop n l, List.pairwise_append] at h
  exact h.2.2 x hx y hd

theorem unique_mem (l : List ℕ) (x : ℕ) : x ∈ unique l ↔ x ∈ l := by
  unfold unique
  rw [List.mem_insertionSort, List.mem_dedup]

theorem unique_sorted (l : List ℕ) : (unique l).Pairwise (· < ·) := by
  have h1 : (unique l).Pairwise (· ≤ ·) := List.pairwise_insertionSort _ _
  have h2 : (unique l).Nodup := (List.perm_insertionSort _ _).nodup_iff.2 (List.nodup_dedup l)
  exact (h1.and h2).imp (fun ⟨a, b⟩ => lt_of_le_of_ne a b)

theorem at'_eq {m : List XReal} {i : ℕ} {x : XReal} (h : m[i]? = some x) : at' m i = x := by
  unfold at'; rw [List.getD_eq_getElem?_getD, h]; rfl

theorem finite_iff (m : List XReal) (i : ℕ) :
    (i < m.length ∧ (at' m i).isFinite = true) ↔ ∃ q, m[i]? = some (.fin q) := by
  constructor
  · rintro ⟨h, hf⟩
    have e : m[i]? = some (at' m i) := by
      unfold at'; rw [List.getD_eq_getElem _ _ h, List.getElem?_eq_getElem h]
    rw [e]
    cases hx : at' m i <;> rw [hx] at hf <;> simp_all [XReal.isFinite]
  · rintro ⟨q, hq⟩
    refine ⟨(List.getElem?_eq_some_iff.1 hq).1, ?_⟩
    rw [at'_eq hq]; rfl

/-! ### C97: greedy surveys -/

/-- C97: a greedy survey visits exactly the fields of its `block` best pixels (all of them if
there are fewer): pixels with an ordinary reward, none better left out; each field once, in
ascending order. -/
theorem C97_greedy (field : ℕ → ℕ) (m : List XReal) (block : ℕ) :
    ∃ P : List ℕ, P.Nodup ∧ P.length = min block (m.countP XReal.isFinite) ∧
      (∀ p ∈ P, ∃ q, m[p]? = some (.fin q)) ∧
      (∀ p ∈ P, ∀ p' ∉ P, ∀ q q', m[p]? = some (.fin q) → m[p']? = some (.fin q') → q' ≤ q) ∧
      (greedy field m block).Pairwise (· < ·) ∧
      ∀ f, f ∈ greedy field m block ↔ ∃ p ∈ P, field p = f := by
  have hperm := descending_perm (at' m) (List.range m.length)
  have hmem : ∀ i, i ∈ (descending (at' m) (List.range m.length)).filter (fun i => (at' m i).isFinite) ↔ ∃ q, m[i]? = some (.fin q) := by
    intro i
    rw [List.mem_filter, hperm.mem_iff, List.mem_range, finite_iff]
  refine ⟨bestPixels m block, ?_, ?_, ?_, ?_, unique_sorted _, ?_⟩
  · exact ((hperm.nodup_iff.2 List.nodup_range).filter _).sublist (List.take_sublist _ _)
  · unfold bestPixels
    rw [List.length_take]
    congr 1
    rw [(hperm.filter _).length_eq, ← List.countP_eq_length_filter]
    have hl : m = (List.range m.length).map (at' m) := by
      apply List.ext_getElem
      · simp
      · intro i h1 h2; simp [at', List.getElem?_eq_getElem h1]
    conv_rhs => rw [hl, List.countP_map]
    rfl
  · intro p hp
    exact (hmem p).1 (List.mem_of_mem_take hp)
  · intro p hp p' hp' q q' hq hq'
    have hs := (descending_sorted (at' m) (List.range m.length)).filter (fun i => (at' m i).isFinite)
    have := take_best hs block hp ((hmem p').2 ⟨q', hq'⟩) hp'
    rw [at'_eq hq, at'_eq hq'] at this
    simpa [sortLe, XReal.isNan, XReal.leB] using this
  · intro f
    unfold greedy
    rw [unique_mem, List.mem_map]

example : greedy (· / 2) [.fin 1, .fin 5, .nan, .fin 4, .ninf, .fin 4, .fin 0] 3 = [0, 1, 2] := by decide +kernel

/-! ### C98: growing a region -/

/-- Neighbours are mutual. -/
def Mutual (nb : ℕ → List ℕ) : Prop := ∀ p q, p ∈ nb q → q ∈ nb p

/-- `p` is a right next pixel for the region `sel`: new, unmasked, next to the region, and no
other new neighbour of the region has a larger value. -/
def GoodNext (nb : ℕ → List ℕ) (m : List XReal) (sel : List ℕ) (p : ℕ) : Prop :=
  p ∉ sel ∧ at' m p ≠ .nan ∧ (∃ q ∈ sel, p ∈ nb q) ∧
    ∀ q ∈ sel, ∀ p' ∈ nb q, p' ∉ sel → at' m p' = .nan ∨ XReal.leB (at' m p') (at' m p) = true

/-- The region was grown pixel by pixel. -/
def Grown (nb : ℕ → List ℕ) (m : List XReal) (sel : List ℕ) : Prop :=
  sel.Nodup ∧ (∀ p ∈ sel, at' m p ≠ .nan) ∧
    ∀ k p, 0 < k → sel[k]? = some p → GoodNext nb m (sel.take k) p

/-- Everything next to the region is masked. -/
def Closed (nb : ℕ → List ℕ) (m : List XReal) (sel : List ℕ) : Prop :=
  ∀ q ∈ sel, ∀ p ∈ nb q, p ∉ sel → at' m p = .nan

theorem mem_frontier {nb : ℕ → List ℕ} (hm : Mutual nb) (sel : List ℕ) (p : ℕ) :
    p ∈ frontier nb sel ↔ p ∉ sel ∧ ∃ q ∈ sel, p ∈ nb q := by
  unfold frontier
  rw [List.mem_flatMap]
  constructor
  · rintro ⟨q, hq, hp⟩
    rw [List.mem_filter] at hp
    refine ⟨?_, q, hq, hp.1⟩
    intro hps
    have := hp.2
    simp [hps, hm p q hp.1] at this
  · rintro ⟨hns, q, hq, hp⟩
    refine ⟨q, hq, ?_⟩
    rw [List.mem_filter]
    exact ⟨hp, by simp [hns]⟩

theorem pick_spec {m : List XReal} {cand : List ℕ} {p : ℕ} (h : pick m cand = some p) :
    p ∈ cand ∧ at' m p ≠ .nan ∧ ∀ x ∈ cand, at' m x = .nan ∨ XReal.leB (at' m x) (at' m p) = true := by
  unfold pick at h
  rcases hm : XReal.nanmax (cand.map (at' m)) with _ | v <;> rw [hm] at h
  · cases h
  · dsimp only at h
    have h1 := List.mem_of_find?_eq_some h
    have h2 := List.find?_some h
    have hne : at' m p ≠ .nan := by intro e; rw [e] at h2; simp [XReal.eqB] at h2
    have hv : at' m p = v := by
      generalize at' m p = x at *
      cases x <;> simp_all [XReal.eqB]
    refine ⟨h1, hne, ?_⟩
    intro x hx
    rcases XReal.nanmax_max hm with ⟨e, _⟩ | ⟨_, _, h3⟩
    · rw [← hv] at e; exact absurd e hne
    · rw [hv]; exact h3 _ (List.mem_map.2 ⟨x, hx, rfl⟩)

theorem pick_none {m : List XReal} {cand : List ℕ} (h : pick m cand = none) : ∀ x ∈ cand, at' m x = .nan := by
  intro x hx
  unfold pick at h
  rcases hm : XReal.nanmax (cand.map (at' m)) with _ | v <;> rw [hm] at h
  · have := XReal.nanmax_none hm
    simp only [List.map_eq_nil_iff] at this
    rw [this] at hx; simp at hx
  · dsimp only at h
    rw [List.find?_eq_none] at h
    rcases XReal.nanmax_max hm with ⟨_, h2⟩ | ⟨h1, h2, _⟩
    · exact h2 _ (List.mem_map.2 ⟨x, hx, rfl⟩)
    · exfalso
      obtain ⟨y, hy, hyv⟩ := List.mem_map.1 h2
      apply h y hy
      rw [hyv]
      cases v <;> simp_all [XReal.eqB]

theorem grown_append {nb : ℕ → List ℕ} {m : List XReal} {sel : List ℕ} {p : ℕ} (h : Grown nb m sel)
    (hp : GoodNext nb m sel p) : Grown nb m (sel ++ [p]) := by
  obtain ⟨h1, h2, h3⟩ := h
  refine ⟨?_, ?_, ?_⟩
  · rw [List.nodup_append]
    refine ⟨h1, by simp, ?_⟩
    intro a ha b hb
    simp at hb; subst hb
    rintro rfl; exact hp.1 ha
  · intro x hx
    rcases List.mem_append.1 hx with hx | hx
    · exact h2 x hx
    · simp at hx; subst hx; exact hp.2.1
  · intro k x hk hx
    by_cases hkl : k < sel.length
    · rw [List.getElem?_append_left hkl] at hx
      rw [List.take_append_of_le_length (by omega)]
      exact h3 k x hk hx
    · rw [List.getElem?_append_right (by omega)] at hx
      have hk' : k - sel.length = 0 := by
        rcases hd : k - sel.length with _ | d
        · rfl
        · rw [hd] at hx; simp at hx
      have : k = sel.length := by omega
      subst this
      simp at hx; subst hx
      rw [List.take_left']
      · exact hp
      · rfl

theorem growLoop_spec {nb : ℕ → List ℕ} (hm : Mutual nb) (m : List XReal) (k : ℕ) : ∀ (sel out : List ℕ),
    Grown nb m sel → growLoop nb m k sel = some out →
    Grown nb m out ∧ sel <+: out ∧ (out.length = sel.length + k ∨ Closed nb m out) := by
  induction k with
  | zero => intro sel out hg h; cases h; exact ⟨hg, List.prefix_refl _, Or.inl rfl⟩
  | succ k ih =>
    intro sel out hg h
    unfold growLoop at h
    split_ifs at h with he
    rcases hp : pick m (frontier nb sel) with _ | p <;> rw [hp] at h
    · cases h
      refine ⟨hg, List.prefix_refl _, Or.inr ?_⟩
      intro q hq x hx hn
      exact pick_none hp x ((mem_frontier hm sel x).2 ⟨hn, q, hq, hx⟩)
    · dsimp only at h
      obtain ⟨h1, h2, h3⟩ := pick_spec hp
      have hgn : GoodNext nb m sel p := by
        obtain ⟨a, b⟩ := (mem_frontier hm sel p).1 h1
        refine ⟨a, h2, b, ?_⟩
        intro q hq x hx hn
        exact h3 x ((mem_frontier hm sel x).2 ⟨hn, q, hq, hx⟩)
      obtain ⟨i1, i2, i3⟩ := ih _ out (grown_append hg hgn) h
      refine ⟨i1, (List.prefix_append _ _).trans i2, ?_⟩
      rcases i3 with i3 | i3
      · left; rw [i3]; simp; omega
      · exact Or.inr i3

/-- C98: the region starts at the maximum of the map, has every pixel once and none masked;
each further pixel is the best unmasked one next to the region so far; it ends only when all
unmasked pixels are in or everything next to it is masked. -/
theorem C98_grow (nb : ℕ → List ℕ) (hm : Mutual nb) (m : List XReal) (out : List ℕ) (h : grow nb m = some out) :
    (∃ p, out.head? = some p ∧ IsPeak m p) ∧ Grown nb m out ∧
      (out.length = m.countP (fun x => !x.isNan) ∨ Closed nb m out) := by
  unfold grow at h
  rcases hp : peak m with _ | p <;> rw [hp] at h
  · cases h
  · dsimp only at h
    have hpk := peak_spec hp
    obtain ⟨x, hx, hne, _⟩ := hpk
    have hg : Grown nb m [p] := by
      refine ⟨by simp, ?_, ?_⟩
      · intro q hq; simp at hq; subst hq; rw [at'_eq hx]; exact hne
      · intro k y hk hy
        rcases k with _ | k
        · omega
        · simp at hy
    obtain ⟨h1, ⟨t, h2⟩, h3⟩ := growLoop_spec hm m _ _ _ hg h
    refine ⟨⟨p, by rw [← h2]; rfl, peak_spec hp⟩, h1, ?_⟩
    rcases h3 with h3 | h3
    · left
      rw [h3]
      have : 0 < m.countP (fun x => !x.isNan) := by
        rw [List.countP_pos_iff]
        refine ⟨x, List.mem_of_getElem? hx, ?_⟩
        cases x <;> simp_all [XReal.isNan]
      simp; omega
    · exact Or.inr h3

/-- The sphere in one piece: from every set of some but not all pixels there is a way out to a
pixel of the map. -/
def OnePiece (nb : ℕ → List ℕ) (n : ℕ) : Prop :=
  ∀ sel : List ℕ, sel ≠ [] → (∀ p ∈ sel, p < n) → (∃ p < n, p ∉ sel) → ∃ q ∈ sel, ∃ p ∈ nb q, p ∉ sel

theorem growLoop_total {nb : ℕ → List ℕ} (hm : Mutual nb) (m : List XReal) (h1 : OnePiece nb m.length) (k : ℕ) :
    ∀ sel : List ℕ, Grown nb m sel → sel ≠ [] → sel.length + k ≤ m.countP (fun x => !x.isNan) →
    ∃ out, growLoop nb m k sel = some out := by
  induction k with
  | zero => intro sel _ _ _; exact ⟨sel, rfl⟩
  | succ k ih =>
    intro sel hg hne hlen
    have hlt : ∀ p ∈ sel, p < m.length := by
      intro p hp
      by_contra hge
      apply hg.2.1 p hp
      unfold at'
      rw [List.getD_eq_default _ _ (by omega)]
    have hmiss : ∃ p < m.length, p ∉ sel := by
      by_contra hall
      push Not at hall
      have hsub : List.range m.length ⊆ sel := by intro p hp; exact hall p (List.mem_range.1 hp)
      have := (List.subperm_of_subset List.nodup_range hsub).length_le
      have hc := List.countP_le_length (p := fun x : XReal => !x.isNan) (l := m)
      simp at this
      omega
    obtain ⟨q, hq, p, hp, hpn⟩ := h1 sel hne hlt hmiss
    have hf : p ∈ frontier nb sel := (mem_frontier hm sel p).2 ⟨hpn, q, hq, hp⟩
    unfold growLoop
    rw [if_neg (by
      intro he
      rw [List.isEmpty_iff] at he
      rw [he] at hf; simp at hf)]
    rcases hpk : pick m (frontier nb sel) with _ | x
    · exact ⟨sel, rfl⟩
    · obtain ⟨h2, h3, h4⟩ := pick_spec hpk
      have hgn : GoodNext nb m sel x := by
        obtain ⟨a, b⟩ := (mem_frontier hm sel x).1 h2
        refine ⟨a, h3, b, ?_⟩
        intro q hq y hy hn
        exact h4 y ((mem_frontier hm sel y).2 ⟨hn, q, hq, hy⟩)
      exact ih _ (grown_append hg hgn) (by simp) (by simp; omega)

/-- C98: on a sphere in one piece growing never raises, as long as some pixel has an ordinary
reward. -/
theorem C98_no_error (nb : ℕ → List ℕ) (hm : Mutual nb) (m : List XReal) (h1 : OnePiece nb m.length)
    (hfin : ∃ q, .fin q ∈ m) : ∃ out, grow nb m = some out := by
  have hany : m.any XReal.isFinite = true := by
    obtain ⟨q, hq⟩ := hfin
    exact List.any_eq_true.2 ⟨_, hq, rfl⟩
  obtain ⟨p, hp⟩ := peak_exists hany
  unfold grow
  rw [hp]
  obtain ⟨x, hx, hne, _⟩ := peak_spec hp
  have hpos : 0 < m.countP (fun x => !x.isNan) := by
    rw [List.countP_pos_iff]
    refine ⟨x, List.mem_of_getElem? hx, ?_⟩
    cases x <;> simp_all [XReal.isNan]
  apply growLoop_total hm m h1
  · refine ⟨by simp, ?_, ?_⟩
    · intro q hq; simp at hq; subst hq; rw [at'_eq hx]; exact hne
    · intro k y hk hy
      rcases k with _ | k
      · omega
      · simp at hy
  · simp
  · simp; omega

/-- Six pixels in a ring. -/
def ring6 (p : ℕ) : List ℕ := if p < 6 then [(p + 5) % 6, (p + 1) % 6] else []

example : Mutual ring6 := by
  have hall : ∀ a < 6, ∀ b < 6, a ∈ ring6 b → b ∈ ring6 a := by decide
  intro p q h
  have hq : q < 6 := by by_contra hq; simp [ring6, hq] at h
  have hp : p < 6 := by simp only [ring6, hq, if_true, List.mem_cons, List.not_mem_nil, or_false] at h; omega
  exact hall p hp q hq h
example : grow ring6 [.fin 1, .fin 5, .fin 2, .nan, .fin 9, .fin 3] = some [4, 5, 0, 1, 2] := by decide +kernel
example : grow ring6 [.fin 1, .fin 5, .nan, .fin 3, .nan, .fin 3] = some [1, 0, 5] := by decide +kernel

/-! ### C99: blobs -/

theorem foldl_firsts (l : List ℕ) : ∀ acc : List ℕ, acc.Nodup →
    let r := l.foldl (fun acc x => if x ∈ acc then acc else acc ++ [x]) acc
    r.Nodup ∧ acc <+: r ∧ ∀ x, x ∈ r ↔ x ∈ acc ∨ x ∈ l := by
  induction l with
  | nil => intro acc h; exact ⟨h, List.prefix_refl _, by simp⟩
  | cons a l ih =>
    intro acc h
    simp only [List.foldl_cons]
    by_cases ha : a ∈ acc
    · rw [if_pos ha]
      obtain ⟨h1, h2, h3⟩ := ih acc h
      refine ⟨h1, h2, ?_⟩
      intro x
      rw [h3]
      constructor
      · rintro (h | h)
        · exact Or.inl h
        · exact Or.inr (List.mem_cons_of_mem _ h)
      · rintro (h | h)
        · exact Or.inl h
        · rcases List.mem_cons.1 h with rfl | h
          · exact Or.inl ha
          · exact Or.inr h
    · rw [if_neg ha]
      have hn : (acc ++ [a]).Nodup := by
        rw [List.nodup_append]
        refine ⟨h, by simp, ?_⟩
        intro x hx y hy
        simp at hy; subst hy
        rintro rfl; exact ha hx
      obtain ⟨h1, h2, h3⟩ := ih _ hn
      refine ⟨h1, (List.prefix_append _ _).trans h2, ?_⟩
      intro x
      rw [h3]
      simp [or_assoc]

theorem firsts_nodup (l : List ℕ) : (firsts l).Nodup := (foldl_firsts l [] (by simp)).1

theorem firsts_mem (l : List ℕ) (x : ℕ) : x ∈ firsts l ↔ x ∈ l := by
  have := (foldl_firsts l [] (by simp)).2.2 x
  simpa [firsts] using this

theorem firsts_head (a : ℕ) (l : List ℕ) : (firsts (a :: l)).head? = some a := by
  unfold firsts
  rw [List.foldl_cons, if_neg (by simp)]
  obtain ⟨_, ⟨t, ht⟩, _⟩ := foldl_firsts l ([] ++ [a]) (by simp)
  rw [← ht]; rfl

theorem mem_finitePixels (m : List XReal) (i : ℕ) : i ∈ finitePixels m ↔ ∃ q, m[i]? = some (.fin q) := by
  unfold finitePixels
  rw [List.mem_filter, List.mem_range, finite_iff]

/-- The distinct fields with a pixel of ordinary reward. -/
def goodFields (field : ℕ → ℕ) (m : List XReal) : List ℕ := ((finitePixels m).map field).dedup

theorem unique_nodup (l : List ℕ) : (unique l).Nodup := (List.perm_insertionSort _ _).nodup_iff.2 (List.nodup_dedup l)

theorem simpleSort_len (field : ℕ → ℕ) (m : List XReal) (n : ℕ) :
    (simpleSort field m n).length = min n (goodFields field m).length := by
  unfold simpleSort goodFields
  rw [List.length_take, (descending_perm _ _).length_eq]
  unfold unique
  rw [List.length_insertionSort]

theorem simpleSort_nodup (field : ℕ → ℕ) (m : List XReal) (n : ℕ) : (simpleSort field m n).Nodup :=
  ((descending_perm _ _).nodup_iff.2 (unique_nodup _)).sublist (List.take_sublist _ _)

theorem simpleSort_mem {field : ℕ → ℕ} {m : List XReal} {n f : ℕ} (h : f ∈ simpleSort field m n) :
    ∃ p q, m[p]? = some (.fin q) ∧ field p = f := by
  have := List.mem_of_mem_take h
  rw [(descending_perm _ _).mem_iff, unique_mem, List.mem_map] at this
  obtain ⟨p, hp, hf⟩ := this
  obtain ⟨q, hq⟩ := (mem_finitePixels m p).1 hp
  exact ⟨p, q, hq, hf⟩

/-- The reward of a field is that of its best pixel. -/
theorem fieldReward_spec {field : ℕ → ℕ} {m : List XReal} {p : ℕ} {q : ℚ} (hp : m[p]? = some (.fin q)) :
    ∃ p' q', m[p']? = some (.fin q') ∧ field p' = field p ∧ fieldReward field m (field p) = .fin q' ∧ q ≤ q' := by
  unfold fieldReward
  have hmem : at' m p ∈ ((finitePixels m).filter (fun i => field i == field p)).map (at' m) := by
    rw [List.mem_map]
    exact ⟨p, List.mem_filter.2 ⟨(mem_finitePixels m p).2 ⟨q, hp⟩, by simp⟩, rfl⟩
  rcases hv : XReal.nanmax (((finitePixels m).filter (fun i => field i == field p)).map (at' m)) with _ | v
  · have := XReal.nanmax_none hv
    rw [this] at hmem; simp at hmem
  · rcases XReal.nanmax_max hv with ⟨_, h2⟩ | ⟨_, h2, h3⟩
    · have := h2 _ hmem
      rw [at'_eq hp] at this; cases this
    · obtain ⟨p', hp', hpv⟩ := List.mem_map.1 h2
      rw [List.mem_filter] at hp'
      obtain ⟨q', hq'⟩ := (mem_finitePixels m p').1 hp'.1
      refine ⟨p', q', hq', by simpa using hp'.2, ?_, ?_⟩
      · rw [← hpv, at'_eq hq']; rfl
      · have := h3 _ hmem
        rw [← hpv, at'_eq hq', at'_eq hp] at this
        simpa [XReal.leB] using this

/-- C99: fields chosen by plain sorting are the best ones: every pixel left out is at most as
good as the best pixel of every chosen field. -/
theorem C99_simple_best (field : ℕ → ℕ) (m : List XReal) (n f p' : ℕ) (q' : ℚ) (hf : f ∈ simpleSort field m n)
    (hp' : m[p']? = some (.fin q')) (hout : field p' ∉ simpleSort field m n) :
    ∃ p q, m[p]? = some (.fin q) ∧ field p = f ∧ q' ≤ q := by
  obtain ⟨p, q, hp, hpf⟩ := simpleSort_mem hf
  have hin : field p' ∈ descending (fieldReward field m) (unique ((finitePixels m).map field)) := by
    rw [(descending_perm _ _).mem_iff, unique_mem, List.mem_map]
    exact ⟨p', (mem_finitePixels m p').2 ⟨q', hp'⟩, rfl⟩
  have hs := take_best (descending_sorted (fieldReward field m) (unique ((finitePixels m).map field))) n hf hin hout
  obtain ⟨p1, q1, h1, h2, h3, h4⟩ := fieldReward_spec (field := field) hp
  obtain ⟨p2, q2, k1, k2, k3, k4⟩ := fieldReward_spec (field := field) hp'
  refine ⟨p1, q1, h1, h2.trans hpf, ?_⟩
  rw [← hpf, h3, k3] at hs
  have : q2 ≤ q1 := by simpa [sortLe, XReal.isNan, XReal.leB] using hs
  exact le_trans k4 this

/-- C99: the fields of a pass are distinct, at most as many as asked for, each has an unmasked
pixel, and there are as many as asked for whenever enough fields have an ordinary reward. -/
theorem C99_fields (nb : ℕ → List ℕ) (hm : Mutual nb) (field : ℕ → ℕ) (growBlob : Bool) (m : List XReal) (n : ℕ)
    (fs : List ℕ) (h : blobFields nb field growBlob m n = some fs) :
    fs.Nodup ∧ fs.length ≤ n ∧ min n (goodFields field m).length ≤ fs.length ∧
      ∀ f ∈ fs, ∃ p x, m[p]? = some x ∧ x ≠ .nan ∧ field p = f := by
  have hsimple : (simpleSort field m n).Nodup ∧ (simpleSort field m n).length ≤ n ∧
      min n (goodFields field m).length ≤ (simpleSort field m n).length ∧
      ∀ f ∈ simpleSort field m n, ∃ p x, m[p]? = some x ∧ x ≠ .nan ∧ field p = f := by
    refine ⟨simpleSort_nodup _ _ _, ?_, ?_, ?_⟩
    · rw [simpleSort_len]; exact min_le_left _ _
    · rw [simpleSort_len]
    · intro f hf
      obtain ⟨p, q, h1, h2⟩ := simpleSort_mem hf
      exact ⟨p, _, h1, by simp, h2⟩
  unfold blobFields at h
  by_cases hg : growBlob = true
  · rw [if_pos hg] at h
    rcases hr : grow nb m with _ | hp <;> rw [hr] at h
    · cases h
    · dsimp only at h
      by_cases hl : (firsts (hp.map field)).length < n
      · rw [if_pos hl] at h; cases h; exact hsimple
      · rw [if_neg hl] at h; cases h
        obtain ⟨_, ⟨_, hun, _⟩, _⟩ := C98_grow nb hm m hp hr
        refine ⟨(firsts_nodup _).sublist (List.take_sublist _ _), by rw [List.length_take]; exact min_le_left _ _, ?_, ?_⟩
        · rw [List.length_take]; exact le_min (min_le_left _ _) (le_trans (min_le_left _ _) (not_lt.1 hl))
        · intro f hf
          have := List.mem_of_mem_take hf
          rw [firsts_mem, List.mem_map] at this
          obtain ⟨p, hp', hpf⟩ := this
          have hne := hun p hp'
          refine ⟨p, at' m p, ?_, hne, hpf⟩
          by_cases hlt : p < m.length
          · unfold at'; rw [List.getD_eq_getElem _ _ hlt, List.getElem?_eq_getElem hlt]
          · exfalso; apply hne; unfold at'; rw [List.getD_eq_default _ _ (by omega)]
  · rw [if_neg hg] at h; cases h; exact hsimple

/-- The pixel has the largest value of the map. -/
def IsPeakValue (m : List XReal) (p : ℕ) : Prop :=
  ∃ x, m[p]? = some x ∧ x ≠ .nan ∧ ∀ y ∈ m, y = .nan ∨ XReal.leB y x = true

/-- C99: the best pixel of the map lies in the first field chosen, if the map has no `+∞`. -/
theorem C99_best_first (nb : ℕ → List ℕ) (hm : Mutual nb) (field : ℕ → ℕ) (growBlob : Bool) (m : List XReal) (n : ℕ)
    (f : ℕ) (fs : List ℕ) (h : blobFields nb field growBlob m n = some (f :: fs)) (hfin : .pinf ∉ m) :
    ∃ p, field p = f ∧ IsPeakValue m p := by
  have hsimple : simpleSort field m n = f :: fs → ∃ p, field p = f ∧ IsPeakValue m p := by
    intro hs
    have hf : f ∈ simpleSort field m n := by rw [hs]; simp
    obtain ⟨p, q, hp, hpf⟩ := simpleSort_mem hf
    obtain ⟨p1, q1, h1, h2, h3, h4⟩ := fieldReward_spec (field := field) hp
    refine ⟨p1, h2.trans hpf, .fin q1, h1, by simp, ?_⟩
    intro y hy
    cases y with
    | nan => left; rfl
    | pinf => exact absurd hy hfin
    | ninf => right; rfl
    | fin q2 =>
      right
      obtain ⟨p2, hp2⟩ := List.getElem?_of_mem hy
      obtain ⟨p3, q3, k1, k2, k3, k4⟩ := fieldReward_spec (field := field) hp2
      have hin : field p2 ∈ descending (fieldReward field m) (unique ((finitePixels m).map field)) := by
        rw [(descending_perm _ _).mem_iff, unique_mem, List.mem_map]
        exact ⟨p2, (mem_finitePixels m p2).2 ⟨q2, hp2⟩, rfl⟩
      have hsort := descending_sorted (fieldReward field m) (unique ((finitePixels m).map field))
      unfold simpleSort at hs
      rcases hd : descending (fieldReward field m) (unique ((finitePixels m).map field)) with _ | ⟨a, t⟩
      · rw [hd] at hin; simp at hin
      · rw [hd] at hs hin hsort
        have ha : a = f := by
          rcases n with _ | n
          · simp at hs
          · rw [List.take_succ_cons] at hs; exact (List.cons.inj hs).1
        have hq : q3 ≤ q1 := by
          rcases List.mem_cons.1 hin with e | e
          · have : fieldReward field m (field p2) = fieldReward field m (field p) := by rw [e, ha, hpf]
            rw [k3, h3] at this
            cases this; exact le_refl _
          · have := (List.pairwise_cons.1 hsort).1 _ e
            rw [ha, ← hpf, h3, k3] at this
            simpa [sortLe, XReal.isNan, XReal.leB] using this
        simp [XReal.leB]
        exact le_trans k4 hq
  unfold blobFields at h
  by_cases hg : growBlob = true
  · rw [if_pos hg] at h
    rcases hr : grow nb m with _ | hp <;> rw [hr] at h
    · cases h
    · dsimp only at h
      by_cases hl : (firsts (hp.map field)).length < n
      · rw [if_pos hl] at h; exact hsimple (Option.some.inj h)
      · rw [if_neg hl] at h
        obtain ⟨⟨p, hh, x, hx, hne, hmax, _⟩, _⟩ := C98_grow nb hm m hp hr
        refine ⟨p, ?_, x, hx, hne, hmax⟩
        have h := Option.some.inj h
        rcases hp with _ | ⟨a, t⟩
        · simp at hh
        · simp at hh; subst hh
          have := firsts_head (field a) (t.map field)
          rw [List.map_cons] at h
          rcases n with _ | n
          · simp at h
          · rcases hf : firsts (field a :: t.map field) with _ | ⟨b, u⟩
            · rw [hf] at this; simp at this
            · rw [hf] at this h
              simp at this
              rw [List.take_succ_cons] at h
              rw [← this]; exact (List.cons.inj h).1
  · rw [if_neg hg] at h; exact hsimple (Option.some.inj h)

/-- C99: with the first pass every field has an unmasked pixel within the radius of the
maximum of the map. -/
theorem C99_first_pass (nb : ℕ → List ℕ) (hm : Mutual nb) (a : Area) (field : ℕ → ℕ → ℕ) (growBlob : Bool)
    (n : ℕ) (m : List XReal) (b1 b2 : String) (visits : ℕ) (b : String) (fs : List ℕ) (rest : List (String × List ℕ))
    (h : generate nb a field growBlob n m b1 b2 visits = some ((b, fs) :: rest)) :
    b = b1 ∧ ∃ top, IsPeak m top ∧
      ∀ f ∈ fs, ∃ p x, m[p]? = some x ∧ x ≠ .nan ∧ field 0 p = f ∧ a.sep p top ≤ a.radius := by
  unfold generate at h
  rcases visits with _ | visits
  · simp [passesFrom] at h
  · rcases hp : passFields nb a field growBlob n m 0 with _ | fs0
    · simp [passesFrom, hp] at h
    · rcases fs0 with _ | ⟨f0, t0⟩
      · simp [passesFrom, hp] at h
      · unfold passesFrom at h
        rw [hp] at h
        dsimp only at h
        rcases hr : passesFrom nb a field growBlob n m b1 b2 visits (0 + 1) with _ | _ | r <;> rw [hr] at h
        · simp at h
        · simp at h
        · simp only [Option.map_some, Option.getD_some, Option.some.injEq, List.cons.injEq, Prod.mk.injEq] at h
          obtain ⟨⟨hb, hfs⟩, _⟩ := h
          refine ⟨by rw [← hb]; rfl, ?_⟩
          unfold passFields passMap at hp
          rw [if_pos rfl] at hp
          unfold maskFar at hp
          rcases hpk : peak m with _ | top <;> rw [hpk] at hp
          · simp at hp
          · simp only [Option.map_some] at hp
            refine ⟨top, peak_spec hpk, ?_⟩
            intro f hf
            rw [← hfs] at hf
            obtain ⟨_, _, _, h4⟩ := C99_fields nb hm (field 0) growBlob _ n _ hp
            obtain ⟨p, x, hx, hne, hpf⟩ := h4 f hf
            rw [List.getElem?_map] at hx
            by_cases hlt : p < m.length
            · rw [List.getElem?_range hlt] at hx
              simp only [Option.map_some, Option.some.injEq] at hx
              by_cases hs : a.radius < a.sep p top
              · rw [if_pos hs] at hx; exact absurd hx.symm hne
              · rw [if_neg hs] at hx
                refine ⟨p, x, ?_, hne, hpf, not_lt.1 hs⟩
                rw [← hx]; unfold at'
                rw [List.getD_eq_getElem _ _ hlt, List.getElem?_eq_getElem hlt]
            · rw [List.getElem?_eq_none (by simpa using hlt)] at hx
              cases hx

theorem passesFrom_spec {nb : ℕ → List ℕ} {a : Area} {field : ℕ → ℕ → ℕ} {growBlob : Bool} {n : ℕ} {m : List XReal}
    {b1 b2 : String} (count : ℕ) : ∀ (i : ℕ) (r : List (String × List ℕ)),
    passesFrom nb a field growBlob n m b1 b2 count i = some (some r) →
    r.length = count ∧ ∀ k b fs, r[k]? = some (b, fs) → b = (if i + k = 0 then b1 else b2) ∧ fs ≠ [] ∧
      passFields nb a field growBlob n m (i + k) = some fs := by
  induction count with
  | zero => intro i r h; cases h; exact ⟨rfl, by intro k b fs h; simp at h⟩
  | succ count ih =>
    intro i r h
    unfold passesFrom at h
    rcases hp : passFields nb a field growBlob n m i with _ | _ | ⟨f0, t0⟩ <;> rw [hp] at h
    · cases h
    · cases h
    · dsimp only at h
      rcases hr : passesFrom nb a field growBlob n m b1 b2 count (i + 1) with _ | _ | rest <;> rw [hr] at h
      · cases h
      · cases h
      · simp only [Option.some.injEq] at h
        subst h
        obtain ⟨h1, h2⟩ := ih (i + 1) rest hr
        refine ⟨by simp [h1], ?_⟩
        intro k b fs hk
        rcases k with _ | k
        · simp only [List.getElem?_cons_zero, Option.some.injEq, Prod.mk.injEq] at hk
          obtain ⟨rfl, rfl⟩ := hk
          exact ⟨rfl, by simp, by simpa using hp⟩
        · rw [List.getElem?_cons_succ] at hk
          have := h2 k b fs hk
          rw [show i + 1 + k = i + (k + 1) by omega] at this
          exact this

/-- C99: a blob is either empty or has one list of fields per pass, each non-empty, distinct
and at most the block size, in the first band for the first pass and in the second band for
the others. -/
theorem C99_passes (nb : ℕ → List ℕ) (hm : Mutual nb) (a : Area) (field : ℕ → ℕ → ℕ) (growBlob : Bool)
    (n : ℕ) (m : List XReal) (b1 b2 : String) (visits : ℕ) (out : List (String × List ℕ))
    (h : generate nb a field growBlob n m b1 b2 visits = some out) :
    out = [] ∨ (out.length = visits ∧ ∀ k b fs, out[k]? = some (b, fs) →
      b = (if k = 0 then b1 else b2) ∧ fs ≠ [] ∧ fs.Nodup ∧ fs.length ≤ n) := by
  unfold generate at h
  rcases hr : passesFrom nb a field growBlob n m b1 b2 visits 0 with _ | _ | r <;> rw [hr] at h
  · cases h
  · cases h; exact Or.inl rfl
  · cases h
    right
    obtain ⟨h1, h2⟩ := passesFrom_spec visits 0 r hr
    refine ⟨h1, ?_⟩
    intro k b fs hk
    obtain ⟨k1, k2, k3⟩ := h2 k b fs hk
    rw [Nat.zero_add] at k1 k3
    unfold passFields at k3
    rcases hpm : passMap a m k with _ | m' <;> rw [hpm] at k3
    · cases k3
    · obtain ⟨l1, l2, _, _⟩ := C99_fields nb hm (field k) growBlob m' n fs k3
      exact ⟨k1, k2, l1, l2⟩

/-- Six pixels on a line, a radius of one pixel. -/
def area6 : Area where
  required := none
  unit := 1
  pixDeg := 1
  sep := fun i p => if i ≤ p then ((p - i : ℕ) : ℚ) else ((i - p : ℕ) : ℚ)
  radius := 1
  hasSky := true

def map6 : List XReal := [.fin 9, .fin 5, .fin 2, .nan, .fin 4, .fin 8]

/-- C99 fails for the second pass: it takes fields far outside the radius. -/
theorem C99_radius_violated :
    generate ring6 area6 (fun _ p => p) true 3 map6 "g" "r" 2 = some [("g", [0, 1]), ("r", [0, 5, 1])] ∧
      peak map6 = some 0 ∧ area6.radius < area6.sep 5 0 := by decide +kernel

/-- C99: a third pass is taken in the second band. -/
theorem C99_third_band :
    generate ring6 area6 (fun _ p => p) true 2 map6 "g" "r" 3 =
      some [("g", [0, 1]), ("r", [0, 5]), ("r", [0, 5])] := by decide +kernel

example : blobFields ring6 (fun p => p / 2) false map6 2 = some [0, 2] := by decide +kernel
example : blobFields ring6 (fun p => p / 2) true map6 3 = some [0, 2, 1] := by decide +kernel
example : generate ring6 area6 (fun _ p => p) true 3 (List.replicate 6 .ninf) "g" "r" 2 = some [] := by decide +kernel
example : generate ring6 area6 (fun _ p => p) true 3 (List.replicate 6 .nan) "g" "r" 2 = none := by decide +kernel

end Verif
