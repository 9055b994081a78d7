import Verif.Props.HtmIds

/-!
# All trixels of a level (C134)
-/

namespace Verif

open Htm

/-- The entries are right, with every trixel its parent is there, and the trixels to begin with are there. -/
structure DictOk (d : Dict) : Prop where
  right : ∀ k t, d k = some t → trixelFrom k = some t
  parent : ∀ k, (d k).isSome → 16 ≤ k → (d (k / 4)).isSome
  base : ∀ k, 8 ≤ k → k < 16 → (d k).isSome

theorem addChildren_apply (d : Dict) (k : ℕ) (t : Trixel) (j : ℕ) : addChildren d k t j = if j / 4 = k then t.child (j % 4) else d j := by
  unfold addChildren put
  simp only [shl2]
  by_cases h : j / 4 = k
  · rw [if_pos h]
    have : j % 4 = 0 ∨ j % 4 = 1 ∨ j % 4 = 2 ∨ j % 4 = 3 := by omega
    rcases this with e | e | e | e <;> rw [e]
    · rw [if_neg (by omega), if_neg (by omega), if_neg (by omega), if_pos (by omega)]
    · rw [if_neg (by omega), if_neg (by omega), if_pos (by omega)]
    · rw [if_neg (by omega), if_pos (by omega)]
    · rw [if_pos (by omega)]
  · rw [if_neg h, if_neg (by omega), if_neg (by omega), if_neg (by omega), if_neg (by omega)]

theorem level_of_trixel {k : ℕ} {t : Trixel} (h : trixelFrom k = some t) : (levelFrom k).isSome := by
  cases hl : levelFrom k with
  | none => rw [(C134_trixel k).2 hl] at h; simp at h
  | some L => rfl

/-- Adding the children of a trixel that is there keeps the dictionary right. -/
theorem DictOk.addChildren {d : Dict} (h : DictOk d) {k : ℕ} {t : Trixel} (hk : d k = some t) :
    DictOk (addChildren d k t) ∧ (∀ j, (d j).isSome → (addChildren d k t j).isSome) ∧ ∀ j, j / 4 = k → (addChildren d k t j).isSome := by
  have ht := h.right k t hk
  have hl := level_of_trixel ht
  obtain ⟨L, hL⟩ := Option.isSome_iff_exists.1 hl
  have hk8 : 8 ≤ k := by
    have := (C134_level _ _).1 hL
    have := Nat.one_le_pow (L - 1) 4 (by norm_num)
    omega
  have hnew : ∀ j, j / 4 = k → (Htm.addChildren d k t j).isSome := by
    intro j hj
    rw [addChildren_apply, if_pos hj]
    obtain ⟨c, hc, -⟩ := child_some t (Nat.mod_lt j (show 4 > 0 by norm_num))
    rw [hc]; rfl
  have hold : ∀ j, (d j).isSome → (Htm.addChildren d k t j).isSome := by
    intro j hj
    by_cases hjk : j / 4 = k
    · exact hnew j hjk
    · rw [addChildren_apply, if_neg hjk]; exact hj
  refine ⟨⟨?_, ?_, fun j h1 h2 => hold j (h.base j h1 h2)⟩, hold, hnew⟩
  · intro j c hc
    rw [addChildren_apply] at hc
    split_ifs at hc with hj
    · have := C134_child k (j % 4) (Nat.mod_lt _ (by norm_num)) hl
      rw [ht, show 4 * k + j % 4 = j by omega] at this
      rw [this]
      exact hc
    · exact h.right j c hc
  · intro j hj h16
    by_cases hjk : j / 4 = k
    · rw [hjk]; exact hold k (by rw [hk]; rfl)
    · rw [addChildren_apply, if_neg hjk] at hj
      exact hold _ (h.parent j hj h16)

/-- Adding a trixel whose parent is there. -/
theorem DictOk.put {d : Dict} (h : DictOk d) {k : ℕ} {t : Trixel} (hk : trixelFrom k = some t) (hp : 16 ≤ k → (d (k / 4)).isSome) :
    DictOk (put d k (some t)) ∧ (∀ j, (d j).isSome → (put d k (some t) j).isSome) := by
  have hold : ∀ j, (d j).isSome → (Htm.put d k (some t) j).isSome := by
    intro j hj
    unfold Htm.put
    split_ifs
    · rfl
    · exact hj
  refine ⟨⟨?_, ?_, fun j h1 h2 => hold j (h.base j h1 h2)⟩, hold⟩
  · intro j c hc
    unfold Htm.put at hc
    split_ifs at hc with hj
    · simp only [Option.some.injEq] at hc
      rw [hj, ← hc]; exact hk
    · exact h.right j c hc
  · intro j hj h16
    apply hold
    unfold Htm.put at hj
    split_ifs at hj with hjk
    · subst hjk; exact hp h16
    · exact h.parent j hj h16

theorem nRight_spec (d : Dict) (i L : ℕ) (hL : 3 ≤ L) :
    ∃ m, 1 ≤ m ∧ m ≤ L - 2 ∧ nRight d i (2 * (L - 1)) = some (2 * m) ∧
      (((d (i / 4 ^ m)).isSome ∧ ∀ j, 1 ≤ j → j < m → (d (i / 4 ^ j)).isSome = false) ∨
        (m = L - 2 ∧ ∀ j, 1 ≤ j → j ≤ L - 2 → (d (i / 4 ^ j)).isSome = false)) := by
  unfold nRight
  simp only
  rw [show (2 * (L - 1) - 1) / 2 = L - 2 by omega]
  cases hf : ((List.range (L - 2)).map (fun k => 2 * (k + 1))).find? (fun r => (d (i >>> r)).isSome) with
  | none =>
    rw [List.find?_eq_none] at hf
    refine ⟨L - 2, by omega, le_refl _, ?_, .inr ⟨rfl, ?_⟩⟩
    · obtain ⟨m, hm⟩ : ∃ m, L - 2 = m + 1 := ⟨L - 3, by omega⟩
      rw [hm, List.range_succ, List.map_append]
      simp
    · intro j h1 h2
      have := hf (2 * (j - 1 + 1)) (List.mem_map.2 ⟨j - 1, by simp; omega, rfl⟩)
      rw [shr_four, show j - 1 + 1 = j by omega] at this
      simpa using this
  | some r =>
    rw [List.find?_eq_some_iff_getElem] at hf
    obtain ⟨h1, k, hk, e, h2⟩ := hf
    simp only [List.length_map, List.length_range] at hk
    simp only [List.getElem_map, List.getElem_range] at e
    subst e
    refine ⟨k + 1, by omega, by omega, rfl, .inl ⟨?_, ?_⟩⟩
    · rw [shr_four] at h1; exact h1
    · intro j h3 h4
      have := h2 (j - 1) (by omega)
      simp only [List.getElem_map, List.getElem_range] at this
      rw [shr_four, show j - 1 + 1 = j by omega] at this
      simpa using this

theorem anc_level {i L m : ℕ} (h : levelFrom i = some L) (hm : m < L) : levelFrom (i / 4 ^ m) = some (L - m) := by
  rw [C134_level] at *
  obtain ⟨h1, h2, h3⟩ := h
  have hp : 4 ^ (L - 1) = 4 ^ (L - m - 1) * 4 ^ m := by rw [← pow_add]; congr 1; omega
  have h0 : 0 < 4 ^ m := by positivity
  refine ⟨by omega, ?_, ?_⟩
  · rw [Nat.le_div_iff_mul_le h0]
    rw [hp, ← mul_assoc] at h2
    exact h2
  · rw [Nat.div_lt_iff_lt_mul h0]
    rw [hp, ← mul_assoc] at h3
    exact h3

/-- The loop that adds ancestors ends when one of them is there. -/
theorem grow_known {i L : ℕ} (hi : levelFrom i = some L) (hL : 3 ≤ L) : ∀ (fuel j : ℕ) (d : Dict), DictOk d → 1 ≤ j → j ≤ L - 2 → j ≤ fuel →
    (d (i / 4 ^ j)).isSome → ∃ d', Htm.grow i (2 * (L - 1)) fuel d = some d' ∧ DictOk d' ∧ (∀ k, (d k).isSome → (d' k).isSome) ∧
      (d' (i / 4)).isSome := by
  intro fuel
  induction fuel with
  | zero => intro j d _ h1 _ h2; omega
  | succ fuel ih =>
    intro j d hd h1 h2 h3 h4
    unfold Htm.grow
    rw [shr2]
    split_ifs with hp
    · exact ⟨d, rfl, hd, fun _ h => h, hp⟩
    · obtain ⟨m, m1, m2, e, hm⟩ := nRight_spec d i L hL
      rw [e]
      simp only
      rcases hm with ⟨g1, g2⟩ | ⟨-, g2⟩
      swap
      · rw [g2 j h1 h2] at h4; simp at h4
      have hmj : m ≤ j := by
        by_contra hc
        rw [g2 j h1 (by omega)] at h4
        simp at h4
      have hm2 : 2 ≤ m := by
        by_contra hc
        have : m = 1 := by omega
        subst this
        rw [pow_one] at g1
        exact hp g1
      obtain ⟨t, ht⟩ := Option.isSome_iff_exists.1 g1
      rw [shr_four, ht]
      change ∃ d', Htm.grow i (2 * (L - 1)) fuel (Htm.addChildren (Htm.put d (i / 4 ^ m) (some t)) (i / 4 ^ m) t) = some d' ∧ _
      have hput : Htm.put d (i / 4 ^ m) (some t) = d := by
        funext k
        unfold Htm.put
        split_ifs with hk
        · rw [hk, ht]
        · rfl
      rw [hput]
      obtain ⟨a1, a2, a3⟩ := hd.addChildren ht
      obtain ⟨d', b1, b2, b3, b4⟩ := ih (m - 1) _ a1 (by omega) (by omega) (by omega) (a3 (i / 4 ^ (m - 1)) (by
        rw [Nat.div_div_eq_div_mul, ← pow_succ, show m - 1 + 1 = m by omega]))
      exact ⟨d', b1, b2, fun k hk => b3 k (a2 k hk), b4⟩

theorem grow_any {i L : ℕ} (hi : levelFrom i = some L) (hL : 2 ≤ L) (d : Dict) (hd : DictOk d) :
    ∃ d', Htm.grow i (2 * (L - 1)) (2 * (L - 1) + 2) d = some d' ∧ DictOk d' ∧ (∀ k, (d k).isSome → (d' k).isSome) ∧ (d' (i / 4)).isSome := by
  by_cases hp : (d (i / 4)).isSome
  · refine ⟨d, ?_, hd, fun _ h => h, hp⟩
    unfold Htm.grow
    rw [shr2, if_pos hp]
  · have h3 : 3 ≤ L := by
      by_contra hc
      have hl := anc_level hi (show 1 < L by omega)
      rw [C134_level, pow_one] at hl
      rw [show L - 1 - 1 = 0 by omega] at hl
      exact hp (hd.base _ (by omega) (by omega))
    obtain ⟨m, m1, m2, e, hm⟩ := nRight_spec d i L h3
    rcases hm with ⟨g1, g2⟩ | ⟨rfl, g2⟩
    · exact grow_known hi h3 _ m d hd m1 m2 (by omega) g1
    · unfold Htm.grow
      rw [shr2, if_neg hp, e]
      simp only
      have hnone : d (i / 4 ^ (L - 2)) = none := by
        have := g2 (L - 2) (by omega) le_rfl
        simpa using this
      have hal := anc_level hi (show L - 2 < L by omega)
      obtain ⟨t, ht, -⟩ := (C134_trixel _).1 _ hal
      rw [shr_four, hnone, ht]
      change ∃ d', Htm.grow i (2 * (L - 1)) (2 * (L - 1) + 1) (Htm.addChildren (Htm.put d (i / 4 ^ (L - 2)) (some t)) (i / 4 ^ (L - 2)) t) = some d' ∧ _
      have hbase : (d (i / 4 ^ (L - 2) / 4)).isSome := by
        have hb := anc_level hi (show L - 1 < L by omega)
        rw [C134_level, show L - (L - 1) - 1 = 0 by omega] at hb
        rw [Nat.div_div_eq_div_mul, ← pow_succ, show L - 2 + 1 = L - 1 by omega]
        exact hd.base _ (by omega) (by omega)
      obtain ⟨a1, a2⟩ := hd.put ht (fun _ => hbase)
      have hself : Htm.put d (i / 4 ^ (L - 2)) (some t) (i / 4 ^ (L - 2)) = some t := by unfold Htm.put; rw [if_pos rfl]
      obtain ⟨b1, b2, b3⟩ := a1.addChildren hself
      obtain ⟨d', c1, c2, c3, c4⟩ := grow_known hi h3 (2 * (L - 1) + 1) (L - 2) _ b1 (by omega) le_rfl (by omega)
        (b2 _ (by rw [hself]; rfl))
      exact ⟨d', c1, c2, fun k hk => c3 k (b2 k (a2 k hk)), c4⟩

theorem addOne_spec {i L : ℕ} (hi : levelFrom i = some L) (d : Dict) (hd : DictOk d) :
    ∃ d', addOne (2 * (L - 1)) i d = some d' ∧ DictOk d' ∧ (∀ k, (d k).isSome → (d' k).isSome) ∧ (d' i).isSome := by
  unfold addOne
  split_ifs with h
  · exact ⟨d, rfl, hd, fun _ h => h, h⟩
  · have hL : 2 ≤ L := by
      by_contra hc
      rw [C134_level, show L - 1 = 0 by omega] at hi
      exact h (hd.base _ (by omega) (by omega))
    obtain ⟨d', h1, h2, h3, h4⟩ := grow_any hi hL d hd
    obtain ⟨t, ht⟩ := Option.isSome_iff_exists.1 h4
    rw [h1, shr2]
    simp only
    rw [ht]
    obtain ⟨a1, a2, a3⟩ := h2.addChildren ht
    exact ⟨_, rfl, a1, fun k hk => a2 k (h3 k hk), a3 i rfl⟩

theorem foldAll (L : ℕ) : ∀ (is : List ℕ) (d : Dict), DictOk d → (∀ i ∈ is, levelFrom i = some L) →
    ∃ d', is.foldl (fun d i => d.bind (addOne (2 * (L - 1)) i)) (some d) = some d' ∧ DictOk d' ∧ (∀ k, (d k).isSome → (d' k).isSome) ∧
      ∀ i ∈ is, (d' i).isSome := by
  intro is
  induction is with
  | nil => intro d hd _; exact ⟨d, rfl, hd, fun _ h => h, by simp⟩
  | cons i is ih =>
    intro d hd h
    obtain ⟨d1, a1, a2, a3, a4⟩ := addOne_spec (h i List.mem_cons_self) d hd
    obtain ⟨d2, b1, b2, b3, b4⟩ := ih d1 a2 (fun k hk => h k (List.mem_cons_of_mem _ hk))
    refine ⟨d2, by rw [List.foldl_cons, Option.bind_some, a1]; exact b1, b2, fun k hk => b3 k (a3 k hk), ?_⟩
    intro k hk
    rcases List.mem_cons.1 hk with rfl | hk
    · exact b3 _ a4
    · exact b4 k hk

theorem base_level {i : ℕ} (h1 : 8 ≤ i) (h2 : i < 16) : levelFrom i = some 1 := by rw [C134_level]; simp; omega

theorem startDict : ∃ d : Dict, (List.range' 8 8).foldl (fun (d : Option Dict) i => d.bind fun d => (trixelFrom i).map fun t => Htm.put d i (some t))
    (some fun _ => none) = some d ∧ ∀ k, d k = if 8 ≤ k ∧ k < 16 then trixelFrom k else none := by
  have key : ∀ (n a : ℕ) (d : Dict), 8 ≤ a → a + n ≤ 16 → (∀ k, d k = if 8 ≤ k ∧ k < a then trixelFrom k else none) →
      ∃ d', (List.range' a n).foldl (fun (d : Option Dict) i => d.bind fun d => (trixelFrom i).map fun t => Htm.put d i (some t)) (some d) = some d' ∧
        ∀ k, d' k = if 8 ≤ k ∧ k < a + n then trixelFrom k else none := by
    intro n
    induction n with
    | zero => intro a d _ _ h; exact ⟨d, rfl, h⟩
    | succ n ih =>
      intro a d h8 h16 h
      obtain ⟨t, ht, -⟩ := (C134_trixel a).1 1 (base_level h8 (by omega))
      rw [List.range'_succ, List.foldl_cons, Option.bind_some, ht, Option.map_some]
      obtain ⟨d', e1, e2⟩ := ih (a + 1) (Htm.put d a (some t)) (by omega) (by omega) (by
        intro k
        unfold Htm.put
        by_cases hk : k = a
        · subst hk
          rw [if_pos rfl, if_pos (by omega), ht]
        · rw [if_neg hk, h k]
          by_cases h' : 8 ≤ k ∧ k < a
          · rw [if_pos h', if_pos (by omega)]
          · rw [if_neg h', if_neg (by omega)])
      refine ⟨d', e1, ?_⟩
      intro k
      rw [e2 k, show a + 1 + n = a + (n + 1) by omega]
  exact key 8 8 _ (by omega) (by omega) (by intro k; rw [if_neg (by omega)])

/-- C134. The dictionary of all trixels of a level has every trixel of this level and of those before, each under its own number, and
nothing else under any number. -/
theorem C134_all (L : ℕ) (hL : 1 ≤ L) : ∃ d, allTrixels L = some d ∧ (∀ k t, d k = some t → trixelFrom k = some t) ∧
    ∀ i l, levelFrom i = some l → l ≤ L → d i = trixelFrom i := by
  obtain ⟨d0, e0, h0⟩ := startDict
  have hd0 : DictOk d0 := by
    refine ⟨?_, ?_, ?_⟩
    · intro k t h
      rw [h0] at h
      split_ifs at h
      exact h
    · intro k hk h16
      rw [h0, if_neg (by omega)] at hk
      simp at hk
    · intro k h1 h2
      rw [h0, if_pos ⟨h1, h2⟩]
      obtain ⟨t, ht, -⟩ := (C134_trixel k).1 1 (base_level h1 h2)
      rw [ht]; rfl
  have hp : (2 : ℕ) ^ (2 * (L - 1)) = 4 ^ (L - 1) := by rw [pow_mul]; norm_num
  obtain ⟨d, e1, h1, h2, h3⟩ := foldAll L ((List.range' 8 8).flatMap (fun t0 => (List.range (2 ^ (2 * (L - 1)))).map (fun dt => (t0 <<< (2 * (L - 1))) + dt))) d0 hd0 (by
    intro i hi
    obtain ⟨b, hb, hi⟩ := List.mem_flatMap.1 hi
    obtain ⟨c, hc, rfl⟩ := List.mem_map.1 hi
    rw [List.mem_range'_1] at hb
    rw [List.mem_range, hp] at hc
    rw [C134_level, shl_four]
    refine ⟨hL, ?_, ?_⟩
    · have := Nat.mul_le_mul_right (4 ^ (L - 1)) hb.1
      omega
    · have := Nat.mul_le_mul_right (4 ^ (L - 1)) (show b ≤ 15 by omega)
      omega)
  refine ⟨d, ?_, h1.right, ?_⟩
  · unfold allTrixels
    simp only
    rw [e0]
    exact e1
  · have hat : ∀ i, levelFrom i = some L → (d i).isSome := by
      intro i hi
      apply h3
      obtain ⟨-, g1, g2⟩ := (C134_level _ _).1 hi
      have h0 : 0 < 4 ^ (L - 1) := by positivity
      refine List.mem_flatMap.2 ⟨i / 4 ^ (L - 1), ?_, List.mem_map.2 ⟨i % 4 ^ (L - 1), ?_, ?_⟩⟩
      · rw [List.mem_range'_1]
        exact ⟨(Nat.le_div_iff_mul_le h0).2 g1, (Nat.div_lt_iff_lt_mul h0).2 g2⟩
      · rw [List.mem_range, hp]; exact Nat.mod_lt _ h0
      · rw [shl_four]; exact Nat.div_add_mod' i _
    have hdown : ∀ (n : ℕ) i l, levelFrom i = some l → l + n = L → (d i).isSome := by
      intro n
      induction n with
      | zero => intro i l h1 h2; rw [Nat.add_zero] at h2; subst h2; exact hat i h1
      | succ n ih =>
        intro i l hl hn
        obtain ⟨g0, g1, g2⟩ := (C134_level _ _).1 hl
        have hc : levelFrom (4 * i) = some (l + 1) := by
          rw [C134_level]
          refine ⟨by omega, ?_, ?_⟩
          all_goals
            rw [show l + 1 - 1 = (l - 1) + 1 by omega, pow_succ]
            omega
        have := h1.parent (4 * i) (ih _ _ hc (by omega)) (by have := Nat.one_le_pow (l - 1) 4 (by norm_num); omega)
        rwa [show 4 * i / 4 = i by omega] at this
    intro i l hl hle
    obtain ⟨t, ht⟩ := Option.isSome_iff_exists.1 (hdown (L - l) i l hl (by omega))
    rw [ht, h1.right i t ht]

end Verif
