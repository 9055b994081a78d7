import Verif.Props.HtmHalf
import Verif.Props.HtmRanges

/-!
# All trixels in a half space (C136)
-/

namespace Verif

open Real Sph Htm

theorem point_up {i L : ℕ} (hi : levelFrom i = some (L + 1)) (hL : L ≠ 0) {t : Trixel} (ht : trixelFrom i = some t) {p : Vec} (hp : PointOf t p) :
    ∃ t', trixelFrom (i / 4) = some t' ∧ PointOf t' p := by
  have : HasPt (i / 4) p := HasPt.parent hi hL ⟨t, ht, hp.2⟩
  obtain ⟨t', ht', hc⟩ := this
  exact ⟨t', ht', hp.1, hc⟩

theorem point_above : ∀ (m i L : ℕ), levelFrom i = some L → m < L → ∀ {t : Trixel}, trixelFrom i = some t → ∀ {p : Vec}, PointOf t p →
    ∃ t', trixelFrom (i / 4 ^ m) = some t' ∧ PointOf t' p := by
  intro m
  induction m with
  | zero => intro i L hi _ t ht p hp; exact ⟨t, by simpa using ht, hp⟩
  | succ m ih =>
    intro i L hi hm t ht p hp
    obtain ⟨K, rfl⟩ : ∃ K, L = K + 1 := ⟨L - 1, by omega⟩
    obtain ⟨t1, ht1, hp1⟩ := point_up hi (by omega) ht hp
    obtain ⟨t2, ht2, hp2⟩ := ih (i / 4) K (level_parent hi (by omega)) (by omega) ht1 hp1
    refine ⟨t2, ?_, hp2⟩
    rw [pow_succ', ← Nat.div_div_eq_div_mul]
    exact ht2

theorem Meets.above {h : Half} {i L m : ℕ} (hi : levelFrom i = some L) (hm : m < L) (hh : Meets h i) : Meets h (i / 4 ^ m) := by
  obtain ⟨t, p, ht, hp, hc⟩ := hh
  obtain ⟨t', ht', hp'⟩ := point_above m i L hi hm ht hp
  exact ⟨t', p, ht', hp', hc⟩

/-- A child of a trixel in a list. -/
theorem mem_children {i : ℕ} {c : Trixel} {act : List Trixel} (L : ℕ) (hi : levelFrom i = some (L + 1)) (hL : L ≠ 0) (hc : trixelFrom i = some c)
    (hp : ∃ t ∈ act, trixelFrom (i / 4) = some t) : c ∈ act.flatMap Trixel.children := by
  obtain ⟨t, ht, hpar⟩ := hp
  rw [trixel_parent hi hL, hpar, Option.bind_some] at hc
  refine List.mem_flatMap.2 ⟨t, ht, ?_⟩
  rw [children_child]
  exact List.mem_filterMap.2 ⟨i % 4, List.mem_range.2 (Nat.mod_lt _ (by norm_num)), hc⟩

theorem of_children {c : Trixel} {act : List Trixel} {L : ℕ} (hact : ∀ t ∈ act, levelFrom t.id = some L ∧ trixelFrom t.id = some t)
    (hc : c ∈ act.flatMap Trixel.children) : levelFrom c.id = some (L + 1) ∧ trixelFrom c.id = some c := by
  obtain ⟨t, ht, hct⟩ := List.mem_flatMap.1 hc
  rw [children_child, List.mem_filterMap] at hct
  obtain ⟨j, hj, hjc⟩ := hct
  rw [List.mem_range] at hj
  obtain ⟨h1, h2⟩ := hact t ht
  obtain ⟨c', hc', hid⟩ := child_some t hj
  rw [hjc, Option.some.injEq] at hc'
  subst hc'
  rw [hid]
  refine ⟨child_level h1 hj, ?_⟩
  rw [C134_child t.id j hj (by rw [h1]; rfl), h2, Option.bind_some, hjc]

/-- One level with all its results. -/
theorem loop_complete (h : Half) (hv : IsUnit3 h.v) (L n : ℕ) (hn : levelFrom n = some L) (hmeet : Meets h n) :
    ∀ (k lev m : ℕ) (out : List (ℕ × ℕ)) (act : List Trixel), lev + k = L → 2 ≤ lev → m / 4 = 4 ^ k - 1 →
      (InRanges out n ∨ ∃ t ∈ act, trixelFrom (n / 4 ^ (k + 1)) = some t) →
      InRanges (findLoop h L k lev m out act).1 n ∨ ∃ t ∈ (findLoop h L k lev m out act).2, trixelFrom (n / 4) = some t := by
  intro k
  induction k with
  | zero => intro lev m out act _ _ _ hh; simpa [findLoop] using hh
  | succ k ih =>
    intro lev m out act hlev h2 hm hh
    unfold findLoop
    simp only
    apply ih (lev + 1) _ _ _ (by omega) (by omega)
    · rw [shr2, hm, pow_succ]
      have := Nat.one_le_pow k 4 (by norm_num)
      omega
    · rcases hh with hh | hh
      · left; rw [covers_append]; exact .inl hh
      · -- the ancestor of this level
        have hal : levelFrom (n / 4 ^ (k + 1)) = some (lev - 1 + 1) := by
          have := anc_level hn (m := k + 1) (by omega)
          rw [this]; congr 1; omega
        obtain ⟨c, hc, hcid, -⟩ := (C134_trixel _).1 _ hal
        have hpar : n / 4 ^ (k + 1 + 1) = n / 4 ^ (k + 1) / 4 := by rw [pow_succ 4 (k + 1), Nat.div_div_eq_div_mul]
        rw [hpar] at hh
        have hmem := mem_children (lev - 1) hal (by omega) hc hh
        obtain ⟨c', p, hc', hp, hin⟩ := hmeet.above hn (m := k + 1) (by omega)
        rw [hc, Option.some.injEq] at hc'
        subst hc'
        cases hpart : h.part c with
        | full =>
          left
          rw [covers_append]
          right
          refine ⟨_, List.mem_map.2 ⟨c, List.mem_filter.2 ⟨hmem, by simp [hpart]⟩, rfl⟩, ?_⟩
          simp only
          rw [shr2, hm, shl_four, show L - lev = k + 1 by omega, hcid]
          have h0 : 0 < 4 ^ (k + 1) := by positivity
          have := Nat.div_add_mod' n (4 ^ (k + 1))
          have := Nat.mod_lt n h0
          omega
        | some =>
          right
          exact ⟨c, List.mem_filter.2 ⟨hmem, by simp [hpart]⟩, hc⟩
        | outside =>
          exact absurd hin (C136_outside_partial h hv c _ _ hal (by omega) hc hpart p hp)

theorem ones_div (k : ℕ) : ones k / 4 = 4 ^ k - 1 := by
  have : ones k = 4 * (4 ^ k - 1) := by
    induction k with
    | zero => rfl
    | succ k ih =>
      have := Nat.one_le_pow k 4 (by norm_num)
      rw [ones, shl2, ih, pow_succ]
      omega
  omega

theorem named_base {i : ℕ} (hi : levelFrom i = some 1) : ∃ t ∈ named, trixelFrom i = some t := by
  obtain ⟨t, ht, -⟩ := (C134_trixel i).1 1 hi
  refine ⟨t, ?_, ht⟩
  rw [trixel_base hi] at ht
  unfold baseOf at ht
  split_ifs at ht
  all_goals
    simp only [Option.some.injEq] at ht
    subst ht
    simp [named]

theorem named_good {t : Trixel} (h : t ∈ named) : levelFrom t.id = some 1 ∧ trixelFrom t.id = some t := by
  have key : ∀ b q, 8 ≤ b → b < 16 → baseOf b = some q → q.id = b → levelFrom q.id = some 1 ∧ trixelFrom q.id = some q := by
    intro b q h1 h2 h3 h4
    have hl := base_level h1 h2
    rw [h4]
    exact ⟨hl, by rw [trixel_base hl, h3]⟩
  simp only [named, List.mem_cons, List.not_mem_nil, or_false] at h
  rcases h with rfl | rfl | rfl | rfl | rfl | rfl | rfl | rfl
  · exact key 12 n0 (by norm_num) (by norm_num) (by simp [baseOf]) rfl
  · exact key 13 n1 (by norm_num) (by norm_num) (by simp [baseOf]) rfl
  · exact key 14 n2 (by norm_num) (by norm_num) (by simp [baseOf]) rfl
  · exact key 15 n3 (by norm_num) (by norm_num) (by simp [baseOf]) rfl
  · exact key 8 s0 (by norm_num) (by norm_num) (by simp [baseOf]) rfl
  · exact key 9 s1 (by norm_num) (by norm_num) (by simp [baseOf]) rfl
  · exact key 10 s2 (by norm_num) (by norm_num) (by simp [baseOf]) rfl
  · exact key 11 s3 (by norm_num) (by norm_num) (by simp [baseOf]) rfl

/-- The ranges found and the trixels left, with the numbers in them. -/
theorem loop_sound (h : Half) (L : ℕ) : ∀ (k lev m : ℕ) (out : List (ℕ × ℕ)) (act : List Trixel), lev + k = L → 2 ≤ lev → m / 4 = 4 ^ k - 1 →
    (∀ t ∈ act, levelFrom t.id = some (lev - 1) ∧ trixelFrom t.id = some t) →
    (∀ r ∈ out, r.1 ≤ r.2 ∧ ∀ n, r.1 ≤ n → n ≤ r.2 → levelFrom n = some L ∧ ∃ m < L, ∃ t, trixelFrom (n / 4 ^ m) = some t ∧ h.part t = .full) →
    (∀ t ∈ (findLoop h L k lev m out act).2, levelFrom t.id = some (L - 1) ∧ trixelFrom t.id = some t) ∧
    (∀ r ∈ (findLoop h L k lev m out act).1, r.1 ≤ r.2 ∧ ∀ n, r.1 ≤ n → n ≤ r.2 → levelFrom n = some L ∧ ∃ m < L, ∃ t, trixelFrom (n / 4 ^ m) = some t ∧ h.part t = .full) := by
  intro k
  induction k with
  | zero =>
    intro lev m out act hlev _ _ h1 h2
    rw [Nat.add_zero] at hlev
    subst hlev
    exact ⟨h1, h2⟩
  | succ k ih =>
    intro lev m out act hlev h2 hm hact hout
    unfold findLoop
    simp only
    have hkids : ∀ c ∈ act.flatMap Trixel.children, levelFrom c.id = some lev ∧ trixelFrom c.id = some c := by
      intro c hc
      have := of_children hact hc
      rwa [show lev - 1 + 1 = lev by omega] at this
    apply ih (lev + 1) _ _ _ (by omega) (by omega)
    · rw [shr2, hm, pow_succ]
      have := Nat.one_le_pow k 4 (by norm_num)
      omega
    · intro t ht
      rw [Nat.add_sub_cancel]
      exact hkids t (List.mem_filter.1 ht).1
    · intro r hr
      rcases List.mem_append.1 hr with hr | hr
      · exact hout r hr
      · obtain ⟨c, hc, rfl⟩ := List.mem_map.1 hr
        obtain ⟨hcm, hcf⟩ := List.mem_filter.1 hc
        obtain ⟨c1, c2⟩ := hkids c hcm
        have hfull : h.part c = .full := by simpa using hcf
        refine ⟨by simp only; omega, ?_⟩
        intro n hn1 hn2
        simp only at hn1 hn2
        rw [shr2, hm, shl_four, show L - lev = k + 1 by omega] at hn2
        rw [shl_four, show L - lev = k + 1 by omega] at hn1
        have h0 : 0 < 4 ^ (k + 1) := by positivity
        have hdiv : n / 4 ^ (k + 1) = c.id := by
          apply le_antisymm
          · rw [Nat.div_le_iff_le_mul_add_pred h0, mul_comm]; omega
          · rw [Nat.le_div_iff_mul_le h0]; exact hn1
        refine ⟨?_, k + 1, by omega, c, by rw [hdiv]; exact c2, hfull⟩
        obtain ⟨g1, g2, g3⟩ := (C134_level _ _).1 c1
        rw [C134_level]
        have hp : 4 ^ (L - 1) = 4 ^ (lev - 1) * 4 ^ (k + 1) := by rw [← pow_add]; congr 1; omega
        refine ⟨by omega, ?_, ?_⟩
        · rw [hp, ← mul_assoc]
          exact le_trans (Nat.mul_le_mul_right _ g2) hn1
        · rw [hp, ← mul_assoc]
          have : (c.id + 1) * 4 ^ (k + 1) ≤ 16 * 4 ^ (lev - 1) * 4 ^ (k + 1) := Nat.mul_le_mul_right _ g3
          rw [Nat.add_mul] at this
          omega

theorem findAll_sorted (l : List (ℕ × ℕ)) (hl : FullRanges l) : ∀ n, InRanges (mergeBounds (l.insertionSort (fun a b => a.1 ≤ b.1))) n ↔ InRanges l n := by
  intro n
  have hperm : (l.insertionSort (fun a b => a.1 ≤ b.1)).Perm l := List.perm_insertionSort _ _
  rw [(C137_merge _ (fun r hr => hl r (hperm.mem_iff.1 hr))).1 n, covers_perm hperm n]

/-- What the search gives: numbers of the level asked for; each is a trixel below one that is inside for the code, or not outside itself. -/
theorem findAll_spec (h : Half) (L : ℕ) (hL : 2 ≤ L) (n : ℕ) (hn : InRanges (h.findAll L) n) :
    levelFrom n = some L ∧ ((∃ m < L, ∃ t, trixelFrom (n / 4 ^ m) = some t ∧ h.part t = .full) ∨ ∃ t, trixelFrom n = some t ∧ h.part t ≠ .outside) := by
  have hloop := loop_sound h L (L - 2) 2 (ones (L - 2)) [] named (by omega) le_rfl (ones_div _) (fun t ht => named_good ht) (by simp)
  unfold Half.findAll at hn
  simp only at hn
  generalize findLoop h L (L - 2) 2 (ones (L - 2)) [] named = r at *
  obtain ⟨h1, h2⟩ := hloop
  have hkids : ∀ c ∈ r.2.flatMap Trixel.children, levelFrom c.id = some L ∧ trixelFrom c.id = some c := by
    intro c hc
    have := of_children h1 hc
    rwa [show L - 1 + 1 = L by omega] at this
  rw [findAll_sorted _ (by
    intro q hq
    rcases List.mem_append.1 hq with hq | hq
    · exact (h2 q hq).1
    · obtain ⟨c, -, rfl⟩ := List.mem_map.1 hq
      exact le_rfl), covers_append] at hn
  rcases hn with ⟨q, hq, g1, g2⟩ | ⟨q, hq, g1, g2⟩
  · obtain ⟨a, b⟩ := (h2 q hq).2 n g1 g2
    exact ⟨a, .inl b⟩
  · obtain ⟨c, hc, rfl⟩ := List.mem_map.1 hq
    obtain ⟨hcm, hcf⟩ := List.mem_filter.1 hc
    have : n = c.id := by simp only at g1 g2; omega
    subst this
    obtain ⟨a, b⟩ := hkids c hcm
    exact ⟨a, .inr ⟨c, b, by simpa using hcf⟩⟩

/-- C136. From level 2 on, every trixel of the level with a point in the half space is in a range found; and all numbers found are of the
level. -/
theorem C136_all (h : Half) (hv : IsUnit3 h.v) (L : ℕ) (hL : 2 ≤ L) :
    (∀ n, levelFrom n = some L → Meets h n → InRanges (h.findAll L) n) ∧ ∀ n, InRanges (h.findAll L) n → levelFrom n = some L := by
  refine ⟨?_, fun n hn => (findAll_spec h L hL n hn).1⟩
  intro n hn hmeet
  have hsound := loop_sound h L (L - 2) 2 (ones (L - 2)) [] named (by omega) le_rfl (ones_div _) (fun t ht => named_good ht) (by simp)
  have hbase : ∃ t ∈ named, trixelFrom (n / 4 ^ (L - 2 + 1)) = some t := by
    apply named_base
    have := anc_level hn (m := L - 2 + 1) (by omega)
    rw [this]; congr 1; omega
  have hcomp := loop_complete h hv L n hn hmeet (L - 2) 2 (ones (L - 2)) [] named (by omega) le_rfl (ones_div _) (.inr hbase)
  unfold Half.findAll
  simp only
  generalize findLoop h L (L - 2) 2 (ones (L - 2)) [] named = r at *
  obtain ⟨h1, h2⟩ := hsound
  rw [findAll_sorted _ (by
    intro q hq
    rcases List.mem_append.1 hq with hq | hq
    · exact (h2 q hq).1
    · obtain ⟨c, -, rfl⟩ := List.mem_map.1 hq
      exact le_rfl), covers_append]
  rcases hcomp with hc | hc
  · exact .inl hc
  · right
    obtain ⟨K, rfl⟩ : ∃ K, L = K + 1 := ⟨L - 1, by omega⟩
    obtain ⟨c, hct, hid, -⟩ := (C134_trixel _).1 _ hn
    have hmem := mem_children K hn (by omega) hct hc
    obtain ⟨c', p, hc', hp, hin⟩ := hmeet
    rw [hct, Option.some.injEq] at hc'
    subst hc'
    have hpart : h.part c ≠ .outside := fun ho => C136_outside_partial h hv c n _ hn hL hct ho p hp hin
    refine ⟨_, List.mem_map.2 ⟨c, List.mem_filter.2 ⟨hmem, by simpa using hpart⟩, rfl⟩, ?_⟩
    simp only
    omega

/-- C136 in part. For half spaces of at most a half of the sphere, and not empty, every number found is of a trixel that touches the
half space. -/
theorem C136_only_partial (h : Half) (hv : IsUnit3 h.v) (hd : 0 ≤ h.d) (hd1 : h.d ≤ 1) (L : ℕ) (hL : 2 ≤ L) (n : ℕ) (hn : InRanges (h.findAll L) n) : Touches h n := by
  obtain ⟨hl, hcase⟩ := findAll_spec h L hL n hn
  obtain ⟨c, hc, -⟩ := (C134_trixel _).1 _ hl
  have hg := trixel_good' hc
  have k0 : PointOf c c.c0 := ⟨hg.u0, 1, 0, 0, by norm_num, by norm_num, by norm_num, by apply vec_ext <;> simp [add, smul]⟩
  rcases hcase with ⟨m, hm, t, ht, hf⟩ | ⟨t, ht, hf⟩
  · obtain ⟨t', ht', hp'⟩ := point_above m n L hl hm hc k0
    rw [ht, Option.some.injEq] at ht'
    subst ht'
    exact ⟨c, c.c0, hc, k0, le_of_lt (C136_full_partial h t _ ht hd hf c.c0 hp')⟩
  · cases hp : h.part t with
    | full =>
      have htc : t = c := by rw [hc, Option.some.injEq] at ht; exact ht.symm
      subst htc
      exact ⟨t, t.c0, hc, k0, le_of_lt (C136_full_partial h t _ ht hd hp t.c0 k0)⟩
    | some =>
      obtain ⟨p, hp1, hp2⟩ := (C136_some h hv t n ht hp).2 hd1
      exact ⟨t, p, ht, hp1, hp2⟩
    | outside => exact absurd hp hf

/-- C136, the case left out. At level 1 the numbers of level 2 are given. -/
theorem C136_level_one_violated (h : Half) : h.findAll 1 = h.findAll 2 ∧ ∀ n, InRanges (h.findAll 1) n → levelFrom n = some 2 := by
  have : h.findAll 1 = h.findAll 2 := rfl
  exact ⟨this, fun n hn => by rw [this] at hn; exact (findAll_spec h 2 le_rfl n hn).1⟩

/-- C136, the case left out. A half space of more than a half of the sphere that leaves out a circle within a trixel is taken to have all
of it. -/
theorem C136_full_violated : ∃ (h : Half) (p : Vec), IsUnit3 h.v ∧ h.part n3 = .full ∧ PointOf n3 p ∧ ¬ h.containsUnit p := by
  refine ⟨⟨⟨-2/3, -2/3, -1/3⟩, -9/10⟩, ⟨2/3, 2/3, 1/3⟩, ?_, ?_, ⟨?_, ?_⟩, ?_⟩
  · unfold IsUnit3; norm_num
  · unfold Half.part
    rw [if_pos]
    simp only [Half.containsUnit, dot, n3]
    norm_num
  · unfold IsUnit3; norm_num
  · exact ⟨2/3, 1/3, 2/3, by norm_num, by norm_num, by norm_num, by apply vec_ext <;> simp [add, smul, n3]⟩
  · simp only [Half.containsUnit, dot]
    norm_num

/-- C136, the case left out. A half space that crosses an edge of one of the eight trixels to begin with can be found to be outside it:
the circle around the trixel is given the distance of its plane as its radius, which is too little there. -/
theorem C136_base_violated : ∃ (h : Half) (p : Vec), IsUnit3 h.v ∧ h.part n3 = .outside ∧ PointOf n3 p ∧ h.containsUnit p := by
  have h5 : 0 < √5 := Real.sqrt_pos.2 (by norm_num)
  have h5s : √5 ^ 2 = 5 := Real.sq_sqrt (by norm_num)
  have h3 : 0 < √3 := Real.sqrt_pos.2 (by norm_num)
  have h3s : √3 ^ 2 = 3 := Real.sq_sqrt (by norm_num)
  have hcentre : n3.centre = ⟨1 / √3, 1 / √3, 1 / √3⟩ := by
    unfold Trixel.centre unit
    simp only [n3, cross, sub, smul]
    norm_num
  have hdd : n3.dd = 1 / √3 := by
    unfold Trixel.dd
    rw [hcentre]
    simp [n3, dot]
  refine ⟨⟨⟨6/7, 3/7, -2/7⟩, 19/20⟩, ⟨2 / √5, 1 / √5, 0⟩, ?_, ?_, ⟨?_, ?_⟩, ?_⟩
  · unfold IsUnit3; norm_num
  · unfold Half.part
    have c0 : ¬ Half.containsUnit ⟨⟨6/7, 3/7, -2/7⟩, 19/20⟩ n3.c0 := by simp only [Half.containsUnit, dot, n3]; norm_num
    have c1 : ¬ Half.containsUnit ⟨⟨6/7, 3/7, -2/7⟩, 19/20⟩ n3.c1 := by simp only [Half.containsUnit, dot, n3]; norm_num
    have c2 : ¬ Half.containsUnit ⟨⟨6/7, 3/7, -2/7⟩, 19/20⟩ n3.c2 := by simp only [Half.containsUnit, dot, n3]; norm_num
    have c3 : ¬ n3.contains ⟨6/7, 3/7, -2/7⟩ := by simp only [Trixel.contains, dot, cross, n3]; norm_num
    have c4 : ¬ Half.meetsBounding ⟨⟨6/7, 3/7, -2/7⟩, 19/20⟩ n3 := by
      unfold Half.meetsBounding Half.meetsCircle
      rw [hcentre, hdd]
      simp only [not_not]
      have hphi : Half.phi ⟨⟨6/7, 3/7, -2/7⟩, 19/20⟩ = arccos (19/20) := by
        unfold Half.phi
        rw [if_pos]
        simp only
        rw [abs_of_pos (by norm_num)]
        norm_num
      have hdot : dot ⟨1 / √3, 1 / √3, 1 / √3⟩ ⟨6/7, 3/7, -2/7⟩ = 1 / √3 := by unfold dot; simp only; field_simp; norm_num
      rw [hphi, hdot]
      have hB : 0 < 1 / √3 := by positivity
      have hB2 : (1 / √3) ^ 2 = 1 / 3 := by rw [div_pow, h3s]; norm_num
      have hB3 : 1 / √3 < 3 / 5 := by nlinarith
      have hcosB : 5 / 6 ≤ cos (1 / √3) := by
        have := Real.one_sub_sq_div_two_le_cos (x := 1 / √3)
        rw [hB2] at this
        linarith
      have hsinB : sin (1 / √3) ≤ 1 / √3 := (Real.sin_lt hB).le
      have hsinB0 : 0 ≤ sin (1 / √3) := Real.sin_nonneg_of_nonneg_of_le_pi hB.le (by linarith [Real.two_le_pi])
      have hsinA : sin (arccos (19/20)) ≤ 8 / 25 := by
        rw [Real.sin_arccos]
        apply Real.sqrt_le_iff.2
        norm_num
      have hcosA : cos (arccos (19/20)) = 19/20 := Real.cos_arccos (by norm_num) (by norm_num)
      have hsinA0 : 0 ≤ sin (arccos (19/20)) := by rw [Real.sin_arccos]; exact Real.sqrt_nonneg _
      have hcos : 1 / √3 < cos (arccos (19/20) + 1 / √3) := by
        rw [Real.cos_add, hcosA]
        nlinarith
      have hA : arccos (19/20) ≤ π / 2 := Real.arccos_le_pi_div_two.2 (by norm_num)
      have hlt : arccos (cos (arccos (19/20) + 1 / √3)) < arccos (1 / √3) := by
        apply Real.strictAntiOn_arccos _ _ hcos
        · exact ⟨by linarith, by linarith⟩
        · exact ⟨Real.neg_one_le_cos _, Real.cos_le_one _⟩
      rwa [Real.arccos_cos (by have := Real.arccos_nonneg (19/20); linarith) (by linarith [Real.two_le_pi])] at hlt
    rw [if_neg (fun h => c0 h.1), if_neg (by tauto), if_neg c3, if_pos c4]
  · unfold IsUnit3
    simp only [div_pow, h5s]
    norm_num
  · exact ⟨1 / √5, 0, 2 / √5, by positivity, le_rfl, by positivity, by apply vec_ext <;> simp [add, smul, n3]⟩
  · simp only [Half.containsUnit, dot]
    have : (19 : ℝ) / 20 * √5 < 15 / 7 := by nlinarith
    have e : 2 / √5 * (6 / 7) + 1 / √5 * (3 / 7) + 0 * (-2 / 7) = 15 / 7 / √5 := by field_simp; norm_num
    rw [e, lt_div_iff₀ h5]
    exact this

/-- The trixel with corners on the axes lies in the half space around a point of it. -/
example : trixelFrom 15 = some n3 ∧ (⟨⟨2 / 3, 2 / 3, 1 / 3⟩, 0⟩ : Half).part n3 = .full := by
  constructor
  · exact (trixel_base (i := 15) (by rw [C134_level]; norm_num)).trans (show baseOf 15 = some n3 from rfl)
  · unfold Half.part
    rw [if_pos]
    unfold Half.containsUnit n3 dot
    norm_num

/-- The first child of that trixel meets the half space around one of its corners. -/
example : levelFrom 60 = some 2 ∧ Meets ⟨⟨0, 1, 0⟩, 1 / 2⟩ 60 := by
  refine ⟨by rw [C134_level]; norm_num, ?_⟩
  have h15 : levelFrom 15 = some 1 := by rw [C134_level]; norm_num
  have e15 : trixelFrom 15 = some n3 := (trixel_base h15).trans rfl
  have e := C134_child 15 0 (by norm_num) (by rw [h15]; rfl)
  rw [e15] at e
  refine ⟨_, ⟨0, 1, 0⟩, e, ⟨?_, 1, 0, 0, by norm_num, by norm_num, by norm_num, ?_⟩, ?_⟩
  · unfold IsUnit3; norm_num
  · apply vec_ext <;> simp [add, smul, n3]
  · unfold Half.containsUnit dot; norm_num

end Verif
