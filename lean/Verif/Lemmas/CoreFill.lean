import Verif.Lemmas.CoreHistory

namespace Verif
variable {C Sv A : Type}

namespace XReal

theorem leB_refl {a : XReal} (h : a.isNan = false) : leB a a = true := by
  cases a <;> simp_all [leB, isNan]

theorem leB_trans {a b c : XReal} (h1 : leB a b = true) (h2 : leB b c = true) : leB a c = true := by
  cases a <;> cases b <;> cases c <;> simp_all [leB]
  exact le_trans h1 h2

theorem leB_total {a b : XReal} (ha : a.isNan = false) (hb : b.isNan = false) :
    leB a b = true ∨ leB b a = true := by
  cases a <;> cases b <;> simp_all [leB, isNan]
  exact le_total _ _

theorem leB_antisymm {a b : XReal} (h1 : leB a b = true) (h2 : leB b a = true) : a = b := by
  cases a <;> cases b <;> simp_all [leB]
  exact le_antisymm h1 h2

theorem ltB_of_leB_ne {a b : XReal} (h1 : leB a b = true) (h2 : a ≠ b) : ltB a b = true := by
  cases a <;> cases b <;> simp_all [leB, ltB]
  exact lt_of_le_of_ne h1 h2

/-- The largest non-nan entry, or nan if there is none. -/
def IsMax (l : List XReal) (m : XReal) : Prop :=
  (m = .nan ∧ ∀ x ∈ l, x = .nan) ∨ (m ≠ .nan ∧ m ∈ l ∧ ∀ x ∈ l, x = .nan ∨ leB x m = true)

theorem isNan_iff (a : XReal) : a.isNan = true ↔ a = .nan := by cases a <;> simp [isNan]

theorem nanMax2_max (l : List XReal) (x m : XReal) (h : IsMax l m) : IsMax (l ++ [x]) (nanMax2 m x) := by
  unfold nanMax2
  by_cases hm : m = .nan
  · subst hm
    have hl : ∀ y ∈ l, y = .nan := by
      rcases h with h | h
      · exact h.2
      · exact absurd rfl h.1
    simp only [isNan, if_true]
    by_cases hx : x = .nan
    · subst hx
      left; refine ⟨rfl, ?_⟩
      intro y hy
      rcases List.mem_append.mp hy with h | h
      · exact hl y h
      · simpa using h
    · right
      refine ⟨hx, by simp, ?_⟩
      intro y hy
      rcases List.mem_append.mp hy with h | h
      · exact Or.inl (hl y h)
      · right
        have : y = x := by simpa using h
        subst this
        exact leB_refl (by rw [← Bool.not_eq_true, isNan_iff]; exact hx)
  · have hm' : m.isNan = false := by rw [← Bool.not_eq_true, isNan_iff]; exact hm
    have h' : m ∈ l ∧ ∀ y ∈ l, y = .nan ∨ leB y m = true := by
      rcases h with h | h
      · exact absurd h.1 hm
      · exact h.2
    rw [hm']
    simp only [Bool.false_eq_true, if_false]
    by_cases hx : x = .nan
    · subst hx
      simp only [isNan, if_true]
      right
      refine ⟨hm, by simp [h'.1], ?_⟩
      intro y hy
      rcases List.mem_append.mp hy with h | h
      · exact h'.2 y h
      · left; simpa using h
    · have hx' : x.isNan = false := by rw [← Bool.not_eq_true, isNan_iff]; exact hx
      rw [hx']
      simp only [Bool.false_eq_true, if_false]
      by_cases hle : leB m x = true
      · rw [if_pos hle]
        right
        refine ⟨hx, by simp, ?_⟩
        intro y hy
        rcases List.mem_append.mp hy with h | h
        · rcases h'.2 y h with h | h
          · exact Or.inl h
          · exact Or.inr (leB_trans h hle)
        · have : y = x := by simpa using h
          subst this
          exact Or.inr (leB_refl hx')
      · rw [if_neg hle]
        right
        refine ⟨hm, by simp [h'.1], ?_⟩
        intro y hy
        rcases List.mem_append.mp hy with h | h
        · exact h'.2 y h
        · have : y = x := by simpa using h
          subst this
          exact Or.inr ((leB_total hm' hx').resolve_left hle)

theorem nanmax_max {l : List XReal} {m : XReal} (h : nanmax l = some m) : IsMax l m := by
  unfold nanmax at h
  split at h
  · cases h
  · rename_i x xs
    cases h
    have key : ∀ (ys pre : List XReal) (a : XReal), IsMax pre a → IsMax (pre ++ ys) (ys.foldl nanMax2 a) := by
      intro ys
      induction ys with
      | nil => intro pre a h; simpa using h
      | cons y ys ih =>
        intro pre a h
        have := ih (pre ++ [y]) (nanMax2 a y) (nanMax2_max pre y a h)
        simpa using this
    have h0 : IsMax [x] x := by
      by_cases hx : x = .nan
      · left; simp [hx]
      · right
        refine ⟨hx, by simp, ?_⟩
        intro y hy
        have : y = x := by simpa using hy
        subst this
        exact Or.inr (leB_refl (by rw [← Bool.not_eq_true, isNan_iff]; exact hx))
    simpa using key xs [x] x h0

theorem nanmax_none {l : List XReal} (h : nanmax l = none) : l = [] := by
  unfold nanmax at h; split at h
  · rfl
  · cases h

theorem IsMax.unique {l : List XReal} {m m' : XReal} (h : IsMax l m) (h' : IsMax l m') (hne : l ≠ []) : m = m' := by
  rcases h with ⟨rfl, h⟩ | ⟨h1, h2, h3⟩
  · rcases h' with ⟨rfl, h'⟩ | ⟨h1', h2', _⟩
    · rfl
    · exact absurd (h _ h2') h1'
  · rcases h' with ⟨rfl, h'⟩ | ⟨h1', h2', h3'⟩
    · exact absurd (h' _ h2) h1
    · rcases h3' m h2 with h | h
      · exact absurd h h1
      · rcases h3 m' h2' with h' | h'
        · exact absurd h' h1'
        · exact leB_antisymm h h'

end XReal

/-- `scalarReward` is the largest non-nan entry (nan if none). -/
theorem scalarReward_max (l : List XReal) : XReal.IsMax l (scalarReward l) := by
  unfold scalarReward
  split
  · rename_i h
    left
    refine ⟨rfl, fun x hx => (XReal.isNan_iff x).mp (List.all_eq_true.mp h x hx)⟩
  · rename_i h
    cases hn : XReal.nanmax l with
    | none => rw [XReal.nanmax_none hn] at h; simp at h
    | some m => exact XReal.nanmax_max hn

/-- No value above `-inf`. -/
def Dead (r : XReal) : Prop := r = .nan ∨ r = .ninf

theorem dead_iff (r : XReal) : Dead r ↔ XReal.ltB .ninf r = false := by
  cases r <;> simp [Dead, XReal.ltB]

theorem scalarReward_dead (l : List XReal) : Dead (scalarReward l) ↔ ∀ r ∈ l, Dead r := by
  constructor
  · intro h r hr
    rcases scalarReward_max l with ⟨_, h2⟩ | ⟨h1, _, h3⟩
    · exact Or.inl (h2 r hr)
    · rcases h3 r hr with h4 | h4
      · exact Or.inl h4
      · rcases h with h | h
        · exact absurd h h1
        · rw [h] at h4; right; cases r <;> simp_all [XReal.leB]
  · intro h
    rcases scalarReward_max l with ⟨h1, _⟩ | ⟨_, h2, _⟩
    · exact Or.inl h1
    · exact h _ h2

/-- A survey is feasible when some entry of its reward is above `-inf`. -/
def Feasible (ops : SurveyOps C Sv) (c : C) (sv : Sv) : Prop :=
  ∃ r ∈ (ops.reward sv c).1, XReal.ltB .ninf r = true

theorem not_feasible_iff (ops : SurveyOps C Sv) (c : C) (sv : Sv) :
    ¬ Feasible ops c sv ↔ Dead (scalarReward (ops.reward sv c).1) := by
  rw [scalarReward_dead]
  constructor
  · intro h r hr
    rw [dead_iff, ← Bool.not_eq_true]
    intro hr'; exact h ⟨r, hr, hr'⟩
  · rintro h ⟨r, hr, hr'⟩
    have := (dead_iff r).mp (h r hr)
    rw [this] at hr'; cases hr'

/-- Shape of the tier loop's result. -/
theorem tierLoop_spec (ops : SurveyOps C Sv) (c : C) (ns : Nat) (tiers : List (List Sv))
    {rs : List XReal} {brk : Option Nat} {tiers' : List (List Sv)}
    (h : tierLoop ops c ns tiers = .ok (rs, brk, tiers')) :
    (brk = none ∧ (∀ t ∈ tiers, ∀ sv ∈ t, ¬ Feasible ops c sv) ∧
      tiers' = tiers.map (fun t => (evalTier ops c t).2) ∧ (tiers ≠ [] → ∀ r ∈ rs, Dead r)) ∨
    (∃ k t, brk = some (ns + k) ∧ tiers[k]? = some t ∧ (∀ i < k, ∀ t', tiers[i]? = some t' → ∀ sv ∈ t', ¬ Feasible ops c sv) ∧
      (∃ sv ∈ t, Feasible ops c sv) ∧ rs = (evalTier ops c t).1 ∧
      tiers' = (tiers.take k).map (fun t => (evalTier ops c t).2) ++ (evalTier ops c t).2 :: tiers.drop (k + 1)) := by
  induction tiers generalizing ns rs brk tiers' with
  | nil => cases h; left; simp
  | cons tier rest ih =>
    unfold tierLoop at h
    simp only at h
    cases hm : XReal.nanmax (evalTier ops c tier).1 with
    | none => rw [hm] at h; cases h
    | some m =>
      rw [hm] at h
      simp only at h
      have hmax := XReal.nanmax_max hm
      by_cases hlt : XReal.ltB .ninf m = true
      · rw [if_pos hlt] at h
        cases h
        right
        refine ⟨0, tier, by simp, by simp, by intro i hi; omega, ?_, rfl, by simp⟩
        rcases hmax with ⟨rfl, _⟩ | ⟨_, hmem, _⟩
        · simp [XReal.ltB] at hlt
        · simp only [evalTier, List.mem_map] at hmem
          obtain ⟨sv, hsv, hr⟩ := hmem
          refine ⟨sv, hsv, ?_⟩
          by_contra hc
          have := (dead_iff _).mp ((not_feasible_iff ops c sv).mp hc)
          rw [hr] at this; rw [this] at hlt; cases hlt
      · rw [if_neg hlt] at h
        have hdead : ∀ r ∈ (evalTier ops c tier).1, Dead r := by
          have hd : Dead m := (dead_iff m).mpr (by simpa using hlt)
          intro r hr
          rcases hmax with ⟨_, h2⟩ | ⟨h1, _, h3⟩
          · exact Or.inl (h2 r hr)
          · rcases h3 r hr with h4 | h4
            · exact Or.inl h4
            · rcases hd with hd | hd
              · exact absurd hd h1
              · rw [hd] at h4; right; cases r <;> simp_all [XReal.leB]
        have hinf : ∀ sv ∈ tier, ¬ Feasible ops c sv := by
          intro sv hsv
          rw [not_feasible_iff]
          apply hdead
          simp only [evalTier, List.mem_map]
          exact ⟨sv, hsv, rfl⟩
        cases hrec : tierLoop ops c (ns + 1) rest with
        | error e => rw [hrec] at h; cases h
        | ok p =>
          obtain ⟨rs', ix, rest'⟩ := p
          rw [hrec] at h
          simp only [Except.ok.injEq, Prod.mk.injEq] at h
          obtain ⟨h1, h2, h3⟩ := h
          rcases ih (ns + 1) hrec with ⟨hb, hall, ht, hrs⟩ | ⟨k, t, hb, hk, hbefore, hfe, hrs, ht⟩
          · left
            refine ⟨by rw [← h2, hb], ?_, by rw [← h3, ht]; rfl, ?_⟩
            · intro t htm sv hsv
              rcases List.mem_cons.mp htm with rfl | htm
              · exact hinf sv hsv
              · exact hall t htm sv hsv
            · intro _ r hr
              rw [← h1] at hr
              by_cases hre : rest = []
              · subst hre; simp at hr; exact hdead r hr
              · have : rest.isEmpty = false := by cases rest <;> simp_all
                rw [this] at hr
                simp at hr
                exact hrs hre r hr
          · right
            refine ⟨k + 1, t, by rw [← h2, hb]; congr 1; omega, by simpa using hk, ?_, hfe, ?_, ?_⟩
            · intro i hi t' ht' sv hsv
              cases i with
              | zero => simp at ht'; subst ht'; exact hinf sv hsv
              | succ i => exact hbefore i (by omega) t' (by simpa using ht') sv hsv
            · have : rest.isEmpty = false := by cases rest <;> simp_all
              rw [← h1, this, hrs]; rfl
            · rw [← h3, ht]; rfl

theorem findIdx?_first {α : Type} {p : α → Bool} {l : List α} {j : Nat} (h : l.findIdx? p = some j) :
    (∃ a, l[j]? = some a ∧ p a = true) ∧ ∀ i < j, ∀ a, l[i]? = some a → p a = false := by
  rw [List.findIdx?_eq_some_iff_getElem] at h
  obtain ⟨hj, hp, hb⟩ := h
  refine ⟨⟨l[j], List.getElem?_eq_getElem hj, hp⟩, ?_⟩
  intro i hi a ha
  have hil : i < l.length := by omega
  rw [List.getElem?_eq_getElem hil] at ha
  cases ha
  have := hb i hi
  simpa using this

/-- The index chosen within a tier: largest value, first among equals; when some entry is
alive the chosen one is. -/
theorem bestIndex_spec {rs : List XReal} {j : Nat} (h : bestIndex (rs.map fixNan) = some j)
    (hal : ∃ r ∈ rs, ¬ Dead r) :
    ∃ r, rs[j]? = some r ∧ ¬ Dead r ∧ (∀ r' ∈ rs, r' = .nan ∨ XReal.leB r' r = true) ∧
      ∀ i < j, ∀ r', rs[i]? = some r' → r' = .nan ∨ XReal.ltB r' r = true := by
  unfold bestIndex at h
  cases hm : XReal.nanmax (rs.map fixNan) with
  | none => rw [hm] at h; cases h
  | some m =>
    rw [hm] at h
    simp only at h
    have hmax := XReal.nanmax_max hm
    obtain ⟨⟨a, ha, hpa⟩, hbefore⟩ := findIdx?_first h
    obtain ⟨r0, hr0, hd0⟩ := hal
    have hr0n : r0 ≠ .nan := fun h => hd0 (Or.inl h)
    have hr0m : r0 ∈ rs.map fixNan := by
      rw [List.mem_map]
      refine ⟨r0, hr0, ?_⟩
      unfold fixNan
      rw [if_neg]
      rw [XReal.isNan_iff]; exact hr0n
    have hmn : m ≠ .nan ∧ m ∈ rs.map fixNan ∧ ∀ x ∈ rs.map fixNan, x = .nan ∨ XReal.leB x m = true := by
      rcases hmax with ⟨_, h2⟩ | h
      · exact absurd (h2 r0 hr0m) hr0n
      · exact h
    have ham : a = m := by
      cases a <;> simp_all [XReal.eqB]
    subst ham
    have hfix : ∀ r ∈ rs, r = .nan ∨ XReal.leB r a = true := by
      intro r hr
      by_cases hrn : r = .nan
      · exact Or.inl hrn
      · right
        have hmem : r ∈ rs.map fixNan := by
          rw [List.mem_map]; refine ⟨r, hr, ?_⟩
          unfold fixNan; rw [if_neg]; rw [XReal.isNan_iff]; exact hrn
        exact (hmn.2.2 r hmem).resolve_left hrn
    have hadead : ¬ Dead a := by
      intro hd
      rcases hd with hd | hd
      · exact hmn.1 hd
      · rcases hfix r0 hr0 with h | h
        · exact hr0n h
        · rw [hd] at h
          apply hd0; right
          cases r0 <;> simp_all [XReal.leB]
    rw [List.getElem?_map] at ha
    cases hrj : rs[j]? with
    | none => rw [hrj] at ha; cases ha
    | some r =>
      rw [hrj] at ha
      simp only [Option.map_some, Option.some.injEq] at ha
      have hra : r = a := by
        unfold fixNan at ha
        split at ha
        · exact absurd (Or.inr ha.symm) hadead
        · exact ha
      subst hra
      refine ⟨r, rfl, hadead, hfix, ?_⟩
      intro i hi r' hr'
      have hb := hbefore i hi (fixNan r') (by rw [List.getElem?_map, hr']; rfl)
      by_cases hrn : r' = .nan
      · exact Or.inl hrn
      · right
        have hf : fixNan r' = r' := by unfold fixNan; rw [if_neg]; rw [XReal.isNan_iff]; exact hrn
        rw [hf] at hb
        have hle := (hfix r' (List.mem_of_getElem? hr')).resolve_left hrn
        apply XReal.ltB_of_leB_ne hle
        intro heq
        subst heq
        cases r' <;> simp_all [XReal.eqB]

namespace Core

/-- Full description of a queue fill. -/
theorem fillQueue_spec {E : Env C Sv A} {s s' : Core C Sv A} {ev : List Ev} {c : C}
    (hc : s.conditions = some c) (h : s.fillQueue E = .ok (s', ev)) :
    ((∀ t ∈ s.tiers, ∀ sv ∈ t, ¬ Feasible E.sv c sv) ∧ s'.qm = s.qm.flush ∧ s'.surveyIndex = (none, none) ∧
      s'.counter = s.counter) ∨
    (∃ i j tier sv filled, s.tiers[i]? = some tier ∧ tier[j]? = some sv ∧
      s'.surveyIndex = (some i, some j) ∧
      (∀ k < i, ∀ t', s.tiers[k]? = some t' → ∀ v ∈ t', ¬ Feasible E.sv c v) ∧
      Feasible E.sv c sv ∧
      (∀ v ∈ tier, scalarReward (E.sv.reward v c).1 = .nan ∨
        XReal.leB (scalarReward (E.sv.reward v c).1) (scalarReward (E.sv.reward sv c).1) = true) ∧
      (∀ k < j, ∀ v, tier[k]? = some v → scalarReward (E.sv.reward v c).1 = .nan ∨
        XReal.ltB (scalarReward (E.sv.reward v c).1) (scalarReward (E.sv.reward sv c).1) = true) ∧
      fillFilters s.bandToFilter (tagIds s.counter (E.sv.gen (E.sv.reward sv c).2 c).1) = .ok filled ∧
      s'.qm = s.qm.setQueue filled ∧
      (∀ k > i, s'.tiers[k]? = s.tiers[k]?)) := by
  unfold fillQueue at h
  rw [hc] at h
  simp only at h
  cases hl : tierLoop E.sv c 0 s.tiers with
  | error e => rw [hl] at h; cases h
  | ok p =>
    obtain ⟨rs, brk, tiers'⟩ := p
    rw [hl] at h
    simp only at h
    cases hm : XReal.nanmax rs with
    | none => rw [hm] at h; cases h
    | some m =>
      rw [hm] at h
      simp only at h
      have hmax := XReal.nanmax_max hm
      have hspec := tierLoop_spec E.sv c 0 s.tiers hl
      by_cases hd : m = .ninf ∨ m = .nan
      · rw [if_pos hd] at h
        cases h
        left
        refine ⟨?_, rfl, rfl, rfl⟩
        rcases hspec with ⟨_, hall, _, _⟩ | ⟨k, t, _, _, _, ⟨sv, hsv, hf⟩, hrs, _⟩
        · exact hall
        · exfalso
          have hmem : scalarReward (E.sv.reward sv c).1 ∈ rs := by
            rw [hrs]; simp only [evalTier, List.mem_map]; exact ⟨sv, hsv, rfl⟩
          apply absurd hf
          rw [not_feasible_iff]
          rcases hmax with ⟨_, h2⟩ | ⟨h1, _, h3⟩
          · exact Or.inl (h2 _ hmem)
          · rcases h3 _ hmem with h4 | h4
            · exact Or.inl h4
            · rcases hd with hd | hd
              · rw [hd] at h4; right
                generalize scalarReward (E.sv.reward sv c).1 = r at *
                cases r <;> simp_all [XReal.leB]
              · exact absurd hd h1
      · rw [if_neg hd] at h
        right
        rcases hspec with ⟨hb, _, _, hdead⟩ | ⟨k, t, hb, hk, hbefore, hfe, hrs, ht⟩
        · rw [hb] at h; cases h
        · rw [hb] at h
          cases hbi : bestIndex (rs.map fixNan) with
          | none => rw [hbi] at h; cases h
          | some j =>
            rw [hbi] at h
            simp only [Nat.zero_add] at h
            have hlen : ((s.tiers.take k).map (fun t => (evalTier E.sv c t).2)).length = k := by
              have hkl : k < s.tiers.length := by
                rw [List.getElem?_eq_some_iff] at hk; exact hk.1
              simp; omega
            have htk : tiers'[k]? = some (evalTier E.sv c t).2 := by
              rw [ht, List.getElem?_append_right (by omega), hlen]; simp
            rw [htk] at h
            simp only at h
            cases htj : t[j]? with
            | none =>
              have : (evalTier E.sv c t).2[j]? = none := by simp only [evalTier, List.getElem?_map, htj]; rfl
              rw [this] at h; cases h
            | some sv =>
              have : (evalTier E.sv c t).2[j]? = some (E.sv.reward sv c).2 := by
                simp only [evalTier, List.getElem?_map, htj]; rfl
              rw [this] at h
              simp only at h
              split at h
              · cases h
              · rename_i filled hf
                cases h
                have hal : ∃ r ∈ rs, ¬ Dead r := by
                  obtain ⟨v, hv, hfv⟩ := hfe
                  refine ⟨scalarReward (E.sv.reward v c).1, ?_, ?_⟩
                  · rw [hrs]; simp only [evalTier, List.mem_map]; exact ⟨v, hv, rfl⟩
                  · intro hd; exact (not_feasible_iff _ _ _).mpr hd hfv
                obtain ⟨r, hr, hnd, hle, hlt⟩ := bestIndex_spec hbi hal
                have hrr : r = scalarReward (E.sv.reward sv c).1 := by
                  rw [hrs] at hr
                  simp only [evalTier, List.getElem?_map, htj, Option.map_some, Option.some.injEq] at hr
                  exact hr.symm
                subst hrr
                refine ⟨k, j, t, sv, filled, hk, htj, rfl, hbefore, ?_, ?_, ?_, hf, rfl, ?_⟩
                · by_contra hc; exact hnd ((not_feasible_iff _ _ _).mp hc)
                · intro v hv
                  apply hle
                  rw [hrs]; simp only [evalTier, List.mem_map]; exact ⟨v, hv, rfl⟩
                · intro i hi v hv
                  apply hlt i hi
                  rw [hrs]; simp only [evalTier, List.getElem?_map, hv, Option.map_some]
                · intro i hi
                  simp only
                  rw [List.getElem?_set_ne (by omega), ht, List.getElem?_append_right (by omega), hlen]
                  have : i - k = (i - k - 1) + 1 := by omega
                  rw [this, List.getElem?_cons_succ, List.getElem?_drop]
                  congr 1; omega

/-- Where the visits handed out come from. -/
theorem request_source {E : Env C Sv A} {s s' : Core C Sv A} {m : Option ℚ} {w : Bool}
    {l : List Obs} {ev : List Ev} (ha : s.qm.Aligned) (h : s.request E m w = .ok (s', some l, ev)) :
    ∃ (c : C) (q : QM A), s.conditions = some c ∧ q.Aligned ∧ q.desired = s'.qm.desired ∧ q.need = s'.qm.need ∧
      (q.aux = s.qm.aux ∨ ∃ r, q.aux = (E.q.detail s.qm.aux c r).2) ∧
      l = (q.request E.q c w).1.map setNote ∧ l ≠ [] := by
  obtain ⟨c, s1, ev1, hc, hfirst, hrest⟩ := request_cases h
  have h1 : s1.qm.Aligned ∧ s1.qm.aux = s.qm.aux := by
    rcases hfirst with ⟨_, hf⟩ | ⟨_, rfl, _⟩
    · exact ⟨fillQueue_aligned hf, (fillQueue_frame hf).2.2.2.2.2⟩
    · exact ⟨ha, rfl⟩
  rcases hrest with ⟨_, _, hn, _⟩ | ⟨_, hne, hs', hout, _⟩ | ⟨_, _, s3, ev2, hf, hs', _, hout⟩
  · cases hn
  · cases hout
    refine ⟨c, s1.qm, hc, h1.1, ?_, ?_, Or.inl h1.2, rfl, by simpa using hne⟩
    · rw [hs']; exact (qrequest_queue _ _ _ _).1.symm
    · rw [hs']; exact (qrequest_queue _ _ _ _).2.symm
  · rcases hout with ⟨_, hn⟩ | ⟨hne, hout⟩
    · cases hn
    · cases hout
      refine ⟨c, s3.qm, hc, fillQueue_aligned hf, ?_, ?_, ?_, rfl, by simpa using hne⟩
      · rw [hs']; exact (qrequest_queue _ _ _ _).1.symm
      · rw [hs']; exact (qrequest_queue _ _ _ _).2.symm
      · have haux := (fillQueue_frame hf).2.2.2.2.2
        rw [haux]
        show (s1.qm.request E.q c w).2.aux = s.qm.aux ∨ _
        rw [QM.request_eq E.q _ c w h1.1]
        simp only
        by_cases hl : (if w = true then s1.qm.selectable E.q c (E.q.mjdOf c)
            else List.take 1 (s1.qm.selectable E.q c (E.q.mjdOf c))).length > 0
        · right; rw [if_pos hl]; exact ⟨_, congrArg (fun a => (E.q.detail a c _).2) h1.2⟩
        · left; rw [if_neg hl]; exact h1.2

end Core
end Verif
