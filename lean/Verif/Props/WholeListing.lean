import Verif.Lemmas.CoreSwap
import Verif.Props.WholeIdle

/-!
Properties C253 and C254: the order of surveys within a tier, and tiers as shifts of rewards, in a simulation.
-/

namespace Verif

open Whole Core XReal

/-- The largest of the rewards that are not nan. -/
def Largest (l : List XReal) (r : XReal) : Prop := r ∈ l ∧ r ≠ .nan ∧ ∀ x ∈ l, x = .nan ∨ leB x r = true

section
variable {C Sv A H K B : Type}

theorem feasible_largest {ops : SurveyOps C Sv} {c : C} {v : Sv} (h : Feasible ops c v) :
    Largest (ops.reward v c).1 (scalarReward (ops.reward v c).1) ∧ ltB .ninf (scalarReward (ops.reward v c).1) = true := by
  have hd : ¬ Dead (scalarReward (ops.reward v c).1) := fun e => (not_feasible_iff ops c v).2 e h
  have hlt : ltB .ninf (scalarReward (ops.reward v c).1) = true := by
    by_contra hn
    rw [Bool.not_eq_true] at hn
    exact hd ((dead_iff _).2 hn)
  refine ⟨?_, hlt⟩
  unfold scalarReward at hd ⊢
  split_ifs at hd ⊢ with ha
  · exact absurd (.inl rfl) hd
  · cases hm : XReal.nanmax (ops.reward v c).1 with
    | none => rw [hm] at hd; exact absurd (.inl rfl) hd
    | some m =>
      rw [hm] at hd
      rcases nanmax_max hm with ⟨e, -⟩ | ⟨h1, h2, h3⟩
      · exact absurd (.inl e) hd
      · exact ⟨h2, h1, h3⟩

theorem feasible_not_nan {ops : SurveyOps C Sv} {c : C} {v : Sv} (h : Feasible ops c v) : scalarReward (ops.reward v c).1 ≠ .nan := (feasible_largest h).1.2.1

theorem leB_antisymm' {a b : XReal} (h1 : leB a b = true) (h2 : leB b a = true) : a = b := by
  by_contra hn
  have := ltB_of_leB_ne h1 hn
  revert this h2
  cases a <;> cases b <;> simp [leB, ltB]

/-- Tiers with the same surveys in another order, all different. -/
def Reordered {κ : Type} (key : Sv → κ) (ts' ts : List (List Sv)) : Prop :=
  List.Forall₂ List.Perm ts' ts ∧ (∀ t ∈ ts', (t.map key).Nodup ∧ t ≠ []) ∧ ts' ≠ []

theorem perm_mem {ts' ts : List (List Sv)} (h : List.Forall₂ List.Perm ts' ts) {t : List Sv} (ht : t ∈ ts) : ∃ t' ∈ ts', t'.Perm t := by
  induction h with
  | nil => cases ht
  | cons h1 h2 ih =>
    rcases List.mem_cons.1 ht with rfl | ht
    · exact ⟨_, List.mem_cons_self, h1⟩
    · obtain ⟨t', h3, h4⟩ := ih ht
      exact ⟨t', List.mem_cons_of_mem _ h3, h4⟩

theorem perm_mem' {ts' ts : List (List Sv)} (h : List.Forall₂ List.Perm ts' ts) {t : List Sv} (ht : t ∈ ts') : ∃ t' ∈ ts, t.Perm t' := by
  induction h with
  | nil => cases ht
  | cons h1 h2 ih =>
    rcases List.mem_cons.1 ht with rfl | ht
    · exact ⟨_, List.mem_cons_self, h1⟩
    · obtain ⟨t', h3, h4⟩ := ih ht
      exact ⟨t', List.mem_cons_of_mem _ h3, h4⟩

theorem perm_map_tiers (φ : Sv → Sv) {ts' ts : List (List Sv)} (h : List.Forall₂ List.Perm ts' ts) :
    List.Forall₂ List.Perm (ts'.map (List.map φ)) (ts.map (List.map φ)) := by
  induction h with
  | nil => exact .nil
  | cons h1 _ ih => exact .cons (h1.map φ) ih

theorem perm_append_tiers {a' a b' b : List (List Sv)} (h : List.Forall₂ List.Perm a' a) (h2 : List.Forall₂ List.Perm b' b) : List.Forall₂ List.Perm (a' ++ b') (a ++ b) := by
  induction h with
  | nil => exact h2
  | cons h1 _ ih => exact .cons h1 ih

theorem Reordered.map {κ : Type} {key : Sv → κ} {φ : Sv → Sv} (hφ : ∀ s, key (φ s) = key s) {ts' ts : List (List Sv)} (h : Reordered key ts' ts) :
    Reordered key (ts'.map (List.map φ)) (ts.map (List.map φ)) := by
  refine ⟨perm_map_tiers φ h.1, ?_, by simpa using h.2.2⟩
  intro t ht
  obtain ⟨t0, h0, rfl⟩ := List.mem_map.1 ht
  obtain ⟨h1, h2⟩ := h.2.1 t0 h0
  refine ⟨?_, by simpa using h2⟩
  rw [List.map_map]
  rwa [show key ∘ φ = key from funext hφ]

/-- The first tier with a feasible survey is the same. -/
theorem first_same {P : Sv → Prop} : ∀ {pre' pre post' post : List (List Sv)} {t' t : List Sv}, List.Forall₂ List.Perm (pre' ++ t' :: post') (pre ++ t :: post) →
    (∀ x ∈ pre', ∀ v ∈ x, ¬ P v) → (∀ x ∈ pre, ∀ v ∈ x, ¬ P v) → (∃ v ∈ t', P v) → (∃ v ∈ t, P v) →
    List.Forall₂ List.Perm pre' pre ∧ t'.Perm t ∧ List.Forall₂ List.Perm post' post := by
  intro pre'
  induction pre' with
  | nil =>
    intro pre post' post t' t h hp' hp ht' ht
    cases pre with
    | nil =>
      cases h with
      | cons h1 h2 => exact ⟨.nil, h1, h2⟩
    | cons x pre =>
      exfalso
      cases h with
      | cons h1 h2 =>
        obtain ⟨v, hv, hP⟩ := ht'
        exact hp x List.mem_cons_self v (h1.subset hv) hP
  | cons x' pre' ih =>
    intro pre post' post t' t h hp' hp ht' ht
    cases pre with
    | nil =>
      exfalso
      cases h with
      | cons h1 h2 =>
        obtain ⟨v, hv, hP⟩ := ht
        exact hp' x' List.mem_cons_self v (h1.symm.subset hv) hP
    | cons x pre =>
      cases h with
      | cons h1 h2 =>
        obtain ⟨h3, h4, h5⟩ := ih h2 (fun y hy => hp' y (List.mem_cons_of_mem _ hy)) (fun y hy => hp y (List.mem_cons_of_mem _ hy)) ht' ht
        exact ⟨.cons h1 h3, h4, h5⟩

theorem gather_perm (E : Env C Sv A) {ts' ts : List (List Sv)} (h : ts'.flatten.Perm ts.flatten) (x : ℚ) : gatherScheduled E ts' x = gatherScheduled E ts x := by
  unfold gatherScheduled
  dsimp only
  congr 1
  have hp : ((ts'.flatten.filterMap fun v => E.sv.scheduled v).flatten).Perm ((ts.flatten.filterMap fun v => E.sv.scheduled v).flatten) := (h.filterMap _).flatten
  refine List.Perm.eq_of_pairwise (le := fun a b : ℚ => a ≤ b) (fun a b _ _ h1 h2 => le_antisymm h1 h2) (List.pairwise_insertionSort ..) (List.pairwise_insertionSort ..) ?_
  exact (List.perm_insertionSort _ _).trans (hp.trans (List.perm_insertionSort _ _).symm)

theorem Reordered.flatten {ts' ts : List (List Sv)} (h : List.Forall₂ List.Perm ts' ts) : ts'.flatten.Perm ts.flatten := by
  induction h with
  | nil => exact .refl _
  | cons h1 _ ih => exact h1.append ih

theorem reordered_swaps {κ : Type} (E : Env C Sv A) (key : Sv → κ) (hreward : ∀ s c, key (E.sv.reward s c).2 = key s) (hgen : ∀ s c, key (E.sv.gen s c).2 = key s)
    (hadd : ∀ s o, key (E.sv.addObs s o) = key s) (hupd : ∀ s c, key (E.sv.update s c) = key s)
    (hties : ∀ s t c r, key s ≠ key t → ltB .ninf r = true → Largest (E.sv.reward s c).1 r → ¬ Largest (E.sv.reward t c).1 r) :
    Swaps E E (Reordered key) where
  q := rfl
  toos := rfl
  addObs o h := h.map fun s => hadd s o
  update c h := h.map fun s => hupd s c
  gather x h := gather_perm E (Reordered.flatten h.1) x
  fill := by
    intro s' s ha
    cases hc : s.conditions with
    | none =>
      have hc' := ha.conditions.trans hc
      unfold Core.fillQueue
      rw [hc, hc']
      trivial
    | some c =>
    have hc' : s'.conditions = some c := ha.conditions.trans hc
    obtain ⟨hperm, hall, hne'⟩ := ha.tiers
    have hfull : ∀ t ∈ s.tiers, t ≠ [] := by
      intro t ht e
      obtain ⟨t', ht', hp⟩ := perm_mem hperm ht
      rw [e] at hp
      exact (hall t' ht').2 hp.eq_nil
    have hne : s.tiers ≠ [] := by
      intro e
      rw [e] at hperm
      cases h0 : s'.tiers with
      | nil => exact hne' h0
      | cons a l => rw [h0] at hperm; cases hperm
    rcases fillQueue_cases E hc' (fun t ht => (hall t ht).2) hne' with ⟨hinf', e'⟩ | ⟨pre', a', sv', b', post', ht', hpre', hf', hmax', -, e'⟩ <;>
      rcases fillQueue_cases E hc hfull hne with ⟨hinf, e⟩ | ⟨pre, a, sv, b, post, ht, hpre, hf, hmax, -, e⟩
    · rw [e', e]
      exact ⟨⟨by show s'.qm.flush = s.qm.flush; rw [ha.qm], ha.tiers.map fun s => hreward s c, ha.counter, ha.conditions, ha.scheduled, ha.flushToo, ha.ids, ha.dict⟩, rfl⟩
    · exfalso
      have hm : a ++ sv :: b ∈ s.tiers := by rw [ht]; simp
      obtain ⟨t', h1, h2⟩ := perm_mem hperm hm
      exact hinf' t' h1 sv (h2.symm.subset (by simp)) hf
    · exfalso
      have hm : a' ++ sv' :: b' ∈ s'.tiers := by rw [ht']; simp
      obtain ⟨t', h1, h2⟩ := perm_mem' hperm hm
      exact hinf t' h1 sv' (h2.subset (by simp)) hf'
    · have hP := hperm
      rw [ht', ht] at hP
      obtain ⟨h1, h2, h3⟩ := first_same (P := Feasible E.sv c) hP hpre' hpre ⟨sv', by simp, hf'⟩ ⟨sv, by simp, hf⟩
      have hnd := (hall (a' ++ sv' :: b') (by rw [ht']; simp)).1
      have hsame : sv' = sv := by
        have hr : scalarReward (E.sv.reward sv' c).1 = scalarReward (E.sv.reward sv c).1 :=
          leB_antisymm' (hmax sv' (h2.subset (by simp)) hf') (hmax' sv (h2.symm.subset (by simp)) hf)
        have hk : key sv' = key sv := by
          by_contra hn
          have l1 := feasible_largest hf'
          have l2 := feasible_largest hf
          rw [← hr] at l2
          exact hties sv' sv c _ hn l1.2 l1.1 l2.1
        exact List.inj_on_of_nodup_map hnd (by simp) (h2.symm.subset (by simp)) hk
      subst hsame
      have h4 : (a' ++ b').Perm (a ++ b) := (List.perm_cons sv').1 ((List.perm_middle.symm.trans h2).trans List.perm_middle)
      rw [e', e]
      unfold Core.chosen
      dsimp only
      rw [ha.dict, ha.counter]
      cases fillFilters s.bandToFilter (tagIds s.counter (E.sv.gen (E.sv.reward sv' c).2 c).1) with
      | error e => trivial
      | ok filled =>
        refine ⟨⟨by show s'.qm.setQueue filled = s.qm.setQueue filled; rw [ha.qm], ⟨?_, ?_, by simp⟩, rfl, ha.conditions, ha.scheduled, ha.flushToo, ha.ids, rfl⟩, rfl⟩
        · dsimp only
          refine perm_append_tiers (perm_map_tiers _ h1) (.cons ?_ h3)
          have h5 := h4.map fun v => (E.sv.reward v c).2
          rw [List.map_append, List.map_append] at h5
          exact (List.perm_middle.trans (h5.cons _)).trans List.perm_middle.symm
        · dsimp only
          intro t h0
          rcases List.mem_append.1 h0 with h0 | h0
          · obtain ⟨t1, h6, rfl⟩ := List.mem_map.1 h0
            obtain ⟨h7, h8⟩ := hall t1 (by rw [ht']; exact List.mem_append_left _ h6)
            refine ⟨?_, by simpa using h8⟩
            rw [List.map_map, show key ∘ (fun v => (E.sv.reward v c).2) = key from funext fun s => hreward s c]
            exact h7
          · rcases List.mem_cons.1 h0 with rfl | h0
            · refine ⟨?_, by simp⟩
              rw [List.map_append, List.map_cons, List.map_map, List.map_map, show key ∘ (fun v => (E.sv.reward v c).2) = key from funext fun s => hreward s c,
                hgen, hreward]
              simpa using hnd
            · exact hall t (by rw [ht']; simp [h0])

/-- C253: the order in which the surveys of a tier are listed matters for ties only. Surveys are told apart by `key`, the tiers of the second simulation are those of the
first in another order, and no two different surveys ever have the same largest reward: then the simulations end in the same way, at the same time, with the same visits,
and leave the observatory and the surveys in the same state. -/
theorem C253_listing {κ : Type} (S : Obs.Site) (M : Obs.Kin K Obs) (fuel : ℕ) (conds : Obs.St K → C) (mount : K → B → K) (X : Rest H C B) (cfg : Sim.Cfg) (n : ℕ)
    (E : Env C Sv A) (key : Sv → κ) (hreward : ∀ s c, key (E.sv.reward s c).2 = key s) (hgen : ∀ s c, key (E.sv.gen s c).2 = key s)
    (hadd : ∀ s o, key (E.sv.addObs s o) = key s) (hupd : ∀ s c, key (E.sv.update s c) = key s)
    (hties : ∀ s t c r, key s ≠ key t → ltB .ninf r = true → Largest (E.sv.reward s c).1 r → ¬ Largest (E.sv.reward t c).1 r)
    (w : World (Core C Sv A × H) K) (tiers : List (List Sv)) (hperm : List.Forall₂ List.Perm w.sched.1.tiers tiers)
    (hnodup : ∀ t ∈ w.sched.1.tiers, (t.map key).Nodup) (hfull : ∀ t ∈ w.sched.1.tiers, t ≠ []) (hsome : w.sched.1.tiers ≠ []) :
    let one := Sim.run (V := Obs.Visit Obs) (env S M fuel conds mount (coreSched E X)) cfg n w
    let two := Sim.run (V := Obs.Visit Obs) (env S M fuel conds mount (coreSched E X)) cfg n { w with sched := ({ w.sched.1 with tiers := tiers }, w.sched.2) }
    two.kind = one.kind ∧ two.st.result = one.st.result ∧ two.st.mjd = one.st.mjd ∧ two.st.w.obs = one.st.w.obs ∧ two.st.w.raised = one.st.w.raised
      ∧ List.Forall₂ List.Perm one.st.w.sched.1.tiers two.st.w.sched.1.tiers := by
  dsimp only
  have hw : SwapWorld (K := K) (H := H) (Reordered key) w { w with sched := ({ w.sched.1 with tiers := tiers }, w.sched.2) } :=
    ⟨rfl, ⟨rfl, ⟨hperm, fun t ht => ⟨hnodup t ht, hfull t ht⟩, hsome⟩, rfl, rfl, rfl, rfl, rfl, rfl⟩, rfl, rfl⟩
  obtain ⟨h1, h2, h3, h4⟩ := Sim.run_relate (swap_relate (reordered_swaps E key hreward hgen hadd hupd hties) S M fuel conds mount X) cfg n hw
  exact ⟨h1.symm, h2.symm, h3.symm, h4.obs.symm, h4.raised.symm, h4.core.tiers.1⟩

end

/-! ### Tiers and larger rewards -/

section
variable {C Sv A H K B : Type}

theorem first_unique {α : Type} {Q : α → Prop} : ∀ {p1 p2 q1 q2 : List α} {x1 x2 : α}, p1 ++ x1 :: q1 = p2 ++ x2 :: q2 → (∀ y ∈ p1, ¬ Q y) → (∀ y ∈ p2, ¬ Q y) → Q x1 → Q x2 →
    p1 = p2 ∧ x1 = x2 ∧ q1 = q2 := by
  intro p1
  induction p1 with
  | nil =>
    intro p2 q1 q2 x1 x2 h _ h2 hx1 _
    cases p2 with
    | nil =>
      simp only [List.nil_append, List.cons.injEq] at h
      exact ⟨rfl, h.1, h.2⟩
    | cons y p2 =>
      simp only [List.nil_append, List.cons_append, List.cons.injEq] at h
      rw [h.1] at hx1
      exact absurd hx1 (h2 y List.mem_cons_self)
  | cons z p1 ih =>
    intro p2 q1 q2 x1 x2 h h1 h2 hx1 hx2
    cases p2 with
    | nil =>
      simp only [List.nil_append, List.cons_append, List.cons.injEq] at h
      rw [← h.1] at hx2
      exact absurd hx2 (h1 z List.mem_cons_self)
    | cons y p2 =>
      simp only [List.cons_append, List.cons.injEq] at h
      obtain ⟨h3, h4, h5⟩ := ih h.2 (fun w hw => h1 w (List.mem_cons_of_mem _ hw)) (fun w hw => h2 w (List.mem_cons_of_mem _ hw)) hx1 hx2
      exact ⟨by rw [h.1, h3], h4, h5⟩

theorem first_found {α : Type} {Q : α → Prop} {l : List α} (h : ∃ x ∈ l, Q x) : ∃ p x q, l = p ++ x :: q ∧ (∀ y ∈ p, ¬ Q y) ∧ Q x := by
  induction l with
  | nil => obtain ⟨x, hx, -⟩ := h; cases hx
  | cons y l ih =>
    by_cases hy : Q y
    · exact ⟨[], y, l, rfl, by simp, hy⟩
    · obtain ⟨x, hx, hq⟩ := h
      rcases List.mem_cons.1 hx with rfl | hx
      · exact absurd hq hy
      · obtain ⟨p, x, q, e, h1, h2⟩ := ih ⟨x, hx, hq⟩
        refine ⟨y :: p, x, q, by rw [e]; rfl, ?_, h2⟩
        intro z hz
        rcases List.mem_cons.1 hz with rfl | hz
        · exact hy
        · exact h1 z hz

/-- The survey of a tier with the largest reward. -/
def BestOf (E : Env C Sv A) (c : C) (t : List Sv) (v : Sv) : Prop :=
  Feasible E.sv c v ∧ ∀ u ∈ t, Feasible E.sv c u → leB (scalarReward (E.sv.reward u c).1) (scalarReward (E.sv.reward v c).1) = true

theorem before_not_best {E : Env C Sv A} {c : C} {t a : List Sv} {sv : Sv} (hsv : sv ∈ t) (hf : Feasible E.sv c sv)
    (h : ∀ v ∈ a, Feasible E.sv c v → ltB (scalarReward (E.sv.reward v c).1) (scalarReward (E.sv.reward sv c).1) = true) : ∀ v ∈ a, ¬ BestOf E c t v := by
  rintro v hv ⟨h1, h2⟩
  have h3 := h v hv h1
  have h4 := h2 sv hsv hf
  revert h3 h4
  cases scalarReward (E.sv.reward v c).1 <;> cases scalarReward (E.sv.reward sv c).1 <;> simp [ltB, leB]

/-- Two tiers, one after the other, in place of one with the surveys of both. -/
def Merged (upper : Sv → Bool) (ts' ts : List (List Sv)) : Prop :=
  ∃ pre U L post, ts' = pre ++ U :: L :: post ∧ ts = pre ++ (U ++ L) :: post ∧ (∀ v ∈ U, upper v = true) ∧ (∀ v ∈ L, upper v = false) ∧ ∀ t ∈ ts', t ≠ []

theorem Merged.map {upper : Sv → Bool} {φ : Sv → Sv} (hφ : ∀ s, upper (φ s) = upper s) {ts' ts : List (List Sv)} (h : Merged upper ts' ts) :
    Merged upper (ts'.map (List.map φ)) (ts.map (List.map φ)) := by
  obtain ⟨pre, U, L, post, rfl, rfl, hU, hL, hfull⟩ := h
  refine ⟨pre.map (List.map φ), U.map φ, L.map φ, post.map (List.map φ), by simp, by simp, ?_, ?_, full_map hfull⟩
  · intro v hv
    obtain ⟨u, hu, rfl⟩ := List.mem_map.1 hv
    rw [hφ, hU u hu]
  · intro v hv
    obtain ⟨u, hu, rfl⟩ := List.mem_map.1 hv
    rw [hφ, hL u hu]

theorem merged_swaps (E : Env C Sv A) (upper : Sv → Bool) (hreward : ∀ s c, upper (E.sv.reward s c).2 = upper s) (hgen : ∀ s c, upper (E.sv.gen s c).2 = upper s)
    (hadd : ∀ s o, upper (E.sv.addObs s o) = upper s) (hupd : ∀ s c, upper (E.sv.update s c) = upper s)
    (hpure : ∀ s c, upper s = false → (E.sv.reward s c).2 = s)
    (hrank : ∀ s t c r x, upper s = true → upper t = false → ltB .ninf r = true → Largest (E.sv.reward s c).1 r → x ∈ (E.sv.reward t c).1 → x = .nan ∨ ltB x r = true) :
    Swaps E E (Merged upper) where
  q := rfl
  toos := rfl
  addObs o h := h.map fun s => hadd s o
  update c h := h.map fun s => hupd s c
  gather x h := by
    obtain ⟨pre, U, L, post, rfl, rfl, -⟩ := h
    exact gather_perm E (by simp) x
  fill := by
    intro s' s ha
    cases hc : s.conditions with
    | none =>
      have hc' := ha.conditions.trans hc
      unfold Core.fillQueue
      rw [hc, hc']
      trivial
    | some c =>
    have hc' : s'.conditions = some c := ha.conditions.trans hc
    have hmerged := ha.tiers
    obtain ⟨pre, U, L, post, ht', ht, hU, hL, hfull'⟩ := ha.tiers
    have hUne : U ≠ [] := hfull' U (by rw [ht']; simp)
    have hLne : L ≠ [] := hfull' L (by rw [ht']; simp)
    have hfull : ∀ t ∈ s.tiers, t ≠ [] := by
      intro t h0
      rw [ht] at h0
      rcases List.mem_append.1 h0 with h0 | h0
      · exact hfull' t (by rw [ht']; simp [h0])
      · rcases List.mem_cons.1 h0 with rfl | h0
        · simp [hUne]
        · exact hfull' t (by rw [ht']; simp [h0])
    have hmem : ∀ v, (∃ t ∈ s'.tiers, v ∈ t) ↔ ∃ t ∈ s.tiers, v ∈ t := by
      intro v
      rw [← List.mem_flatten, ← List.mem_flatten, ht', ht]
      simp
    have hsurv : ∀ φ : Sv → Sv, φ = (fun v => (E.sv.reward v c).2) → L.map φ = L := by
      rintro φ rfl
      conv_rhs => rw [← List.map_id L]
      exact List.map_congr_left fun v hv => hpure v c (hL v hv)
    rcases fillQueue_cases E hc' hfull' (by rw [ht']; simp) with ⟨hinf', e'⟩ | ⟨p', a', sv', b', q', hs', hp', hf', hmax', hbef', e'⟩ <;>
      rcases fillQueue_cases E hc hfull (by rw [ht]; simp) with ⟨hinf, e⟩ | ⟨p, a, sv, b, q, hs, hp, hf, hmax, hbef, e⟩
    · rw [e', e]
      exact ⟨⟨by show s'.qm.flush = s.qm.flush; rw [ha.qm], hmerged.map fun s => hreward s c, ha.counter, ha.conditions, ha.scheduled, ha.flushToo, ha.ids, ha.dict⟩, rfl⟩
    · exfalso
      obtain ⟨t, h1, h2⟩ := (hmem sv).2 ⟨a ++ sv :: b, by rw [hs]; simp, by simp⟩
      exact hinf' t h1 sv h2 hf
    · exfalso
      obtain ⟨t, h1, h2⟩ := (hmem sv').1 ⟨a' ++ sv' :: b', by rw [hs']; simp, by simp⟩
      exact hinf t h1 sv' h2 hf'
    · have hp'2 : ∀ t ∈ p', ¬ ∃ v ∈ t, Feasible E.sv c v := fun t h0 ⟨v, h1, h2⟩ => hp' t h0 v h1 h2
      have hp2 : ∀ t ∈ p, ¬ ∃ v ∈ t, Feasible E.sv c v := fun t h0 ⟨v, h1, h2⟩ => hp t h0 v h1 h2
      have hb' : BestOf E c (a' ++ sv' :: b') sv' := ⟨hf', hmax'⟩
      have hb : BestOf E c (a ++ sv :: b) sv := ⟨hf, hmax⟩
      have hnb' : ∀ v ∈ a', ¬ BestOf E c (a' ++ sv' :: b') v := before_not_best (by simp) hf' hbef'
      have hnb : ∀ v ∈ a, ¬ BestOf E c (a ++ sv :: b) v := before_not_best (by simp) hf hbef
      have hx' : ∃ v ∈ a' ++ sv' :: b', Feasible E.sv c v := ⟨sv', by simp, hf'⟩
      have hx : ∃ v ∈ a ++ sv :: b, Feasible E.sv c v := ⟨sv, by simp, hf⟩
      -- the same survey, and tiers that can still be merged
      have key : sv' = sv ∧ ∀ g, upper g = upper sv →
          Merged upper (p'.map (List.map fun v => (E.sv.reward v c).2) ++ (a'.map (fun v => (E.sv.reward v c).2) ++ g :: b'.map fun v => (E.sv.reward v c).2) :: q')
            (p.map (List.map fun v => (E.sv.reward v c).2) ++ (a.map (fun v => (E.sv.reward v c).2) ++ g :: b.map fun v => (E.sv.reward v c).2) :: q) := by
        have hfulln : ∀ g, ∀ t ∈ p'.map (List.map fun v => (E.sv.reward v c).2) ++ (a'.map (fun v => (E.sv.reward v c).2) ++ g :: b'.map fun v => (E.sv.reward v c).2) :: q', t ≠ [] := by
          intro g t h0
          rcases List.mem_append.1 h0 with h0 | h0
          · obtain ⟨t1, h1, rfl⟩ := List.mem_map.1 h0
            have := hfull' t1 (by rw [hs']; exact List.mem_append_left _ h1)
            simpa using this
          · rcases List.mem_cons.1 h0 with rfl | h0
            · simp
            · exact hfull' t (by rw [hs']; simp [h0])
        by_cases h1 : ∃ t ∈ pre, ∃ v ∈ t, Feasible E.sv c v
        · obtain ⟨p0, t0, q0, e0, hn0, hy0⟩ := first_found h1
          have d' : p' ++ (a' ++ sv' :: b') :: q' = p0 ++ t0 :: (q0 ++ U :: L :: post) := by rw [← hs', ht', e0]; simp
          have d : p ++ (a ++ sv :: b) :: q = p0 ++ t0 :: (q0 ++ (U ++ L) :: post) := by rw [← hs, ht, e0]; simp
          obtain ⟨rfl, r2', rfl⟩ := first_unique d' hp'2 hn0 hx' hy0
          obtain ⟨rfl, r2, rfl⟩ := first_unique d hp2 hn0 hx hy0
          obtain ⟨rfl, rfl, rfl⟩ := first_unique (r2'.trans r2.symm) hnb' (by rw [r2', ← r2]; exact hnb) hb' (by rw [r2', ← r2]; exact hb)
          refine ⟨rfl, fun g _ => ⟨p.map (List.map fun v => (E.sv.reward v c).2)
            ++ (a'.map (fun v => (E.sv.reward v c).2) ++ g :: b'.map fun v => (E.sv.reward v c).2) :: q0, U, L, post, ?_, ?_, hU, hL, hfulln g⟩⟩
          · rw [List.append_assoc, List.cons_append]
          · rw [List.append_assoc, List.cons_append]
        · have hn0 : ∀ t ∈ pre, ¬ ∃ v ∈ t, Feasible E.sv c v := fun t h0 h2 => h1 ⟨t, h0, h2⟩
          by_cases h2 : ∃ v ∈ U, Feasible E.sv c v
          · have d' : p' ++ (a' ++ sv' :: b') :: q' = pre ++ U :: (L :: post) := by rw [← hs', ht']
            have d : p ++ (a ++ sv :: b) :: q = pre ++ (U ++ L) :: post := by rw [← hs, ht]
            obtain ⟨rfl, r2', rfl⟩ := first_unique d' hp'2 hn0 hx' h2
            obtain ⟨rfl, r2, rfl⟩ := first_unique d hp2 hn0 hx (by obtain ⟨v, h3, h4⟩ := h2; exact ⟨v, by simp [h3], h4⟩)
            have hup : upper sv' = true := hU sv' (by rw [← r2']; simp)
            have hbest : BestOf E c (a ++ sv :: b) sv' := by
              refine ⟨hf', ?_⟩
              rw [r2]
              intro u hu hfu
              rcases List.mem_append.1 hu with hu | hu
              · exact hmax' u (by rw [r2']; exact hu) hfu
              · have l1 := feasible_largest hf'
                have l2 := feasible_largest hfu
                rcases hrank sv' u c _ _ hup (hL u hu) l1.2 l1.1 l2.1.1 with h5 | h5
                · exact absurd h5 l2.1.2.1
                · revert h5
                  cases scalarReward (E.sv.reward u c).1 <;> cases scalarReward (E.sv.reward sv' c).1 <;> simp [ltB, leB]
                  exact le_of_lt
            have hnot : ∀ v ∈ a', ¬ BestOf E c (a ++ sv :: b) v := by
              refine before_not_best ?_ hf' hbef'
              rw [r2, ← r2']
              simp
            have d3 : a' ++ sv' :: (b' ++ L) = a ++ sv :: b := by rw [r2, ← r2']; simp
            obtain ⟨rfl, rfl, rfl⟩ := first_unique d3 hnot hnb hbest hb
            refine ⟨rfl, fun g hg => ⟨_, _, L, _, rfl, ?_, ?_, hL, hfulln g⟩⟩
            · rw [List.map_append, hsurv _ rfl]
              simp
            · intro v hv
              rcases List.mem_append.1 hv with hv | hv
              · obtain ⟨u, hu, rfl⟩ := List.mem_map.1 hv
                rw [hreward]
                exact hU u (by rw [← r2']; simp [hu])
              · rcases List.mem_cons.1 hv with rfl | hv
                · rw [hg, hup]
                · obtain ⟨u, hu, rfl⟩ := List.mem_map.1 hv
                  rw [hreward]
                  exact hU u (by rw [← r2']; simp [hu])
          · have hn1 : ∀ t ∈ pre ++ [U], ¬ ∃ v ∈ t, Feasible E.sv c v := by
              intro t h0
              rcases List.mem_append.1 h0 with h0 | h0
              · exact hn0 t h0
              · rw [List.mem_singleton.1 h0]
                exact h2
            -- some survey of the lower tier or of later ones
            by_cases h3 : ∃ v ∈ L, Feasible E.sv c v
            · have d' : p' ++ (a' ++ sv' :: b') :: q' = (pre ++ [U]) ++ L :: post := by rw [← hs', ht']; simp
              have d : p ++ (a ++ sv :: b) :: q = pre ++ (U ++ L) :: post := by rw [← hs, ht]
              obtain ⟨rfl, r2', rfl⟩ := first_unique d' hp'2 hn1 hx' h3
              obtain ⟨rfl, r2, rfl⟩ := first_unique d hp2 hn0 hx (by obtain ⟨v, h4, h5⟩ := h3; exact ⟨v, by simp [h4], h5⟩)
              have hlow : upper sv' = false := hL sv' (by rw [← r2']; simp)
              have hbest : BestOf E c (a ++ sv :: b) sv' := by
                refine ⟨hf', ?_⟩
                rw [r2]
                intro u hu hfu
                rcases List.mem_append.1 hu with hu | hu
                · exact absurd ⟨u, hu, hfu⟩ h2
                · exact hmax' u (by rw [r2']; exact hu) hfu
              have hnot : ∀ v ∈ U ++ a', ¬ BestOf E c (a ++ sv :: b) v := by
                intro v hv
                rcases List.mem_append.1 hv with hv | hv
                · exact fun h0 => h2 ⟨v, hv, h0.1⟩
                · refine before_not_best ?_ hf' hbef' v hv
                  rw [r2, ← r2']
                  simp
              have d3 : (U ++ a') ++ sv' :: b' = a ++ sv :: b := by rw [r2, ← r2']; simp
              obtain ⟨rfl, rfl, rfl⟩ := first_unique d3 hnot hnb hbest hb
              refine ⟨rfl, fun g hg => ⟨p.map (List.map fun v => (E.sv.reward v c).2), U.map fun v => (E.sv.reward v c).2,
                a'.map (fun v => (E.sv.reward v c).2) ++ g :: b'.map fun v => (E.sv.reward v c).2, q, ?_, ?_, ?_, ?_, hfulln g⟩⟩
              rotate_left
              · rw [List.map_append, List.append_assoc]
              · intro v hv
                obtain ⟨u, hu, rfl⟩ := List.mem_map.1 hv
                rw [hreward]
                exact hU u hu
              · intro v hv
                rcases List.mem_append.1 hv with hv | hv
                · obtain ⟨u, hu, rfl⟩ := List.mem_map.1 hv
                  rw [hreward]
                  exact hL u (by rw [← r2']; simp [hu])
                · rcases List.mem_cons.1 hv with rfl | hv
                  · rw [hg, hlow]
                  · obtain ⟨u, hu, rfl⟩ := List.mem_map.1 hv
                    rw [hreward]
                    exact hL u (by rw [← r2']; simp [hu])
              · simp
            · have hn2 : ∀ t ∈ pre ++ [U, L], ¬ ∃ v ∈ t, Feasible E.sv c v := by
                intro t h0
                rcases List.mem_append.1 h0 with h0 | h0
                · exact hn0 t h0
                · simp only [List.mem_cons, List.not_mem_nil, or_false] at h0
                  rcases h0 with rfl | rfl
                  · exact h2
                  · exact h3
              have hn3 : ∀ t ∈ pre ++ [U ++ L], ¬ ∃ v ∈ t, Feasible E.sv c v := by
                intro t h0
                rcases List.mem_append.1 h0 with h0 | h0
                · exact hn0 t h0
                · rw [List.mem_singleton.1 h0]
                  rintro ⟨v, hv, hfv⟩
                  rcases List.mem_append.1 hv with hv | hv
                  · exact h2 ⟨v, hv, hfv⟩
                  · exact h3 ⟨v, hv, hfv⟩
              have h4 : ∃ t ∈ post, ∃ v ∈ t, Feasible E.sv c v := by
                have : a' ++ sv' :: b' ∈ s'.tiers := by rw [hs']; simp
                rw [ht', List.mem_append, List.mem_cons, List.mem_cons] at this
                rcases this with h5 | h5 | h5 | h5
                · exact absurd hx' (hn0 _ h5)
                · rw [h5] at hx'; exact absurd hx' h2
                · rw [h5] at hx'; exact absurd hx' h3
                · exact ⟨_, h5, hx'⟩
              obtain ⟨p0, t0, q0, e0, hm0, hy0⟩ := first_found h4
              have d' : p' ++ (a' ++ sv' :: b') :: q' = (pre ++ [U, L] ++ p0) ++ t0 :: q0 := by rw [← hs', ht', e0]; simp
              have d : p ++ (a ++ sv :: b) :: q = (pre ++ [U ++ L] ++ p0) ++ t0 :: q0 := by rw [← hs, ht, e0]; simp
              obtain ⟨rfl, r2', rfl⟩ := first_unique d' hp'2 (fun t h0 => (List.mem_append.1 h0).elim (hn2 t) (hm0 t)) hx' hy0
              obtain ⟨rfl, r2, rfl⟩ := first_unique d hp2 (fun t h0 => (List.mem_append.1 h0).elim (hn3 t) (hm0 t)) hx hy0
              obtain ⟨rfl, rfl, rfl⟩ := first_unique (r2'.trans r2.symm) hnb' (by rw [r2', ← r2]; exact hnb) hb' (by rw [r2', ← r2]; exact hb)
              refine ⟨rfl, fun g _ => ⟨pre.map (List.map fun v => (E.sv.reward v c).2), U.map fun v => (E.sv.reward v c).2, L.map fun v => (E.sv.reward v c).2,
                p0.map (List.map fun v => (E.sv.reward v c).2) ++ (a'.map (fun v => (E.sv.reward v c).2) ++ g :: b'.map fun v => (E.sv.reward v c).2) :: q, ?_, ?_, ?_, ?_, hfulln g⟩⟩
              · simp only [List.map_append, List.map_cons, List.map_nil, List.append_assoc, List.cons_append, List.nil_append]
              · simp only [List.map_append, List.map_cons, List.map_nil, List.append_assoc, List.cons_append, List.nil_append]
              · intro v hv
                obtain ⟨u, hu, rfl⟩ := List.mem_map.1 hv
                rw [hreward]
                exact hU u hu
              · intro v hv
                obtain ⟨u, hu, rfl⟩ := List.mem_map.1 hv
                rw [hreward]
                exact hL u hu
      obtain ⟨rfl, hfin⟩ := key
      rw [e', e]
      unfold Core.chosen
      dsimp only
      rw [ha.dict, ha.counter]
      cases fillFilters s.bandToFilter (tagIds s.counter (E.sv.gen (E.sv.reward sv' c).2 c).1) with
      | error e => trivial
      | ok filled =>
        exact ⟨⟨by show s'.qm.setQueue filled = s.qm.setQueue filled; rw [ha.qm], hfin _ (by rw [hgen, hreward]), rfl, ha.conditions, ha.scheduled, ha.flushToo, ha.ids, rfl⟩,
          rfl⟩

/-- C254: a tier above another one is the same as larger rewards. Where the best reward of each feasible survey of a tier is above all rewards of the surveys of the next
tier, whose rewards can be asked for without effect, the simulation with the surveys of both in one tier ends in the same way, at the same time, with the same visits, and
leaves the observatory and the surveys in the same state. -/
theorem C254_tiers (S : Obs.Site) (M : Obs.Kin K Obs) (fuel : ℕ) (conds : Obs.St K → C) (mount : K → B → K) (X : Rest H C B) (cfg : Sim.Cfg) (n : ℕ)
    (E : Env C Sv A) (upper : Sv → Bool) (hreward : ∀ s c, upper (E.sv.reward s c).2 = upper s) (hgen : ∀ s c, upper (E.sv.gen s c).2 = upper s)
    (hadd : ∀ s o, upper (E.sv.addObs s o) = upper s) (hupd : ∀ s c, upper (E.sv.update s c) = upper s)
    (hpure : ∀ s c, upper s = false → (E.sv.reward s c).2 = s)
    (hrank : ∀ s t c r x, upper s = true → upper t = false → ltB .ninf r = true → Largest (E.sv.reward s c).1 r → x ∈ (E.sv.reward t c).1 → x = .nan ∨ ltB x r = true)
    (w : World (Core C Sv A × H) K) (pre : List (List Sv)) (U L : List Sv) (post : List (List Sv)) (htiers : w.sched.1.tiers = pre ++ U :: L :: post)
    (hU : ∀ v ∈ U, upper v = true) (hL : ∀ v ∈ L, upper v = false) (hfull : ∀ t ∈ w.sched.1.tiers, t ≠ []) :
    let one := Sim.run (V := Obs.Visit Obs) (env S M fuel conds mount (coreSched E X)) cfg n w
    let two := Sim.run (V := Obs.Visit Obs) (env S M fuel conds mount (coreSched E X)) cfg n { w with sched := ({ w.sched.1 with tiers := pre ++ (U ++ L) :: post }, w.sched.2) }
    two.kind = one.kind ∧ two.st.result = one.st.result ∧ two.st.mjd = one.st.mjd ∧ two.st.w.obs = one.st.w.obs ∧ two.st.w.raised = one.st.w.raised
      ∧ two.st.w.sched.1.tiers.flatten = one.st.w.sched.1.tiers.flatten := by
  dsimp only
  have hw : SwapWorld (K := K) (H := H) (Merged upper) w { w with sched := ({ w.sched.1 with tiers := pre ++ (U ++ L) :: post }, w.sched.2) } :=
    ⟨rfl, ⟨rfl, ⟨pre, U, L, post, htiers, rfl, hU, hL, hfull⟩, rfl, rfl, rfl, rfl, rfl, rfl⟩, rfl, rfl⟩
  obtain ⟨h1, h2, h3, h4⟩ := Sim.run_relate (swap_relate (merged_swaps E upper hreward hgen hadd hupd hpure hrank) S M fuel conds mount X) cfg n hw
  obtain ⟨p, a, b, q, e1, e2, -⟩ := h4.core.tiers
  refine ⟨h1.symm, h2.symm, h3.symm, h4.obs.symm, h4.raised.symm, ?_⟩
  rw [e1, e2]
  simp

end

/-! ### Small simulations -/

/-- A survey with the reward given, in a band. -/
def orderSv (r : ℚ) (b : String) : ToySv := ⟨[.nan, .fin r], [{ targetId := 0, band := b }], none⟩

/-- A simulation with the tiers given. -/
def tiersStart (ts : List (List ToySv)) : World (Core ToyC ToySv Unit × Unit) ℚ := ⟨⟨0, 0, 40⟩, (Core.init () ts 5 true [], ()), false⟩

/-- Bands of its visits. -/
def tiersOut (ts : List (List ToySv)) : List (Option String) × Bool :=
  let o := Sim.run (V := Obs.Visit Obs) wholeEnv { duration := 1 / 20, startSize := 2, appendSize := 2 } 20 (tiersStart ts)
  (o.st.result.map fun r => r.map fun v => v.target.band, o.st.w.raised)

/-- Rewards of a survey that are different for different surveys: one number each, by which surveys are told apart. -/
def oneReward : Env ToyC (ℚ × ToySv) Unit where
  q := toyE.q
  sv := { reward := fun s _ => ([.nan, .fin s.1], s), gen := fun s _ => (s.2.visits, s), addObs := fun s _ => s, addArr := fun s _ => s, update := fun s _ => s,
          scheduled := fun _ => none }
  toos := toyE.toos

/-- The assumptions of C253 are met, with two surveys in a tier. -/
example : (∀ s t c r, s.1 ≠ t.1 → ltB .ninf r = true → Largest (oneReward.sv.reward s c).1 r → ¬ Largest (oneReward.sv.reward t c).1 r)
    ∧ List.Forall₂ List.Perm [[((1 : ℚ), wholeSurvey), (2, wholeSurvey)]] [[((2 : ℚ), wholeSurvey), (1, wholeSurvey)]]
    ∧ ([((1 : ℚ), wholeSurvey), (2, wholeSurvey)].map Prod.fst).Nodup := by
  refine ⟨?_, .cons (.swap ..) .nil, by decide⟩
  rintro s t c r hn - ⟨h1, h2, -⟩ ⟨h3, -⟩
  simp only [oneReward, List.mem_cons, List.not_mem_nil, or_false] at h1 h3
  rcases h1 with h1 | h1
  · exact h2 h1
  · rcases h3 with h3 | h3
    · exact h2 h3
    · rw [h1] at h3
      injection h3 with h3
      exact hn h3

/-- The order of two surveys with different rewards does not matter. -/
example : tiersOut [[orderSv 1 "r", orderSv 2 "g"]] = ([some "g", some "g", some "g"], false) ∧ tiersOut [[orderSv 2 "g", orderSv 1 "r"]] = tiersOut [[orderSv 1 "r", orderSv 2 "g"]] := by
  decide +kernel

/-- Ties are the exception of C253: of two surveys with the same reward the one listed first is observed. -/
theorem C253_tie : tiersOut [[orderSv 1 "r", orderSv 1 "g"]] = ([some "r", some "r", some "r"], false)
    ∧ tiersOut [[orderSv 1 "g", orderSv 1 "r"]] = ([some "g", some "g", some "g"], false) := by
  decide +kernel

/-- The assumptions of C254 are met: rewards above ten in the upper tier, and below ten in the lower one. -/
def bandedReward : Env ToyC (Bool × ToySv) Unit where
  q := toyE.q
  sv := { reward := fun s _ => (if s.1 then [.nan, .fin 11] else [.fin 9, .ninf], s), gen := fun s _ => (s.2.visits, s), addObs := fun s _ => s, addArr := fun s _ => s,
          update := fun s _ => s, scheduled := fun _ => none }
  toos := toyE.toos

example : ∀ s t c r x, s.1 = true → t.1 = false → ltB .ninf r = true → Largest (bandedReward.sv.reward s c).1 r → x ∈ (bandedReward.sv.reward t c).1 → x = .nan ∨ ltB x r = true := by
  rintro s t c r x hs ht - ⟨h1, h2, -⟩ h3
  simp only [bandedReward, hs, ht, if_true, Bool.false_eq_true, if_false, List.mem_cons, List.not_mem_nil, or_false] at h1 h3
  rcases h1 with h1 | h1
  · exact absurd h1 h2
  · rw [h1]
    rcases h3 with rfl | rfl
    · right; decide +kernel
    · right; rfl

/-- Two tiers, and one tier with the surveys of both: the same when the rewards are far enough apart. -/
example : tiersOut [[orderSv 11 "r"], [orderSv 9 "g"]] = tiersOut [[orderSv 11 "r", orderSv 9 "g"]] ∧ tiersOut [[orderSv 11 "r", orderSv 9 "g"]] = ([some "r", some "r", some "r"], false) := by
  decide +kernel

/-- The distance of rewards is needed for C254: a survey of the upper tier is observed whatever its reward. -/
theorem C254_near : tiersOut [[orderSv 1 "r"], [orderSv 9 "g"]] = ([some "r", some "r", some "r"], false)
    ∧ tiersOut [[orderSv 1 "r", orderSv 9 "g"]] = ([some "g", some "g", some "g"], false) := by
  decide +kernel

end Verif
