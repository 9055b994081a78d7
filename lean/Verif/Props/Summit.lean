import Verif.Lemmas.Summit
import Verif.Props.CoreSurveys

/-! C52: the wrapper that looks ahead. -/

namespace Verif
variable {C Sv A : Type}
open Core

/-- The ids of the visits handed out. -/
def gotIds (t : List SEv) : List Int := t.filterMap (fun e => match e with | .got o => some o.targetId | .told _ => none)

/-- The ids of the visits confirmed. -/
def toldIds (t : List SEv) : List Int := t.filterMap (fun e => match e with | .got _ => none | .told o => some o.targetId)

/-- Visits are confirmed in the order they were handed out, and none that was not. -/
def InOrder (t : List SEv) : Prop := ∀ p, p <+: t → toldIds p <+: gotIds p

theorem gotIds_append (a b : List SEv) : gotIds (a ++ b) = gotIds a ++ gotIds b := by unfold gotIds; rw [List.filterMap_append]
theorem toldIds_append (a b : List SEv) : toldIds (a ++ b) = toldIds a ++ toldIds b := by unfold toldIds; rw [List.filterMap_append]

namespace Summit

/-- Between the calls: `hi` is the largest id handed out. -/
structure Inv (E : Env C Sv A) (w : Summit C Sv A) (hi : Int) : Prop where
  aligned : w.core.qm.Aligned
  lasting : ∀ o ∈ w.core.qm.active, QM.Lasting E.q o
  sorted : (w.core.qm.active.map Obs.targetId).Pairwise (· ≤ ·)
  incr : w.ids.Pairwise (· < ·)
  pend : w.pend.map Obs.targetId = w.ids
  le : ∀ i ∈ w.ids, i ≤ hi
  fresh : ∀ o ∈ w.core.qm.active, o.targetId ∉ w.ids → hi < o.targetId
  counter : hi < w.core.counter ∨ hi ∈ w.ids
  too : w.ahead.tooIds = w.core.tooIds ∧ w.ahead.flushForNewToo = w.core.flushForNewToo
  known : ∀ c, w.cond = some c → w.core.flushForNewToo = true → ∀ t ∈ (E.toos c).getD [], t.1 ∈ w.core.tooIds
  ahead : w.replay = false → Good E w.ahead hi ∧
    ∀ o ∈ w.core.qm.active, o.targetId ∉ w.ids → o.targetId ∈ w.ahead.qm.active.map Obs.targetId

theorem inv_init {E : Env C Sv A} (core : Core C Sv A) (ha : core.qm.Aligned) (hq : core.qm.active = []) :
    Inv E (init core) (core.counter - 1) := by
  refine ⟨ha, ?_, ?_, by simp [init], by simp [init], by simp [init], ?_, Or.inl (by simp [init]), ⟨rfl, rfl⟩, by simp [init], ?_⟩
  · simp [init, hq]
  · simp [init, hq]
  · simp [init, hq]
  · intro _
    refine ⟨⟨ha, ?_, ?_, ?_, by simp [init]⟩, ?_⟩ <;> simp [init, hq]

theorem inv_update {E : Env C Sv A} {w : Summit C Sv A} {hi : Int} (h : Inv E w hi) (c : C) : Inv E (update E w c) hi := by
  obtain ⟨a1, a2, a3, a4⟩ := update_spec E w.core c
  obtain ⟨b1, b2, b3, b4⟩ := update_spec E w.ahead c
  rw [h.too.1, h.too.2] at b1 b2
  have sub : ∀ o ∈ (w.core.update E c).qm.active, o ∈ w.core.qm.active := by
    intro o ho
    rw [a1] at ho
    split_ifs at ho
    · rw [QM.active_flush] at ho; simp at ho
    · exact ho
  refine ⟨?_, fun o ho => h.lasting o (sub o ho), ?_, h.incr, h.pend, h.le, fun o ho hn => h.fresh o (sub o ho) hn, ?_, ?_, ?_, ?_⟩
  · show (w.core.update E c).qm.Aligned
    rw [a1]; split_ifs
    · rfl
    · exact h.aligned
  · show ((w.core.update E c).qm.active.map Obs.targetId).Pairwise (· ≤ ·)
    rw [a1]; split_ifs
    · rw [QM.active_flush]; simp
    · exact h.sorted
  · show hi < (w.core.update E c).counter ∨ _
    rw [a4]; exact h.counter
  · exact ⟨b2.trans a2.symm, (b3.trans h.too.2).trans a3.symm⟩
  · intro c' hc' hf t ht
    have : c' = c := by
      have : some c = some c' := hc'
      cases this; rfl
    subst this
    show t.1 ∈ (w.core.update E c').tooIds
    rw [a2]
    have hf' : w.core.flushForNewToo = true := by rw [← a3]; exact hf
    rw [hf']
    exact nowKnown_all E _ c' t ht
  · intro hr
    obtain ⟨g, hsub⟩ := h.ahead hr
    show Good E (w.ahead.update E c) hi ∧ ∀ o ∈ (w.core.update E c).qm.active, _ → _ ∈ (w.ahead.update E c).qm.active.map Obs.targetId
    by_cases hfl : flushes E w.core.tooIds w.core.flushForNewToo c = true
    · rw [hfl] at a1 b1
      simp only [if_true] at a1 b1
      refine ⟨⟨by rw [b1]; rfl, ?_, ?_, ?_, by rw [b4]; exact g.counter⟩, ?_⟩
      · rw [b1, QM.active_flush]; simp
      · rw [b1, QM.active_flush]; simp
      · rw [b1, QM.active_flush]; simp
      · rw [a1, QM.active_flush]; simp
    · have hfl' : flushes E w.core.tooIds w.core.flushForNewToo c = false := by simpa using hfl
      rw [hfl'] at a1 b1
      simp only [Bool.false_eq_true, if_false] at a1 b1
      refine ⟨⟨by rw [b1]; exact g.aligned, by rw [b1]; exact g.lasting, by rw [b1]; exact g.sorted, by rw [b1]; exact g.above, by rw [b4]; exact g.counter⟩, ?_⟩
      rw [a1, b1]; exact hsub

theorem inv_rebuild {E : Env C Sv A} {w : Summit C Sv A} {hi : Int} (h : Inv E w hi) {c : C} (hc : w.cond = some c) :
    Inv E (rebuild E w c) hi ∧ (rebuild E w c).replay = false ∧ (rebuild E w c).core = w.core ∧ (rebuild E w c).ids = w.ids ∧
      (rebuild E w c).pend = w.pend ∧ (rebuild E w c).cond = w.cond := by
  unfold rebuild
  by_cases hr : w.replay = true
  · rw [if_pos hr]
    refine ⟨?_, rfl, rfl, rfl, rfl, rfl⟩
    obtain ⟨f1, f2, f3, f4, f5, f6⟩ := foldl_addObs_core E w.pend w.core
    obtain ⟨b1, b2, b3, b4⟩ := update_spec E (w.pend.foldl (fun s o => (s.addObs E o).1) w.core) c
    rw [f2, f3] at b1 b2
    obtain ⟨k1, k2⟩ := flushes_known E w.core.tooIds w.core.flushForNewToo c (h.known c hc)
    rw [k1] at b1
    simp only [Bool.false_eq_true, if_false] at b1
    rw [k2] at b2
    have mem : ∀ o, o ∈ (w.pend.foldl (fun s o => (s.addObs E o).1) w.core).qm.active ↔ o ∈ w.core.qm.active ∧ o.targetId ∉ w.ids := by
      intro o
      rw [f1, List.mem_filter, h.pend]; simp
    refine ⟨h.aligned, h.lasting, h.sorted, h.incr, h.pend, h.le, h.fresh, h.counter, ⟨b2, b3.trans f3⟩, h.known, ?_⟩
    intro _
    refine ⟨⟨?_, ?_, ?_, ?_, ?_⟩, ?_⟩
    · show (Core.update E _ c).qm.Aligned
      rw [b1]; exact f6 h.aligned
    · show ∀ o ∈ (Core.update E _ c).qm.active, _
      rw [b1]; intro o ho; exact h.lasting o ((mem o).1 ho).1
    · show ((Core.update E _ c).qm.active.map Obs.targetId).Pairwise (· ≤ ·)
      rw [b1, f1]
      exact List.Pairwise.sublist (List.Sublist.map _ List.filter_sublist) h.sorted
    · show ∀ o ∈ (Core.update E _ c).qm.active, _
      rw [b1]; intro o ho
      exact h.fresh o ((mem o).1 ho).1 ((mem o).1 ho).2
    · show hi < (Core.update E _ c).counter
      rw [b4]
      rcases h.counter with h1 | h1
      · exact lt_of_lt_of_le h1 f4
      · rw [← h.pend] at h1
        obtain ⟨o, ho, he⟩ := List.mem_map.1 h1
        rw [← he]; exact f5 o ho
    · intro o ho hn
      show o.targetId ∈ (Core.update E _ c).qm.active.map Obs.targetId
      rw [b1]
      exact List.mem_map_of_mem ((mem o).2 ⟨ho, hn⟩)
  · rw [if_neg hr]
    exact ⟨h, by simpa using hr, rfl, rfl, rfl, rfl⟩

theorem inv_request {E : Env C Sv A} (P : Plain E) {F : FillIn C} {w w' : Summit C Sv A} {hi : Int} (h : Inv E w hi) {m : Option ℚ} {o : Obs}
    (hr : request E F w m = some (w', o)) : hi < o.targetId ∧ Inv E w' o.targetId ∧ w'.ids = w.ids ++ [o.targetId] := by
  unfold request at hr
  rcases hc : w.cond with _ | c <;> rw [hc] at hr
  · cases hr
  dsimp only at hr
  obtain ⟨hi', hrep, hcore, hids, hpend, hcond⟩ := inv_rebuild h hc
  obtain ⟨g, hsub⟩ := hi'.ahead hrep
  rcases hq : (rebuild E w c).ahead.request E m false with e | ⟨a, out, ev⟩ <;> rw [hq] at hr
  · cases hr
  rcases out with _ | l
  · cases hr
  obtain ⟨o1, hl, hlt, hlast, haa, hal, has, hage, haeq, ht1, ht2⟩ := P.core_request g hq
  subst hl
  dsimp only at hr
  cases hr
  obtain ⟨f1, f2, f3, f4, f5, f6⟩ := addObs_core E a (fillObs E F c o)
  have hfid : (fillObs E F c o).targetId = o.targetId := rfl
  rw [hfid] at f1 f5
  refine ⟨hlt, ?_, rfl⟩
  -- the core's queue
  have hmem : ∀ x ∈ (share w.core (rebuild E w c).ahead.qm.active a.qm.active o).qm.active,
      QM.Lasting E.q x ∧ (x.targetId ∉ w.ids → o.targetId ≤ x.targetId ∧ (x.targetId = o.targetId ∨ x.targetId ∈ a.qm.active.map Obs.targetId)) := by
    intro x hx
    have old : x ∈ w.core.qm.active → x.targetId ∉ w.ids →
        (rebuild E w c).ahead.qm.active ≠ [] ∧ o.targetId ≤ x.targetId ∧ x.targetId ∈ a.qm.active.map Obs.targetId := by
      intro hx hn
      have h1 := hsub x (by rw [hcore]; exact hx) (by rw [hids]; exact hn)
      have hne : (rebuild E w c).ahead.qm.active ≠ [] := by
        intro e; rw [e] at h1; simp at h1
      rw [← haeq hne] at h1
      obtain ⟨y, hy, he⟩ := List.mem_map.1 h1
      exact ⟨hne, by rw [← he]; exact hage y hy, h1⟩
    unfold share at hx
    by_cases hb : (rebuild E w c).ahead.qm.active = []
    · rw [if_pos hb] at hx
      have hx' : x ∈ w.core.qm.active ∨ x = o ∨ x ∈ a.qm.active := by
        split_ifs at hx with ha
        · rw [QM.active_append _ _ h.aligned, List.mem_append] at hx
          rcases hx with hx | hx
          · exact Or.inl hx
          · exact Or.inr (Or.inl (by simpa using hx))
        · rw [QM.active_append _ _ (QM.append_aligned _ _ h.aligned), QM.active_append _ _ h.aligned, List.mem_append, List.mem_append] at hx
          rcases hx with (hx | hx) | hx
          · exact Or.inl hx
          · exact Or.inr (Or.inl (by simpa using hx))
          · exact Or.inr (Or.inr hx)
      rcases hx' with hx | rfl | hx
      · exact ⟨h.lasting x hx, fun hn => absurd hb (old hx hn).1⟩
      · exact ⟨hlast, fun _ => ⟨le_refl _, Or.inl rfl⟩⟩
      · exact ⟨hal x hx, fun _ => ⟨hage x hx, Or.inr (List.mem_map_of_mem hx)⟩⟩
    · rw [if_neg hb] at hx
      exact ⟨h.lasting x hx, fun hn => ⟨(old hx hn).2.1, Or.inr (old hx hn).2.2⟩⟩
  have hshare : (share w.core (rebuild E w c).ahead.qm.active a.qm.active o).qm.Aligned ∧
      ((share w.core (rebuild E w c).ahead.qm.active a.qm.active o).qm.active.map Obs.targetId).Pairwise (· ≤ ·) ∧
      (share w.core (rebuild E w c).ahead.qm.active a.qm.active o).tooIds = w.core.tooIds ∧
      (share w.core (rebuild E w c).ahead.qm.active a.qm.active o).flushForNewToo = w.core.flushForNewToo := by
    unfold share
    by_cases hb : (rebuild E w c).ahead.qm.active = []
    · rw [if_pos hb]
      have hold : ∀ x ∈ w.core.qm.active, x.targetId ≤ hi := by
        intro x hx
        by_cases hn : x.targetId ∈ w.ids
        · exact h.le _ hn
        · have h1 := hsub x (by rw [hcore]; exact hx) (by rw [hids]; exact hn)
          rw [hb] at h1; simp at h1
      split_ifs with ha
      · refine ⟨QM.append_aligned _ _ h.aligned, ?_, rfl, rfl⟩
        rw [QM.active_append _ _ h.aligned, List.map_append, List.pairwise_append]
        refine ⟨h.sorted, by simp, ?_⟩
        intro i hi1 j hj
        obtain ⟨x, hx, rfl⟩ := List.mem_map.1 hi1
        simp only [List.map_cons, List.map_nil, List.mem_singleton] at hj
        have := hold x hx
        omega
      · refine ⟨QM.append_aligned _ _ (QM.append_aligned _ _ h.aligned), ?_, rfl, rfl⟩
        rw [QM.active_append _ _ (QM.append_aligned _ _ h.aligned), QM.active_append _ _ h.aligned, List.append_assoc,
          List.map_append, List.pairwise_append]
        refine ⟨h.sorted, ?_, ?_⟩
        · show (([o] ++ a.qm.active).map Obs.targetId).Pairwise (· ≤ ·)
          rw [List.singleton_append, List.map_cons, List.pairwise_cons]
          refine ⟨?_, has⟩
          intro j hj
          obtain ⟨y, hy, rfl⟩ := List.mem_map.1 hj
          exact hage y hy
        · intro i hi1 j hj
          obtain ⟨x, hx, rfl⟩ := List.mem_map.1 hi1
          rw [List.singleton_append, List.map_cons, List.mem_cons] at hj
          have h1 := hold x hx
          rcases hj with rfl | hj
          · omega
          · obtain ⟨y, hy, rfl⟩ := List.mem_map.1 hj
            have := hage y hy
            omega
    · rw [if_neg hb]
      exact ⟨h.aligned, h.sorted, rfl, rfl⟩
  obtain ⟨s1, s2, s3, s4⟩ := hshare
  have hin : o.targetId ∈ w.ids ++ [o.targetId] := by simp
  have hfresh : ∀ x ∈ (share w.core (rebuild E w c).ahead.qm.active a.qm.active o).qm.active, x.targetId ∉ w.ids ++ [o.targetId] →
      o.targetId < x.targetId ∧ x.targetId ∈ a.qm.active.map Obs.targetId := by
    intro x hx hn
    rw [List.mem_append, not_or] at hn
    have hne : x.targetId ≠ o.targetId := by simpa using hn.2
    obtain ⟨h1, h2⟩ := (hmem x hx).2 hn.1
    rcases h2 with h2 | h2
    · exact absurd h2 hne
    · exact ⟨lt_of_le_of_ne h1 (Ne.symm hne), h2⟩
  refine ⟨s1, fun x hx => (hmem x hx).1, s2, ?_, ?_, ?_, fun x hx hn => (hfresh x hx hn).1, Or.inr hin, ?_, ?_, ?_⟩
  · show (w.ids ++ [o.targetId]).Pairwise (· < ·)
    rw [List.pairwise_append]
    refine ⟨h.incr, by simp, ?_⟩
    intro i hi1 j hj
    have := h.le i hi1
    simp only [List.mem_singleton] at hj
    omega
  · show (w.pend ++ [fillObs E F c o]).map Obs.targetId = w.ids ++ [o.targetId]
    rw [List.map_append, h.pend]; rfl
  · intro i hi1
    have hi1' : i ∈ w.ids ++ [o.targetId] := hi1
    rw [List.mem_append] at hi1'
    rcases hi1' with h1 | h1
    · have := h.le i h1; omega
    · simp only [List.mem_singleton] at h1; omega
  · show (a.addObs E _).1.tooIds = _ ∧ (a.addObs E _).1.flushForNewToo = _
    rw [f2, f3, ht1, ht2]
    refine ⟨hi'.too.1.trans ?_, hi'.too.2.trans ?_⟩
    · rw [hcore]; exact s3.symm
    · rw [hcore]; exact s4.symm
  · intro c' hc' hf t ht
    show t.1 ∈ (share w.core (rebuild E w c).ahead.qm.active a.qm.active o).tooIds
    rw [s3]
    have hcc : w.cond = some c' := by rw [← hcond]; exact hc'
    exact h.known c' hcc (by rw [← s4]; exact hf) t ht
  · intro _
    refine ⟨⟨f6 haa, ?_, ?_, ?_, f5⟩, ?_⟩
    · intro x hx
      have hx' : x ∈ (a.addObs E (fillObs E F c o)).1.qm.active := hx
      rw [f1] at hx'
      exact hal x (List.mem_filter.1 hx').1
    · show ((a.addObs E (fillObs E F c o)).1.qm.active.map Obs.targetId).Pairwise (· ≤ ·)
      rw [f1]
      exact List.Pairwise.sublist (List.Sublist.map _ List.filter_sublist) has
    · intro x hx
      have hx' : x ∈ (a.addObs E (fillObs E F c o)).1.qm.active := hx
      rw [f1] at hx'
      obtain ⟨h1, h2⟩ := List.mem_filter.1 hx'
      have hne : x.targetId ≠ o.targetId := by simpa using h2
      exact lt_of_le_of_ne (hage x h1) (Ne.symm hne)
    · intro x hx hn
      obtain ⟨h1, h2⟩ := hfresh x hx hn
      show x.targetId ∈ (a.addObs E (fillObs E F c o)).1.qm.active.map Obs.targetId
      rw [f1]
      obtain ⟨y, hy, he⟩ := List.mem_map.1 h2
      rw [← he]
      apply List.mem_map_of_mem
      rw [List.mem_filter]
      refine ⟨hy, ?_⟩
      simp only [decide_eq_true_eq]
      omega

theorem inv_add {E : Env C Sv A} {w : Summit C Sv A} {hi : Int} (h : Inv E w hi) (o : Obs) (r : List Int)
    (ho : w.ids = o.targetId :: r) : Inv E (add E w o) hi ∧ (add E w o).ids = r := by
  obtain ⟨f1, f2, f3, f4, f5, f6⟩ := addObs_core E w.core o
  have hs : searchRight w.ids o.targetId = 1 := by
    rw [ho]; exact searchRight_head _ _ (by rw [← ho]; exact h.incr)
  have hids : (add E w o).ids = r := by
    show w.ids.drop (searchRight w.ids o.targetId) = r
    rw [hs, ho]; rfl
  have hmem : ∀ x ∈ (w.core.addObs E o).1.qm.active, x ∈ w.core.qm.active ∧ x.targetId ≠ o.targetId := by
    intro x hx
    rw [f1, List.mem_filter] at hx
    simpa using hx
  refine ⟨⟨f6 h.aligned, fun x hx => h.lasting x (hmem x hx).1, ?_, ?_, ?_, ?_, ?_, ?_, ?_, ?_, ?_⟩, hids⟩
  · show ((w.core.addObs E o).1.qm.active.map Obs.targetId).Pairwise (· ≤ ·)
    rw [f1]
    exact List.Pairwise.sublist (List.Sublist.map _ List.filter_sublist) h.sorted
  · rw [hids]
    have := h.incr
    rw [ho] at this
    exact (List.pairwise_cons.1 this).2
  · rw [hids]
    show (w.pend.drop (searchRight w.ids o.targetId)).map Obs.targetId = r
    rw [hs, List.map_drop, h.pend, ho]; rfl
  · rw [hids]
    intro i hi1
    exact h.le i (by rw [ho]; exact List.mem_cons_of_mem _ hi1)
  · rw [hids]
    intro x hx hn
    obtain ⟨h1, h2⟩ := hmem x hx
    apply h.fresh x h1
    rw [ho, List.mem_cons, not_or]
    exact ⟨h2, hn⟩
  · show hi < (w.core.addObs E o).1.counter ∨ _
    rcases h.counter with h1 | h1
    · exact Or.inl (lt_of_lt_of_le h1 f4)
    · rw [ho] at h1
      rcases List.mem_cons.1 h1 with rfl | h1
      · exact Or.inl f5
      · right; rw [hids]; exact h1
  · show w.ahead.tooIds = (w.core.addObs E o).1.tooIds ∧ w.ahead.flushForNewToo = (w.core.addObs E o).1.flushForNewToo
    rw [f2, f3]; exact h.too
  · intro c hc hf t ht
    show t.1 ∈ (w.core.addObs E o).1.tooIds
    rw [f2]
    exact h.known c hc (by rw [← f3]; exact hf) t ht
  · intro hr; cases hr

theorem run_inv {E : Env C Sv A} (P : Plain E) {F : FillIn C} (ops : List (Op C)) (hflush : Op.flush ∉ ops) (hclear : Op.clear ∉ ops) :
    ∀ (w w' : Summit C Sv A) (hi : Int) (t0 t : List SEv), Inv E w hi → run E F w ops = some (w', t) →
      InOrder (t0 ++ t) → gotIds t0 = toldIds t0 ++ w.ids → (gotIds t0).Pairwise (· < ·) → (∀ i ∈ gotIds t0, i ≤ hi) →
      (gotIds (t0 ++ t)).Pairwise (· < ·) ∧ gotIds (t0 ++ t) = toldIds (t0 ++ t) ++ w'.ids := by
  induction ops with
  | nil =>
    intro w w' hi t0 t hinv h _ h1 h2 _
    cases h
    rw [List.append_nil]
    exact ⟨h2, h1⟩
  | cons op ops ih =>
    intro w w' hi t0 t hinv h hord h1 h2 h3
    have ih := ih (fun hm => hflush (List.mem_cons_of_mem _ hm)) (fun hm => hclear (List.mem_cons_of_mem _ hm))
    unfold run at h
    rcases hs : step E F w op with _ | ⟨w1, ev⟩ <;> rw [hs] at h
    · cases h
    dsimp only at h
    rcases hr : run E F w1 ops with _ | ⟨w2, evs⟩ <;> rw [hr] at h
    · cases h
    cases h
    rw [← List.append_assoc] at hord ⊢
    cases op with
    | request m =>
      unfold step at hs
      dsimp only at hs
      rcases hq : request E F w m with _ | ⟨w3, o⟩ <;> rw [hq] at hs
      · cases hs
      cases hs
      obtain ⟨hlt, hinv', hids⟩ := inv_request P hinv hq
      apply ih _ _ o.targetId _ _ hinv' hr hord
      · rw [gotIds_append, toldIds_append, h1, hids]
        simp [gotIds, toldIds]
      · rw [gotIds_append, List.pairwise_append]
        refine ⟨h2, by simp [gotIds], ?_⟩
        intro i hi1 j hj
        have := h3 i hi1
        have hj' : j = o.targetId := by simpa [gotIds] using hj
        omega
      · intro i hi1
        rw [gotIds_append, List.mem_append] at hi1
        rcases hi1 with hi1 | hi1
        · have := h3 i hi1; omega
        · have : i = o.targetId := by simpa [gotIds] using hi1
          omega
    | add o =>
      cases hs
      have hp := hord (t0 ++ [.told o]) ⟨evs, rfl⟩
      have e1 : toldIds (t0 ++ [SEv.told o]) = toldIds t0 ++ [o.targetId] := by rw [toldIds_append]; rfl
      have e2 : gotIds (t0 ++ [SEv.told o]) = toldIds t0 ++ w.ids := by rw [gotIds_append, h1]; simp [gotIds]
      rw [e1, e2, List.prefix_append_right_inj] at hp
      obtain ⟨r, hr'⟩ := hp
      have ho : w.ids = o.targetId :: r := hr'.symm
      obtain ⟨hinv', hids⟩ := inv_add hinv o r ho
      apply ih _ _ hi _ _ hinv' hr hord
      · rw [e1, e2, hids, ho]; simp
      · rw [e2, ← h1]; exact h2
      · rw [e2, ← h1]; exact h3
    | update c =>
      cases hs
      rw [List.append_nil] at hord ⊢
      exact ih _ _ hi _ _ (inv_update hinv c) hr hord h1 h2 h3
    | flush => simp at hflush
    | clear => simp at hclear

end Summit

/-- C52: however requests, confirmations in order and new conditions alternate, every visit
handed out has a larger id than all before it, so none is handed out twice. The queue must have
no masks and its visits must not expire. -/
theorem C52_never_twice_partial (E : Env C Sv A) (P : Plain E) (F : FillIn C) (core : Core C Sv A) (ha : core.qm.Aligned)
    (hq : core.qm.active = []) (ops : List (Summit.Op C)) (hflush : Summit.Op.flush ∉ ops) (hclear : Summit.Op.clear ∉ ops)
    (w : Summit C Sv A) (t : List SEv) (h : Summit.run E F (Summit.init core) ops = some (w, t)) (hord : InOrder t) :
    (gotIds t).Pairwise (· < ·) :=
  (Summit.run_inv P ops hflush hclear _ _ _ [] t (Summit.inv_init core ha hq) h hord rfl List.Pairwise.nil (by simp [gotIds])).1

/-- C52: what was handed out and not yet confirmed is pending, in order. -/
theorem C52_pending_partial (E : Env C Sv A) (P : Plain E) (F : FillIn C) (core : Core C Sv A) (ha : core.qm.Aligned)
    (hq : core.qm.active = []) (ops : List (Summit.Op C)) (hflush : Summit.Op.flush ∉ ops) (hclear : Summit.Op.clear ∉ ops)
    (w : Summit C Sv A) (t : List SEv) (h : Summit.run E F (Summit.init core) ops = some (w, t)) (hord : InOrder t) :
    gotIds t = toldIds t ++ w.ids :=
  (Summit.run_inv P ops hflush hclear _ _ _ [] t (Summit.inv_init core ha hq) h hord rfl List.Pairwise.nil (by simp [gotIds])).2

/-! ### What the surveys know -/

/-- The visits each survey has been told of. -/
def seenAll {E : Env C Sv A} (R : Recorder E) (s : Core C Sv A) : List (List (List Obs)) := s.tiers.map (fun t => t.map R.seen)

/-- Each survey has in addition been told of `l`. -/
def alsoSeen (x : List (List (List Obs))) (l : List Obs) : List (List (List Obs)) := x.map (fun t => t.map (fun r => r ++ l))

/-- The visits confirmed, with the band filled in. -/
def confirmed (t : List SEv) : List Obs := t.filterMap (fun e => match e with | .got _ => none | .told o => some (backfillBand o))

theorem alsoSeen_nil (x : List (List (List Obs))) : alsoSeen x [] = x := by unfold alsoSeen; simp
theorem alsoSeen_append (x : List (List (List Obs))) (a b : List Obs) : alsoSeen (alsoSeen x a) b = alsoSeen x (a ++ b) := by
  unfold alsoSeen
  rw [List.map_map]
  apply List.map_congr_left
  intro t _
  simp [Function.comp]

theorem seenAll_records {E : Env C Sv A} (R : Recorder E) (s : Core C Sv A) :
    seenAll R s = (records R s).map (fun t => t.map Prod.fst) := by
  unfold seenAll records
  rw [List.map_map]
  apply List.map_congr_left
  intro t _
  simp [Function.comp]

theorem step_seen {E : Env C Sv A} (R : Recorder E) {s s' : Core C Sv A} {op : Core.Op C} {out : Option (List Obs)} {ev : List Ev}
    (h : s.step E op = .ok (s', out, ev)) : seenAll R s' = alsoSeen (seenAll R s) (toldVisits op) := by
  rw [seenAll_records, step_records R h, seenAll_records]
  unfold alsoSeen
  rw [List.map_map, List.map_map]
  apply List.map_congr_left
  intro t _
  simp [Function.comp]

theorem addObs_seen {E : Env C Sv A} (R : Recorder E) (s : Core C Sv A) (o : Obs) :
    seenAll R (s.addObs E o).1 = alsoSeen (seenAll R s) [backfillBand o] := step_seen R (op := .add o) rfl

theorem update_seen {E : Env C Sv A} (R : Recorder E) (s : Core C Sv A) (c : C) : seenAll R (s.update E c) = seenAll R s := by
  rw [step_seen R (op := .update c) rfl]; exact alsoSeen_nil _

theorem request_seen {E : Env C Sv A} (R : Recorder E) {s s' : Core C Sv A} {m : Option ℚ} {out : Option (List Obs)} {ev : List Ev}
    (h : s.request E m false = .ok (s', out, ev)) : seenAll R s' = seenAll R s := by
  rw [step_seen R (op := .request m false) h]; exact alsoSeen_nil _

theorem foldl_seen {E : Env C Sv A} (R : Recorder E) (l : List Obs) : ∀ s : Core C Sv A,
    seenAll R (l.foldl (fun s o => (s.addObs E o).1) s) = alsoSeen (seenAll R s) (l.map backfillBand) := by
  induction l with
  | nil => intro s; exact (alsoSeen_nil _).symm
  | cons o l ih => intro s; rw [List.foldl_cons, ih, addObs_seen, alsoSeen_append]; rfl

namespace Summit

/-- The look-ahead scheduler is told of the pending visits, or will be before it is asked. -/
def Knows {E : Env C Sv A} (R : Recorder E) (w : Summit C Sv A) : Prop :=
  w.replay = false → seenAll R w.ahead = alsoSeen (seenAll R w.core) (w.pend.map backfillBand)

theorem share_seen {E : Env C Sv A} (R : Recorder E) (core : Core C Sv A) (b a : List Obs) (o : Obs) :
    seenAll R (share core b a o) = seenAll R core := by
  unfold share
  split_ifs <;> rfl

theorem rebuild_knows {E : Env C Sv A} (R : Recorder E) (w : Summit C Sv A) (c : C) (h : Knows R w) :
    seenAll R (rebuild E w c).ahead = alsoSeen (seenAll R w.core) (w.pend.map backfillBand) := by
  unfold rebuild
  by_cases hr : w.replay = true
  · rw [if_pos hr, update_seen, foldl_seen]
  · rw [if_neg hr]; exact h (by simpa using hr)

theorem step_knows {E : Env C Sv A} (R : Recorder E) {F : FillIn C} {w w' : Summit C Sv A} {op : Op C} {ev : List SEv}
    (hs : step E F w op = some (w', ev)) (h : Knows R w) :
    Knows R w' ∧ seenAll R w'.core = alsoSeen (seenAll R w.core) (confirmed ev) := by
  cases op with
  | request m =>
    unfold step at hs
    dsimp only at hs
    rcases hq : request E F w m with _ | ⟨w3, o⟩ <;> rw [hq] at hs
    · cases hs
    cases hs
    unfold request at hq
    rcases hc : w.cond with _ | c <;> rw [hc] at hq
    · cases hq
    dsimp only at hq
    rcases hr : (rebuild E w c).ahead.request E m false with e | ⟨a, out, ev⟩ <;> rw [hr] at hq
    · cases hq
    rcases out with _ | l
    · cases hq
    have hk := rebuild_knows R w c h
    rcases l with _ | ⟨o1, l⟩
    · cases hq
    rcases l with _ | ⟨o2, l⟩
    · dsimp only at hq
      cases hq
      constructor
      · intro _
        show seenAll R (a.addObs E _).1 = alsoSeen (seenAll R (share _ _ _ _)) _
        rw [addObs_seen, share_seen, request_seen R hr, hk, alsoSeen_append]
        show _ = alsoSeen _ ((w.pend ++ [fillObs E F c o]).map backfillBand)
        rw [List.map_append]; rfl
      · show seenAll R (share _ _ _ _) = _
        rw [share_seen]; exact (alsoSeen_nil _).symm
    · cases hq
  | add o =>
    cases hs
    exact ⟨fun hr => (by cases hr), addObs_seen R w.core o⟩
  | update c =>
    cases hs
    constructor
    · intro hr
      show seenAll R (w.ahead.update E c) = alsoSeen (seenAll R (w.core.update E c)) _
      rw [update_seen, update_seen]
      exact h hr
    · show seenAll R (w.core.update E c) = _
      rw [update_seen]; exact (alsoSeen_nil _).symm
  | flush =>
    cases hs
    exact ⟨fun _ => (alsoSeen_nil _).symm, (alsoSeen_nil _).symm⟩
  | clear =>
    cases hs
    exact ⟨fun _ => (alsoSeen_nil _).symm, (alsoSeen_nil _).symm⟩

theorem run_knows {E : Env C Sv A} (R : Recorder E) {F : FillIn C} (ops : List (Op C)) : ∀ (w w' : Summit C Sv A) (t : List SEv),
    run E F w ops = some (w', t) → Knows R w → Knows R w' ∧ seenAll R w'.core = alsoSeen (seenAll R w.core) (confirmed t) := by
  induction ops with
  | nil => intro w w' t h hk; cases h; exact ⟨hk, (alsoSeen_nil _).symm⟩
  | cons op ops ih =>
    intro w w' t h hk
    unfold run at h
    rcases hs : step E F w op with _ | ⟨w1, ev⟩ <;> rw [hs] at h
    · cases h
    dsimp only at h
    rcases hr : run E F w1 ops with _ | ⟨w2, evs⟩ <;> rw [hr] at h
    · cases h
    cases h
    obtain ⟨k1, k2⟩ := step_knows R hs hk
    obtain ⟨k3, k4⟩ := ih _ _ _ hr k1
    refine ⟨k3, ?_⟩
    rw [k4, k2, alsoSeen_append]
    unfold confirmed
    rw [List.filterMap_append]

end Summit

/-- C52: in every history, the surveys of the inner scheduler have been told of exactly the
confirmed visits; what is requested ahead is unknown to them. -/
theorem C52_core_told (E : Env C Sv A) (R : Recorder E) (F : FillIn C) (core : Core C Sv A) (ops : List (Summit.Op C))
    (w : Summit C Sv A) (t : List SEv) (h : Summit.run E F (Summit.init core) ops = some (w, t)) :
    seenAll R w.core = alsoSeen (seenAll R core) (confirmed t) :=
  (Summit.run_knows R ops _ _ _ h (fun _ => (alsoSeen_nil _).symm)).2

/-- C52: in every history, the scheduler that is asked for the next visit has been told of the
confirmed visits and then of the pending ones. -/
theorem C52_ahead_told (E : Env C Sv A) (R : Recorder E) (F : FillIn C) (core : Core C Sv A) (ops : List (Summit.Op C)) (c : C)
    (w : Summit C Sv A) (t : List SEv) (h : Summit.run E F (Summit.init core) ops = some (w, t)) :
    seenAll R (Summit.rebuild E w c).ahead = alsoSeen (seenAll R core) (confirmed t ++ w.pend.map backfillBand) := by
  obtain ⟨h1, h2⟩ := Summit.run_knows R ops _ _ _ h (fun _ => (alsoSeen_nil _).symm)
  rw [Summit.rebuild_knows R w c h1, h2, alsoSeen_append]
  rfl

/-! ### Where it fails -/

/-- When the look-ahead scheduler has nothing (it answers `None`), the wrapper raises. -/
theorem C52_nothing_raises (E : Env C Sv A) (F : FillIn C) (w : Summit C Sv A) (m : Option ℚ) (c : C) (a : Core C Sv A) (ev : List Ev)
    (hc : w.cond = some c) (h : (Summit.rebuild E w c).ahead.request E m false = .ok (a, none, ev)) :
    Summit.request E F w m = none := by
  unfold Summit.request
  rw [hc]
  dsimp only
  rw [h]

/-- Conditions of the witnesses: a time and the queue's map. -/
structure AheadC where
  mjd : ℚ
  map : List XReal := []

/-- An environment for the witnesses: one survey that offers the same visits whenever asked,
valid for `valid` days (0: for ever). -/
def aheadE (valid : ℚ) : Env AheadC (List ℚ) Unit where
  q := { mjdOf := AheadC.mjd, reward := fun _ c => c.map, hpid := fun _ ra _ => ra.num.toNat, detail := fun a _ l => (l, a),
         addObs := fun a _ => a, addArr := fun a _ => a }
  sv := { reward := fun s _ => (if s = [] then [.ninf] else [.fin 1], s),
          gen := fun s c => (s.map (fun ra => { targetId := 0, ra := ra, band := "r", filter := "r", flushBy := if valid = 0 then 0 else c.mjd + valid }), s),
          addObs := fun s _ => s, addArr := fun s _ => s, update := fun s _ => s, scheduled := fun _ => none }
  toos := fun _ => none

def aheadS (visits : List ℚ) : Core AheadC (List ℚ) Unit := Core.init () [[visits]] 0 true []

/-- The visits handed out: id and position. -/
def handedOut (r : Option (Summit AheadC (List ℚ) Unit × List SEv)) : Option (List (Int × ℚ)) :=
  r.map (fun x => x.2.filterMap (fun e => match e with | .got o => some (o.targetId, o.ra) | .told _ => none))

/-- C52 fails with masks: ids do not come in order, confirming one then drops others, and a
visit that was handed out and not confirmed is handed out again. -/
theorem C52_mask_violated :
    handedOut (Summit.run (aheadE 0) (fun _ _ => 0) (Summit.init (aheadS [0, 1]))
      [.update ⟨60000, [.ninf, .fin 1]⟩, .request none, .update ⟨60001, [.fin 1, .fin 1]⟩, .request none,
       .add { targetId := 1 }, .request none]) = some [(1, 1), (0, 0), (0, 0)] := by
  decide +kernel

/-- C52 fails after a flush: ids that were handed out and may still be confirmed are given to
new visits. -/
theorem C52_flush_violated :
    handedOut (Summit.run (aheadE 0) (fun _ _ => 0) (Summit.init (aheadS [0, 1]))
      [.update ⟨60000, []⟩, .request none, .request none, .flush, .request none]) = some [(0, 0), (1, 1), (0, 0)] := by
  decide +kernel

/-- C52 fails when the queue expires: the new queue is not told to the inner scheduler and lost
at the next confirmation, so the second visit of the block never comes; the inner scheduler
alone hands it out. -/
theorem C52_refill_violated :
    handedOut (Summit.run (aheadE 1) (fun _ _ => 0) (Summit.init (aheadS [0, 1]))
      [.update ⟨60000, []⟩, .request none, .add { targetId := 0 }, .update ⟨60100, []⟩, .request none, .add { targetId := 1 },
       .request none]) = some [(0, 0), (1, 0), (2, 0)] ∧
    (match Core.run (aheadE 1) (aheadS [0, 1])
      [.update ⟨60000, []⟩, .request none false, .add { targetId := 0 }, .update ⟨60100, []⟩, .request none false,
       .add { targetId := 2 }, .request none false] with
      | .ok (_, o, _) => o.map (fun v => (v.targetId, v.ra))
      | .error _ => []) = [(0, 0), (2, 0), (3, 1)] := by
  constructor <;> decide +kernel

/-- C52: after a flush no visit is left anywhere: not with the inner scheduler, not with the
look-ahead one, none pending and none to replay. -/
theorem C52_flush_empty (E : Env C Sv A) (F : FillIn C) (w w' : Summit C Sv A) (ev : List SEv)
    (h : Summit.step E F w .flush = some (w', ev)) :
    w'.core.qm.active = [] ∧ w'.ahead.qm.active = [] ∧ w'.pend = [] ∧ w'.ids = [] ∧ w'.replay = false ∧ ev = [] := by
  unfold Summit.step at h
  dsimp only at h
  cases h
  exact ⟨rfl, rfl, rfl, rfl, rfl, rfl⟩

/-- C52 fails for the queue of the inner scheduler: the visit handed out is in it twice, because
the request leaves it in the queue of the look-ahead scheduler, which is appended as well. The
last field is what is left after its confirmation. -/
theorem C52_queue_doubled_violated :
    (Summit.run (aheadE 0) (fun _ _ => 0) (Summit.init (aheadS [0, 1, 2])) [.update ⟨60000, []⟩, .request none]).map
      (fun r => (r.1.ids, r.1.core.qm.active.map Obs.targetId, r.1.ahead.qm.active.map Obs.targetId,
        (Summit.add (aheadE 0) r.1 { targetId := 0 }).core.qm.active.map Obs.targetId)) = some ([0], [0, 0, 1, 2], [1, 2], [1, 2]) := by
  decide +kernel

/-- Non-vacuity: the hypotheses of the partial theorems. -/
example : Plain ({ aheadE 0 with q := { (aheadE 0).q with reward := fun _ _ => [] } } : Env AheadC (List ℚ) Unit) := by
  refine ⟨fun a c o => ⟨o, rfl, rfl, rfl⟩, fun _ _ => by simp, ?_⟩
  intro sv c o ho c'
  simp only [aheadE, if_true, List.mem_map] at ho
  obtain ⟨ra, _, rfl⟩ := ho
  exact Or.inr rfl

example : handedOut (Summit.run ({ aheadE 0 with q := { (aheadE 0).q with reward := fun _ _ => [] } }) (fun _ _ => 0) (Summit.init (aheadS [0, 1]))
      [.update ⟨60000, []⟩, .request none, .request none, .add { targetId := 0 }, .request none, .request none, .add { targetId := 1 }, .request none]) =
    some [(0, 0), (1, 1), (2, 0), (3, 1), (4, 0)] := by decide +kernel

example : handedOut (Summit.run (aheadE 0) (fun _ _ => 0) (Summit.init (aheadS [])) [.update ⟨60000, []⟩, .request none]) = none := by
  decide +kernel

end Verif
