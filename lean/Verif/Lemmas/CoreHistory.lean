import Verif.Lemmas.Core

namespace Verif
variable {C Sv A : Type}

/-- The id an event is about. -/
def Ev.id : Ev → Int
  | .assigned i => i
  | .reported i => i

namespace Core

/-- Later assigned ids are above all earlier ids. -/
def EvOrder (e1 e2 : Ev) : Prop := ∀ b, e2 = .assigned b → e1.id < b

/-- What one step guarantees about ids. -/
structure StepIds (n n' : Int) (ev : List Ev) : Prop where
  mono : n ≤ n'
  below : ∀ e ∈ ev, e.id < n'
  above : ∀ b, Ev.assigned b ∈ ev → n ≤ b
  order : ev.Pairwise EvOrder

theorem StepIds.refl (n : Int) : StepIds n n [] :=
  ⟨le_refl _, by simp, by simp, List.Pairwise.nil⟩

theorem StepIds.trans {n1 n2 n3 : Int} {e1 e2 : List Ev} (h1 : StepIds n1 n2 e1) (h2 : StepIds n2 n3 e2) :
    StepIds n1 n3 (e1 ++ e2) where
  mono := le_trans h1.mono h2.mono
  below := by
    intro e he
    rcases List.mem_append.mp he with h | h
    · exact lt_of_lt_of_le (h1.below e h) h2.mono
    · exact h2.below e h
  above := by
    intro b hb
    rcases List.mem_append.mp hb with h | h
    · exact h1.above b h
    · exact le_trans h1.mono (h2.above b h)
  order := by
    rw [List.pairwise_append]
    refine ⟨h1.order, h2.order, ?_⟩
    intro a ha b hb c hc
    subst hc
    exact lt_of_lt_of_le (h1.below a ha) (h2.above c hb)

theorem range_order (n : Int) (k : Nat) :
    ((List.range k).map (fun i : Nat => Ev.assigned (n + i))).Pairwise EvOrder := by
  rw [List.pairwise_map]
  apply List.Pairwise.imp _ List.pairwise_lt_range
  intro a b hab c hc
  cases hc
  simp only [Ev.id]; omega

theorem fillQueue_ids {E : Env C Sv A} {s s' : Core C Sv A} {ev : List Ev}
    (h : s.fillQueue E = .ok (s', ev)) : StepIds s.counter s'.counter ev := by
  obtain ⟨n, rfl, hc⟩ := fillQueue_ev_ids h
  refine ⟨by omega, ?_, ?_, range_order _ _⟩
  · intro e he
    obtain ⟨i, hi, rfl⟩ := List.mem_map.mp he
    simp only [List.mem_range] at hi
    simp only [Ev.id]; omega
  · intro b hb
    obtain ⟨i, hi, h⟩ := List.mem_map.mp hb
    cases h; omega

theorem request_ids {E : Env C Sv A} {s s' : Core C Sv A} {m : Option ℚ} {w : Bool}
    {out : Option (List Obs)} {ev : List Ev} (h : s.request E m w = .ok (s', out, ev)) :
    StepIds s.counter s'.counter ev := by
  obtain ⟨c, s1, ev1, _, hfirst, hrest⟩ := request_cases h
  have h1 : StepIds s.counter s1.counter ev1 := by
    rcases hfirst with ⟨_, hf⟩ | ⟨_, rfl, rfl⟩
    · exact fillQueue_ids hf
    · exact StepIds.refl _
  rcases hrest with ⟨_, rfl, _, rfl⟩ | ⟨_, _, rfl, _, rfl⟩ | ⟨_, _, s3, ev2, hf, rfl, rfl, _⟩
  · exact h1
  · exact h1
  · have h2 := fillQueue_ids hf
    exact h1.trans ⟨h2.mono, h2.below, h2.above, h2.order⟩

theorem maxId_ge (o : Obs) (os : List Obs) : ∀ x ∈ o :: os, x.targetId ≤ maxId o os := by
  unfold maxId
  have key : ∀ (os : List Obs) (m : Int), m ≤ os.foldl (fun m x => max m x.targetId) m ∧
      ∀ x ∈ os, x.targetId ≤ os.foldl (fun m x => max m x.targetId) m := by
    intro os
    induction os with
    | nil => intro m; simp
    | cons y ys ih =>
      intro m
      have := ih (max m y.targetId)
      constructor
      · exact le_trans (le_max_left _ _) this.1
      · intro x hx
        rcases List.mem_cons.mp hx with rfl | h
        · exact le_trans (le_max_right m _) this.1
        · exact this.2 x h
  intro x hx
  rcases List.mem_cons.mp hx with rfl | h
  · exact (key os _).1
  · exact (key os _).2 x h

theorem maxId_mem (o : Obs) (os : List Obs) : ∃ x ∈ o :: os, x.targetId = maxId o os := by
  unfold maxId
  have key : ∀ (os : List Obs) (m : Int), os.foldl (fun m x => max m x.targetId) m = m ∨
      ∃ x ∈ os, x.targetId = os.foldl (fun m x => max m x.targetId) m := by
    intro os
    induction os with
    | nil => intro m; simp
    | cons y ys ih =>
      intro m
      simp only [List.foldl_cons, List.mem_cons]
      rcases ih (max m y.targetId) with h | ⟨x, hx, h⟩
      · rw [h]
        rcases max_choice m y.targetId with h' | h'
        · exact Or.inl h'
        · exact Or.inr ⟨y, Or.inl rfl, h'.symm⟩
      · exact Or.inr ⟨x, Or.inr hx, h⟩
  rcases key os o.targetId with h | ⟨x, hx, h⟩
  · exact ⟨o, by simp, h.symm⟩
  · exact ⟨x, by simp [hx], h⟩

theorem bump_ge (n i : Int) : n ≤ bump n i ∧ i < bump n i := by
  unfold bump; split <;> omega

theorem addObs_ids (E : Env C Sv A) (s : Core C Sv A) (o : Obs) :
    StepIds s.counter (s.addObs E o).1.counter (s.addObs E o).2 := by
  have h := bump_ge s.counter (backfillBand o).targetId
  refine ⟨h.1, ?_, ?_, ?_⟩
  · intro e he
    simp only [addObs, List.mem_singleton] at he
    subst he; exact h.2
  · intro b hb; simp [addObs] at hb
  · simp [addObs]

/-- No operation other than `setCounter` lowers the counter or reuses an id. -/
theorem step_ids {E : Env C Sv A} {s s' : Core C Sv A} {op : Op C}
    {out : Option (List Obs)} {ev : List Ev} (h : s.step E op = .ok (s', out, ev))
    (hop : ∀ n, op ≠ .setCounter n) : StepIds s.counter s'.counter ev := by
  cases op with
  | request m w => exact request_ids (m := m) h
  | add o => cases h; exact addObs_ids E s o
  | addArr l =>
    simp only [step] at h
    split at h
    · cases h
    · rename_i s1 ev1 h1
      cases h
      rcases addArr_cases h1 with ⟨o, _, rfl, rfl⟩ | ⟨o, os, _, _, hc, rfl⟩
      · exact addObs_ids E s o
      · have hb := bump_ge s.counter (maxId o os)
        refine ⟨by rw [hc]; exact hb.1, ?_, ?_, ?_⟩
        · intro e he
          obtain ⟨x, hx, rfl⟩ := List.mem_map.mp he
          rw [hc]
          exact lt_of_le_of_lt (maxId_ge o os x hx) hb.2
        · intro b hb
          obtain ⟨x, _, h⟩ := List.mem_map.mp hb
          cases h
        · rw [List.pairwise_map]
          rw [List.pairwise_iff_forall_sublist]
          intro x y _ b hb; cases hb
  | flush => cases h; exact StepIds.refl _
  | append l => cases h; exact StepIds.refl _
  | mark o => cases h; exact StepIds.refl _
  | update c =>
    cases h
    have : (s.update E c).counter = s.counter := tooStep_counter E s c
    rw [this]; exact StepIds.refl _
  | setCounter n => exact absurd rfl (hop n)

theorem run_ids {E : Env C Sv A} {s s' : Core C Sv A} {ops : List (Op C)}
    {outs : List Obs} {evs : List Ev} (h : run E s ops = .ok (s', outs, evs))
    (hop : ∀ n, Op.setCounter n ∉ ops) : StepIds s.counter s'.counter evs := by
  induction ops generalizing s outs evs with
  | nil => cases h; exact StepIds.refl _
  | cons op ops ih =>
    unfold run at h
    split at h
    · cases h
    · rename_i s1 out ev h1
      split at h
      · cases h
      · rename_i s2 outs' evs' h2
        cases h
        have hs := step_ids h1 (fun n hn => hop n (by simp [hn]))
        exact hs.trans (ih h2 (fun n hn => hop n (by simp [hn])))

/-! ### Completed ids stay completed -/

/-- Id `t` is used up: below the counter, and no pending row carries it. -/
structure Done (t : Int) (s : Core C Sv A) : Prop where
  lt : t < s.counter
  aligned : s.qm.Aligned
  rows : ∀ p ∈ s.qm.desired.zip s.qm.need, p.1.targetId = t → p.2 = false

theorem rows_clear {t : Int} (f : Obs → Bool) (os : List Obs) (bs : List Bool)
    (h : ∀ p ∈ os.zip bs, p.1.targetId = t → p.2 = false) :
    ∀ p ∈ os.zip (QM.clearWhere f os bs), p.1.targetId = t → p.2 = false := by
  intro p hp ht
  rw [QM.zip_clearWhere] at hp
  obtain ⟨q, hq, rfl⟩ := List.mem_map.mp hp
  simp [h q hq ht]

theorem rows_clear_hit {t : Int} (f : Obs → Bool) (os : List Obs) (bs : List Bool)
    (h : ∀ o ∈ os, o.targetId = t → f o = true) :
    ∀ p ∈ os.zip (QM.clearWhere f os bs), p.1.targetId = t → p.2 = false := by
  intro p hp ht
  rw [QM.zip_clearWhere] at hp
  obtain ⟨q, hq, rfl⟩ := List.mem_map.mp hp
  have := (List.of_mem_zip (a := q.1) (b := q.2) hq).1
  simp [h q.1 this ht]

theorem fillQueue_done {E : Env C Sv A} {s s' : Core C Sv A} {ev : List Ev} {t : Int}
    (h : s.fillQueue E = .ok (s', ev)) (ht : t < s.counter) : Done t s' := by
  refine ⟨lt_of_lt_of_le ht (fillQueue_ids h).mono, fillQueue_aligned h, ?_⟩
  rcases fillQueue_cases h with ⟨h1, _, _⟩ | ⟨obs, filled, hf, h1, _, _⟩
  · rw [h1]; simp [QM.flush]
  · rw [h1]
    intro p hp hid
    have hmem := (List.of_mem_zip (a := p.1) (b := p.2) hp).1
    have hids := fillFilters_ids hf
    rw [tagIds_ids] at hids
    have : p.1.targetId ∈ filled.map Obs.targetId := List.mem_map.mpr ⟨_, hmem, rfl⟩
    rw [hids] at this
    obtain ⟨i, _, hi⟩ := List.mem_map.mp this
    omega

theorem done_of_queue_eq {s s' : Core C Sv A} {t : Int} (h : Done t s) (hc : s.counter ≤ s'.counter)
    (h1 : s'.qm.desired = s.qm.desired) (h2 : s'.qm.need = s.qm.need) : Done t s' := by
  refine ⟨lt_of_lt_of_le h.lt hc, aligned_of_eq h1 h2 h.aligned, ?_⟩
  rw [h1, h2]; exact h.rows

/-- A pending row never has a used-up id, so the queue manager cannot select it. -/
theorem selectable_not_done {s : Core C Sv A} {t : Int} (h : Done t s) (E : QEnv C A) (c : C) (m : ℚ) :
    ∀ o ∈ s.qm.selectable E c m, o.targetId ≠ t := by
  intro o ho hid
  obtain ⟨i, h1, h2, _, _⟩ := QM.selectable_mem E s.qm c m ho
  have hz : (s.qm.desired.zip s.qm.need)[i]? = some (o, true) := by
    rw [List.getElem?_zip_eq_some]; exact ⟨h1, h2⟩
  have := h.rows _ (List.mem_of_getElem? hz) hid
  simp at this

/-- The detailers of the queue manager do not invent target ids. -/
def DetKeepsIds (E : QEnv C A) : Prop :=
  ∀ a c l, ∀ o ∈ (E.detail a c l).1, ∃ o' ∈ l, o'.targetId = o.targetId

theorem qrequest_not_done {s : Core C Sv A} {t : Int} (h : Done t s) {E : QEnv C A} (hd : DetKeepsIds E)
    (c : C) (w : Bool) : ∀ o ∈ (s.qm.request E c w).1, o.targetId ≠ t := by
  intro o ho
  rw [QM.request_eq E _ c w h.aligned] at ho
  have key : ∀ l, (∀ x ∈ l, x ∈ s.qm.selectable E c (E.mjdOf c)) →
      ∀ x ∈ (E.detail s.qm.aux c l).1, x.targetId ≠ t := by
    intro l hl x hx
    obtain ⟨o', ho', hid⟩ := hd _ _ _ x hx
    rw [← hid]
    exact selectable_not_done h E c _ o' (hl o' ho')
  cases w <;> simp only [if_true, if_false, Bool.false_eq_true] at ho <;> split at ho
  · exact key _ (fun x hx => List.mem_of_mem_take hx) o ho
  · simp at ho
  · exact key _ (fun x hx => hx) o ho
  · simp at ho

theorem setNote_id (o : Obs) : (setNote o).targetId = o.targetId := rfl

theorem step_done {E : Env C Sv A} (hd : DetKeepsIds E.q) {s s' : Core C Sv A} {op : Op C} {t : Int}
    {out : Option (List Obs)} {ev : List Ev} (h : s.step E op = .ok (s', out, ev))
    (hdone : Done t s) (hset : ∀ n, op ≠ .setCounter n)
    (happ : ∀ l, op = .append l → ∀ o ∈ l, o.targetId ≠ t) :
    Done t s' ∧ ∀ o ∈ out.getD [], o.targetId ≠ t := by
  have hmono := (step_ids h hset).mono
  cases op with
  | request m w =>
    obtain ⟨c, s1, ev1, _, hfirst, hrest⟩ := request_cases (m := m) h
    have h1 : Done t s1 := by
      rcases hfirst with ⟨_, hf⟩ | ⟨_, rfl, rfl⟩
      · exact fillQueue_done hf hdone.lt
      · exact hdone
    rcases hrest with ⟨_, rfl, rfl, _⟩ | ⟨_, _, rfl, rfl, _⟩ | ⟨_, _, s3, ev2, hf, rfl, _, hout⟩
    · exact ⟨h1, by simp⟩
    · refine ⟨done_of_queue_eq h1 (le_refl _) (qrequest_queue _ _ _ _).1 (qrequest_queue _ _ _ _).2, ?_⟩
      intro o ho
      simp only [Option.getD_some, List.mem_map] at ho
      obtain ⟨o', ho', rfl⟩ := ho
      exact qrequest_not_done h1 hd c w o' ho'
    · have h3 : Done t s3 := fillQueue_done hf h1.lt
      refine ⟨done_of_queue_eq h3 (le_refl _) (qrequest_queue _ _ _ _).1 (qrequest_queue _ _ _ _).2, ?_⟩
      rcases hout with ⟨_, rfl⟩ | ⟨_, rfl⟩
      · simp
      · intro o ho
        simp only [Option.getD_some, List.mem_map] at ho
        obtain ⟨o', ho', rfl⟩ := ho
        exact qrequest_not_done h3 hd c w o' ho'
  | add o =>
    cases h
    refine ⟨⟨lt_of_lt_of_le hdone.lt hmono, qaddObs_aligned _ _ _ hdone.aligned, ?_⟩, by simp⟩
    show ∀ p ∈ (s.qm.addObs E.q (backfillBand o)).desired.zip (s.qm.addObs E.q (backfillBand o)).need, _
    unfold QM.addObs
    simp only
    split
    · exact rows_clear _ _ _ hdone.rows
    · exact hdone.rows
  | addArr l =>
    simp only [step] at h
    split at h
    · cases h
    · rename_i s1 ev1 h1
      cases h
      refine ⟨?_, by simp⟩
      rcases addArr_cases h1 with ⟨o, _, rfl, _⟩ | ⟨o, os, _, hq, _, _⟩
      · refine ⟨lt_of_lt_of_le hdone.lt hmono, qaddObs_aligned _ _ _ hdone.aligned, ?_⟩
        show ∀ p ∈ (s.qm.addObs E.q (backfillBand o)).desired.zip (s.qm.addObs E.q (backfillBand o)).need, _
        unfold QM.addObs
        simp only
        split
        · exact rows_clear _ _ _ hdone.rows
        · exact hdone.rows
      · refine ⟨lt_of_lt_of_le hdone.lt hmono, by rw [hq]; exact qaddArr_aligned _ _ _ hdone.aligned, ?_⟩
        rw [hq]
        unfold QM.addArr
        split
        · exact rows_clear _ _ _ hdone.rows
        · exact hdone.rows
  | flush => cases h; exact ⟨⟨hdone.lt, rfl, by simp [Core.flush, QM.flush]⟩, by simp⟩
  | append l =>
    cases h
    refine ⟨⟨hdone.lt, ?_, ?_⟩, by simp⟩
    · have := hdone.aligned; unfold QM.Aligned QM.append at *; simp [this]
    · intro p hp hid
      simp only [QM.append] at hp
      rw [List.zip_append hdone.aligned.symm] at hp
      rcases List.mem_append.mp hp with hp | hp
      · exact hdone.rows p hp hid
      · exact absurd hid (happ l rfl p.1 (List.of_mem_zip (a := p.1) (b := p.2) hp).1)
  | mark o =>
    cases h
    exact ⟨⟨hdone.lt, mark_aligned _ _ hdone.aligned, rows_clear _ _ _ hdone.rows⟩, by simp⟩
  | update c =>
    cases h
    refine ⟨?_, by simp⟩
    rcases tooStep_queue E s c with hq | hq
    · exact done_of_queue_eq hdone hmono (congrArg QM.desired hq) (congrArg QM.need hq)
    · refine ⟨lt_of_lt_of_le hdone.lt hmono, ?_, ?_⟩
      · show (s.tooStep E c).qm.Aligned
        rw [hq]; rfl
      · show ∀ p ∈ (s.tooStep E c).qm.desired.zip (s.tooStep E c).qm.need, _
        rw [hq]; simp [QM.flush]
  | setCounter n => exact absurd rfl (hset n)

theorem run_done {E : Env C Sv A} (hd : DetKeepsIds E.q) {s s' : Core C Sv A} {ops : List (Op C)} {t : Int}
    {outs : List Obs} {evs : List Ev} (h : run E s ops = .ok (s', outs, evs))
    (hdone : Done t s) (hset : ∀ n, Op.setCounter n ∉ ops)
    (happ : ∀ l, Op.append l ∈ ops → ∀ o ∈ l, o.targetId ≠ t) :
    Done t s' ∧ ∀ o ∈ outs, o.targetId ≠ t := by
  induction ops generalizing s outs evs with
  | nil => cases h; exact ⟨hdone, by simp⟩
  | cons op ops ih =>
    unfold run at h
    split at h
    · cases h
    · rename_i s1 out ev h1
      split at h
      · cases h
      · rename_i s2 outs' evs' h2
        cases h
        have hs := step_done hd h1 hdone (fun n hn => hset n (by simp [hn]))
          (fun l hl => happ l (by simp [hl]))
        have hr := ih h2 hs.1 (fun n hn => hset n (by simp [hn])) (fun l hl => happ l (by simp [hl]))
        refine ⟨hr.1, ?_⟩
        intro o ho
        rcases List.mem_append.mp ho with h | h
        · exact hs.2 o h
        · exact hr.2 o h

theorem run_append {E : Env C Sv A} {s s' : Core C Sv A} {ops1 ops2 : List (Op C)}
    {outs : List Obs} {evs : List Ev} (h : run E s (ops1 ++ ops2) = .ok (s', outs, evs)) :
    ∃ s1 o1 e1 o2 e2, run E s ops1 = .ok (s1, o1, e1) ∧ run E s1 ops2 = .ok (s', o2, e2) ∧
      outs = o1 ++ o2 ∧ evs = e1 ++ e2 := by
  induction ops1 generalizing s outs evs with
  | nil => exact ⟨s, [], [], outs, evs, rfl, h, rfl, rfl⟩
  | cons op ops ih =>
    rw [List.cons_append] at h
    unfold run at h
    split at h
    · cases h
    · rename_i s1 out ev h1
      split at h
      · cases h
      · rename_i s2 outs' evs' h2
        cases h
        obtain ⟨sm, o1, e1, o2, e2, hr1, hr2, rfl, rfl⟩ := ih h2
        refine ⟨sm, out.getD [] ++ o1, ev ++ e1, o2, e2, ?_, hr2, by simp, by simp⟩
        unfold run
        rw [h1]
        simp only
        rw [hr1]

end Core
end Verif
