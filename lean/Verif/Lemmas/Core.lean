import Verif.Model.Core
import Verif.Lemmas.Queue

namespace Verif
variable {C Sv A : Type}

theorem tagIds_length (n : Int) (l : List Obs) : (tagIds n l).length = l.length := by
  induction l generalizing n with
  | nil => rfl
  | cons o os ih => simp [tagIds, ih]

theorem tagIds_ids (n : Int) (l : List Obs) :
    (tagIds n l).map Obs.targetId = (List.range l.length).map (fun i : Nat => n + i) := by
  induction l generalizing n with
  | nil => rfl
  | cons o os ih =>
    simp only [tagIds, List.map_cons, ih, List.length_cons, List.range_succ_eq_map, List.map_map]
    simp only [Int.natCast_zero, Int.add_zero, List.cons.injEq, true_and]
    apply List.map_congr_left
    intro i _
    simp only [Function.comp]; omega

theorem fillFilter_id {d : List (String × String)} {o o' : Obs} (h : fillFilter d o = .ok o') :
    o'.targetId = o.targetId := by
  unfold fillFilter at h
  split at h
  · split at h
    · cases h; rfl
    · cases h
  · cases h; rfl

theorem fillFilters_ids {d : List (String × String)} {l l' : List Obs} (h : fillFilters d l = .ok l') :
    l'.map Obs.targetId = l.map Obs.targetId := by
  induction l generalizing l' with
  | nil => cases h; rfl
  | cons o os ih =>
    unfold fillFilters at h
    split at h
    · cases h
    · rename_i o' ho
      split at h
      · cases h
      · rename_i os' hos
        cases h
        simp [fillFilter_id ho, ih hos]

namespace Core

/-- What `_fill_queue` does to the queue and the counter. -/
theorem fillQueue_cases {E : Env C Sv A} {s s' : Core C Sv A} {ev : List Ev}
    (h : s.fillQueue E = .ok (s', ev)) :
    (s'.qm = s.qm.flush ∧ ev = [] ∧ s'.counter = s.counter) ∨
    (∃ obs filled, fillFilters s.bandToFilter (tagIds s.counter obs) = .ok filled ∧
      s'.qm = s.qm.setQueue filled ∧ ev = filled.map (fun o => Ev.assigned o.targetId) ∧
      s'.counter = s.counter + obs.length) := by
  unfold fillQueue at h
  split at h
  · cases h
  · split at h
    · cases h
    · simp only at h
      split at h
      · cases h
      · split at h
        · cases h; exact Or.inl ⟨rfl, rfl, rfl⟩
        · split at h
          · split at h
            · cases h
            · split at h
              · cases h
              · split at h
                · cases h
                · rename_i filled hf
                  cases h
                  exact Or.inr ⟨_, filled, hf, rfl, rfl, rfl⟩
          · cases h

theorem fillQueue_frame {E : Env C Sv A} {s s' : Core C Sv A} {ev : List Ev}
    (h : s.fillQueue E = .ok (s', ev)) :
    s'.conditions = s.conditions ∧ s'.tooIds = s.tooIds ∧ s'.flushForNewToo = s.flushForNewToo ∧
    s'.bandToFilter = s.bandToFilter ∧ s'.scheduled = s.scheduled ∧ s'.qm.aux = s.qm.aux := by
  unfold fillQueue at h
  split at h
  · cases h
  · rename_i c hc
    split at h
    · cases h
    · simp only at h
      split at h
      · cases h
      · split at h
        · cases h; exact ⟨rfl, rfl, rfl, rfl, rfl, rfl⟩
        · split at h
          · split at h
            · cases h
            · split at h
              · cases h
              · split at h
                · cases h
                · cases h; exact ⟨rfl, rfl, rfl, rfl, rfl, rfl⟩
          · cases h

theorem fillQueue_ev_ids {E : Env C Sv A} {s s' : Core C Sv A} {ev : List Ev}
    (h : s.fillQueue E = .ok (s', ev)) :
    ∃ n : Nat, ev = (List.range n).map (fun i : Nat => Ev.assigned (s.counter + i)) ∧
      s'.counter = s.counter + n := by
  rcases fillQueue_cases h with ⟨_, h2, h3⟩ | ⟨obs, filled, hf, _, h2, h3⟩
  · exact ⟨0, by simp [h2], by simp [h3]⟩
  · refine ⟨obs.length, ?_, h3⟩
    have hids := fillFilters_ids hf
    rw [tagIds_ids] at hids
    rw [h2]
    have : filled.map (fun o => Ev.assigned o.targetId) = (filled.map Obs.targetId).map Ev.assigned := by simp
    rw [this, hids, List.map_map]; rfl

theorem fillQueue_aligned {E : Env C Sv A} {s s' : Core C Sv A} {ev : List Ev}
    (h : s.fillQueue E = .ok (s', ev)) : s'.qm.Aligned := by
  rcases fillQueue_cases h with ⟨h1, _, _⟩ | ⟨_, _, _, h1, _, _⟩
  · rw [h1]; rfl
  · rw [h1]; simp [QM.Aligned, QM.setQueue]

theorem qrequest_queue (E : QEnv C A) (q : QM A) (c : C) (w : Bool) :
    (q.request E c w).2.desired = q.desired ∧ (q.request E c w).2.need = q.need := by
  unfold QM.request
  simp only
  generalize (List.filterMap (fun i : Nat => q.desired[i]?) _) = r
  split <;> exact ⟨rfl, rfl⟩

/-- The possible courses of `request_observation`. -/
theorem request_cases {E : Env C Sv A} {s s' : Core C Sv A} {m : Option ℚ} {w : Bool}
    {out : Option (List Obs)} {ev : List Ev} (h : s.request E m w = .ok (s', out, ev)) :
    ∃ c s1 ev1, s.conditions = some c ∧
      ((s.qm.nonePending = true ∧ s.fillQueue E = .ok (s1, ev1)) ∨
        (s.qm.nonePending = false ∧ s1 = s ∧ ev1 = [])) ∧
      ((s1.qm.nonePending = true ∧ s' = s1 ∧ out = none ∧ ev = ev1) ∨
       (s1.qm.nonePending = false ∧ (s1.qm.request E.q c w).1 ≠ [] ∧
         s' = { s1 with qm := (s1.qm.request E.q c w).2 } ∧
         out = some ((s1.qm.request E.q c w).1.map setNote) ∧ ev = ev1) ∨
       (s1.qm.nonePending = false ∧ (s1.qm.request E.q c w).1 = [] ∧
         ∃ s3 ev2, ({ s1 with qm := (s1.qm.request E.q c w).2.flush } : Core C Sv A).fillQueue E = .ok (s3, ev2) ∧
           s' = { s3 with qm := (s3.qm.request E.q c w).2 } ∧ ev = ev1 ++ ev2 ∧
           (((s3.qm.request E.q c w).1 = [] ∧ out = none) ∨
            ((s3.qm.request E.q c w).1 ≠ [] ∧ out = some ((s3.qm.request E.q c w).1.map setNote))))) := by
  unfold request at h
  split at h
  · cases h
  · rename_i c hc
    simp only at h
    split at h
    · cases h
    · rename_i s1 ev1 hfirst
      refine ⟨c, s1, ev1, hc, ?_, ?_⟩
      · by_cases hp : s.qm.nonePending = true
        · rw [if_pos hp] at hfirst; exact Or.inl ⟨hp, hfirst⟩
        · rw [if_neg hp] at hfirst
          cases hfirst
          exact Or.inr ⟨by simpa using hp, rfl, rfl⟩
      · split at h
        · rename_i hp
          cases h
          exact Or.inl ⟨hp, rfl, rfl, rfl⟩
        · rename_i hp
          have hp' : s1.qm.nonePending = false := by simpa using hp
          split at h
          · rename_i hz
            have hz' : (s1.qm.request E.q c w).1 = [] := List.length_eq_zero_iff.mp hz
            split at h
            · cases h
            · rename_i s3 ev2 hfill
              refine Or.inr (Or.inr ⟨hp', hz', s3, ev2, hfill, ?_⟩)
              split at h
              · rename_i hz2
                cases h
                exact ⟨rfl, rfl, Or.inl ⟨List.length_eq_zero_iff.mp hz2, rfl⟩⟩
              · rename_i hz2
                cases h
                refine ⟨rfl, rfl, Or.inr ⟨?_, rfl⟩⟩
                intro hc; exact hz2 (by rw [hc]; rfl)
          · rename_i hz
            cases h
            refine Or.inr (Or.inl ⟨hp', ?_, rfl, rfl, rfl⟩)
            intro hc; exact hz (by rw [hc]; rfl)

theorem aligned_of_eq {q q' : QM A} (h1 : q'.desired = q.desired) (h2 : q'.need = q.need)
    (h : q.Aligned) : q'.Aligned := by
  unfold QM.Aligned at *; rw [h1, h2, h]

theorem request_aligned {E : Env C Sv A} {s s' : Core C Sv A} {m : Option ℚ} {w : Bool}
    {out : Option (List Obs)} {ev : List Ev} (h : s.request E m w = .ok (s', out, ev))
    (ha : s.qm.Aligned) : s'.qm.Aligned := by
  obtain ⟨c, s1, ev1, _, hfirst, hrest⟩ := request_cases h
  have ha1 : s1.qm.Aligned := by
    rcases hfirst with ⟨_, hf⟩ | ⟨_, rfl, _⟩
    · exact fillQueue_aligned hf
    · exact ha
  rcases hrest with ⟨_, rfl, _, _⟩ | ⟨_, _, rfl, _, _⟩ | ⟨_, _, s3, ev2, hf, rfl, _, _⟩
  · exact ha1
  · exact aligned_of_eq (qrequest_queue _ _ _ _).1 (qrequest_queue _ _ _ _).2 ha1
  · exact aligned_of_eq (qrequest_queue _ _ _ _).1 (qrequest_queue _ _ _ _).2 (fillQueue_aligned hf)

theorem mark_aligned (q : QM A) (o : Obs) (h : q.Aligned) : (q.mark o).Aligned := by
  unfold QM.Aligned QM.mark at *; simp [QM.clearWhere_length, h]

theorem qaddObs_aligned (E : QEnv C A) (q : QM A) (o : Obs) (h : q.Aligned) : (q.addObs E o).Aligned := by
  unfold QM.addObs
  simp only
  split
  · exact mark_aligned q o h
  · exact h

theorem qaddArr_aligned (E : QEnv C A) (q : QM A) (l : List Obs) (h : q.Aligned) : (q.addArr E l).Aligned := by
  unfold QM.addArr
  split
  · unfold QM.Aligned at *; simp [QM.clearWhere_length, h]
  · exact h

/-- Queue and counter after `addArr`. -/
theorem addArr_cases {E : Env C Sv A} {s s' : Core C Sv A} {l : List Obs} {ev : List Ev}
    (h : s.addArr E l = .ok (s', ev)) :
    (∃ o, l = [o] ∧ s' = (s.addObs E o).1 ∧ ev = (s.addObs E o).2) ∨
    (∃ o os, (l.map backfillBand).insertionSort (fun a b => a.mjd ≤ b.mjd) = o :: os ∧
      s'.qm = s.qm.addArr E.q (o :: os) ∧ s'.counter = bump s.counter (maxId o os) ∧
      ev = (o :: os).map (fun x => Ev.reported x.targetId)) := by
  unfold addArr at h
  split at h
  · rename_i o
    cases h
    exact Or.inl ⟨o, rfl, rfl, rfl⟩
  · simp only at h
    split at h
    · cases h
    · rename_i o os heq
      cases h
      exact Or.inr ⟨o, os, heq, by rw [heq], rfl, by rw [heq]⟩

theorem tooStep_queue (E : Env C Sv A) (s : Core C Sv A) (c : C) :
    (s.tooStep E c).qm = s.qm ∨ (s.tooStep E c).qm = s.qm.flush := by
  unfold tooStep
  split
  · split
    · exact Or.inl rfl
    · simp only
      split
      · exact Or.inr rfl
      · exact Or.inl rfl
  · exact Or.inl rfl

theorem tooStep_counter (E : Env C Sv A) (s : Core C Sv A) (c : C) : (s.tooStep E c).counter = s.counter := by
  unfold tooStep
  split
  · split
    · rfl
    · simp only
      split <;> rfl
  · rfl

theorem step_aligned {E : Env C Sv A} {s s' : Core C Sv A} {op : Op C}
    {out : Option (List Obs)} {ev : List Ev} (h : s.step E op = .ok (s', out, ev))
    (ha : s.qm.Aligned) : s'.qm.Aligned := by
  cases op with
  | request m w => exact request_aligned (m := m) h ha
  | add o => cases h; exact qaddObs_aligned _ _ _ ha
  | addArr l =>
    simp only [step] at h
    split at h
    · cases h
    · rename_i s1 ev1 h1
      cases h
      rcases addArr_cases h1 with ⟨o, _, rfl, _⟩ | ⟨o, os, _, hq, _, _⟩
      · exact qaddObs_aligned _ _ _ ha
      · rw [hq]; exact qaddArr_aligned _ _ _ ha
  | flush => cases h; rfl
  | append l => cases h; unfold QM.Aligned QM.append at *; simp [ha]
  | mark o => cases h; exact mark_aligned _ _ ha
  | update c =>
    cases h
    show (s.tooStep E c).qm.Aligned
    rcases tooStep_queue E s c with h | h <;> rw [h]
    · exact ha
    · rfl
  | setCounter n => cases h; exact ha

theorem run_aligned {E : Env C Sv A} {s s' : Core C Sv A} {ops : List (Op C)}
    {outs : List Obs} {evs : List Ev} (h : run E s ops = .ok (s', outs, evs))
    (ha : s.qm.Aligned) : s'.qm.Aligned := by
  induction ops generalizing s outs evs with
  | nil => cases h; exact ha
  | cons op ops ih =>
    unfold run at h
    split at h
    · cases h
    · rename_i s1 out ev h1
      split at h
      · cases h
      · rename_i s2 outs' evs' h2
        cases h
        exact ih h2 (step_aligned h1 ha)

end Core
end Verif
