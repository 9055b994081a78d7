import Verif.Props.Queue
import Mathlib.Data.List.TakeWhile

/-!
Properties C01, C02, C05–C09, C11–C14: the core scheduler.
-/

namespace Verif
variable {C Sv A : Type}
open Core

/-! ### A concrete scheduler for the examples

Conditions are a time and an alert list; a survey is its reward map and the visits it
generates. -/

/-- Test conditions. -/
structure ToyC where
  mjd : ℚ
  toos : Option (List (Int × Bool)) := none

/-- Test survey. -/
structure ToySv where
  reward : List XReal
  visits : List Obs
  times : Option (List ℚ) := none

/-- Test environment: queue-manager map with three pixels, pixel 2 masked. -/
def toyE : Env ToyC ToySv Unit where
  q := { mjdOf := ToyC.mjd, reward := fun _ _ => [.fin 0, .fin 1, .ninf], hpid := fun _ ra _ => ra.num.toNat,
         detail := fun a _ l => (l, a), addObs := fun a _ => a, addArr := fun a _ => a }
  sv := { reward := fun s _ => (s.reward, s), gen := fun s _ => (s.visits, s), addObs := fun s _ => s,
          addArr := fun s _ => s, update := fun s _ => s, scheduled := fun s => s.times }
  toos := ToyC.toos

/-- Test scheduler: first tier infeasible, second tier has a tie. -/
def toyS : Core ToyC ToySv Unit :=
  init () [[⟨[.nan, .ninf], [], none⟩],
    [⟨[.fin 1], [{ targetId := 0, band := "r" }], some [60010, 59000]⟩,
     ⟨[.nan, .fin 2, .fin 1], [{ targetId := 0, band := "g" }, { targetId := 0, filter := "i_03" }], some [60005]⟩,
     ⟨[.fin 2], [{ targetId := 0, band := "y" }], none⟩]] 7 true [("r", "r_57"), ("g", "g_6"), ("i", "i_39")]

/-- What a history leaves: ids handed out, ghost events, counter, queue rows. -/
def digest (r : Except Err (Core ToyC ToySv Unit × List Obs × List Ev)) :
    Option (List Int × List Ev × Int × List (Int × Bool)) :=
  match r with
  | .ok (s, o, e) => some (o.map Obs.targetId, e, s.counter, (rows s.qm).map (fun r => (r.1.targetId, r.2)))
  | .error _ => none

/-- A history used below: two requests, a report, another request, a report with a large id,
a flush and a new fill. -/
def toyOps : List (Op ToyC) :=
  [.update ⟨60000, none⟩, .request none false, .request (some 60000) false, .add { targetId := 7 },
   .request none true, .addArr [{ targetId := 8 }, { targetId := 20, filter := "r" }], .flush, .request none false]

example : digest (run toyE toyS toyOps) =
    some ([7, 7, 8, 21], [.assigned 7, .assigned 8, .reported 7, .reported 8, .reported 20,
      .assigned 21, .assigned 22], 23, [(21, true), (22, true)]) := by decide +kernel

/-! ### C01 -/

/-- C01: in any history of calls (counter not reset by hand), an id the scheduler assigns is
larger than every id it assigned before and every id reported to it before. -/
theorem C01_fresh_ids (E : Env C Sv A) (s s' : Core C Sv A) (ops : List (Op C)) (outs : List Obs)
    (evs : List Ev) (h : run E s ops = .ok (s', outs, evs)) (hset : ∀ n, Op.setCounter n ∉ ops)
    (pre post : List Ev) (b : Int) (hsplit : evs = pre ++ Ev.assigned b :: post) :
    (∀ e ∈ pre, e.id < b) ∧ s.counter ≤ b ∧ b < s'.counter := by
  have hi := run_ids h hset
  subst hsplit
  refine ⟨?_, hi.above b (by simp), hi.below (.assigned b) (by simp)⟩
  intro e he
  have := (List.pairwise_append.mp hi.order).2.2 e he (.assigned b) (by simp)
  exact this b rfl

/-- Ids a user put in the queue with `append_to_queue`. -/
def appendedIds (ops : List (Op C)) : List Int :=
  ops.flatMap (fun op => match op with | .append l => l.map Obs.targetId | _ => [])

/-- C01, tied to what is observable: every visit handed out or waiting in the queue carries
an id recorded as assigned by the scheduler, or one the user appended. -/
theorem C01_ids_accounted (E : Env C Sv A) (hd : DetKeepsIds E.q) (s s' : Core C Sv A) (ops : List (Op C))
    (outs : List Obs) (evs : List Ev) (h : run E s ops = .ok (s', outs, evs)) (ha : s.qm.Aligned)
    (known : List Int) (hk : ∀ o ∈ s.qm.desired, o.targetId ∈ known) :
    (∀ o ∈ outs, Ev.assigned o.targetId ∈ evs ∨ o.targetId ∈ appendedIds ops ∨ o.targetId ∈ known) ∧
    (∀ o ∈ s'.qm.desired, Ev.assigned o.targetId ∈ evs ∨ o.targetId ∈ appendedIds ops ∨ o.targetId ∈ known) := by
  have fill : ∀ {s s' : Core C Sv A} {ev}, s.fillQueue E = .ok (s', ev) →
      ∀ o ∈ s'.qm.desired, Ev.assigned o.targetId ∈ ev := by
    intro s s' ev h o ho
    rcases fillQueue_cases h with ⟨h1, _, _⟩ | ⟨obs, filled, hf, h1, hev, _⟩
    · rw [h1] at ho; simp [QM.flush] at ho
    · rw [h1] at ho
      rw [hev]
      exact List.mem_map.mpr ⟨o, ho, rfl⟩
  have sel : ∀ (q : QM A) (c : C) (w : Bool), q.Aligned → ∀ o ∈ (q.request E.q c w).1,
      ∃ o' ∈ q.desired, o'.targetId = o.targetId := by
    intro q c w hq o ho
    have hsel : ∀ o ∈ q.selectable E.q c (E.q.mjdOf c), o ∈ q.desired := by
      intro o ho
      obtain ⟨i, hi, _⟩ := QM.selectable_mem E.q q c _ ho
      exact List.mem_of_getElem? hi
    rw [QM.request_eq E.q q c w hq] at ho
    cases w <;> simp only [if_true, if_false, Bool.false_eq_true] at ho <;> split at ho
    · obtain ⟨o', ho', he⟩ := hd _ _ _ o ho
      exact ⟨o', hsel o' (List.mem_of_mem_take ho'), he⟩
    · simp at ho
    · obtain ⟨o', ho', he⟩ := hd _ _ _ o ho
      exact ⟨o', hsel o' ho', he⟩
    · simp at ho
  induction ops generalizing s outs evs known with
  | nil => cases h; exact ⟨by simp, fun o ho => Or.inr (Or.inr (hk o ho))⟩
  | cons op ops ih =>
    unfold run at h
    split at h
    · cases h
    · rename_i s1 out ev h1
      split at h
      · cases h
      · rename_i s2 outs' evs' h2
        cases h
        -- one step
        have hstep : (∀ o ∈ out.getD [], Ev.assigned o.targetId ∈ ev ∨ o.targetId ∈ known) ∧
            (∀ o ∈ s1.qm.desired, Ev.assigned o.targetId ∈ ev ∨ o.targetId ∈ appendedIds [op] ∨ o.targetId ∈ known) := by
          cases op with
          | request m w =>
            obtain ⟨c, t1, ev1, _, hfirst, hrest⟩ := request_cases (m := m) h1
            have hal1 : t1.qm.Aligned := by
              rcases hfirst with ⟨_, hf⟩ | ⟨_, rfl, _⟩
              · exact fillQueue_aligned hf
              · exact ha
            have ht1 : ∀ o ∈ t1.qm.desired, Ev.assigned o.targetId ∈ ev1 ∨ o.targetId ∈ known := by
              rcases hfirst with ⟨_, hf⟩ | ⟨_, rfl, rfl⟩
              · intro o ho; exact Or.inl (fill hf o ho)
              · intro o ho; exact Or.inr (hk o ho)
            rcases hrest with ⟨_, rfl, rfl, rfl⟩ | ⟨_, _, rfl, rfl, rfl⟩ | ⟨_, _, t3, ev2, hf, rfl, rfl, hout⟩
            · refine ⟨by simp, fun o ho => ?_⟩
              rcases ht1 o ho with h | h
              · exact Or.inl h
              · exact Or.inr (Or.inr h)
            · refine ⟨?_, ?_⟩
              · intro o ho
                simp only [Option.getD_some, List.mem_map] at ho
                obtain ⟨o', ho', rfl⟩ := ho
                obtain ⟨o'', hm, he⟩ := sel _ c w hal1 o' ho'
                have := ht1 o'' hm
                rw [he] at this
                exact this
              · intro o ho
                have ho' : o ∈ t1.qm.desired := by
                  have := (qrequest_queue E.q t1.qm c w).1
                  rw [← this]; exact ho
                rcases ht1 o ho' with h | h
                · exact Or.inl h
                · exact Or.inr (Or.inr h)
            · have ht3 : ∀ o ∈ t3.qm.desired, Ev.assigned o.targetId ∈ ev1 ++ ev2 := by
                intro o ho; exact List.mem_append_right _ (fill hf o ho)
              refine ⟨?_, ?_⟩
              · rcases hout with ⟨_, rfl⟩ | ⟨_, rfl⟩
                · simp
                · intro o ho
                  simp only [Option.getD_some, List.mem_map] at ho
                  obtain ⟨o', ho', rfl⟩ := ho
                  obtain ⟨o'', hm, he⟩ := sel _ c w (fillQueue_aligned hf) o' ho'
                  have := ht3 o'' hm
                  rw [he] at this
                  exact Or.inl this
              · intro o ho
                have ho' : o ∈ t3.qm.desired := by
                  have := (qrequest_queue E.q t3.qm c w).1
                  rw [← this]; exact ho
                exact Or.inl (ht3 o ho')
          | add o =>
            cases h1
            refine ⟨by simp, fun x hx => Or.inr (Or.inr (hk x ?_))⟩
            simp only [Core.addObs, QM.addObs] at hx
            split at hx <;> exact hx
          | addArr l =>
            simp only [step] at h1
            split at h1
            · cases h1
            · rename_i t1 e1 ht
              cases h1
              refine ⟨by simp, fun x hx => Or.inr (Or.inr (hk x ?_))⟩
              rcases addArr_cases ht with ⟨o, _, rfl, _⟩ | ⟨o, os, _, hq, _, _⟩
              · simp only [Core.addObs, QM.addObs] at hx
                split at hx <;> exact hx
              · rw [hq] at hx
                unfold QM.addArr at hx
                split at hx <;> exact hx
          | flush => cases h1; exact ⟨by simp, by simp [Core.flush, QM.flush]⟩
          | append l =>
            cases h1
            refine ⟨by simp, ?_⟩
            intro x hx
            simp only [QM.append] at hx
            rcases List.mem_append.mp hx with h | h
            · exact Or.inr (Or.inr (hk x h))
            · right; left
              simp only [appendedIds, List.flatMap_cons, List.flatMap_nil, List.append_nil]
              exact List.mem_map.mpr ⟨x, h, rfl⟩
          | mark o => cases h1; exact ⟨by simp, fun x hx => Or.inr (Or.inr (hk x hx))⟩
          | update c =>
            cases h1
            refine ⟨by simp, fun x hx => Or.inr (Or.inr (hk x ?_))⟩
            have hx' : x ∈ (s.tooStep E c).qm.desired := hx
            rcases tooStep_queue E s c with hq | hq
            · rw [hq] at hx'; exact hx'
            · rw [hq] at hx'; simp [QM.flush] at hx'
          | setCounter n => cases h1; exact ⟨by simp, fun x hx => Or.inr (Or.inr (hk x hx))⟩
        have hal1 := step_aligned h1 ha
        have hrec := ih s1 outs' evs' h2 hal1 (s1.qm.desired.map Obs.targetId)
          (fun o ho => List.mem_map.mpr ⟨o, ho, rfl⟩)
        have happ : ∀ i, i ∈ appendedIds (op :: ops) ↔ i ∈ appendedIds [op] ∨ i ∈ appendedIds ops := by
          intro i; simp [appendedIds]
        have lift : ∀ i, (Ev.assigned i ∈ evs' ∨ i ∈ appendedIds ops ∨ i ∈ s1.qm.desired.map Obs.targetId) →
            Ev.assigned i ∈ ev ++ evs' ∨ i ∈ appendedIds (op :: ops) ∨ i ∈ known := by
          intro i hi
          rw [happ, List.mem_append]
          rcases hi with h | h | h
          · exact Or.inl (Or.inr h)
          · exact Or.inr (Or.inl (Or.inr h))
          · obtain ⟨o, ho, rfl⟩ := List.mem_map.mp h
            rcases hstep.2 o ho with h | h | h
            · exact Or.inl (Or.inl h)
            · exact Or.inr (Or.inl (Or.inl h))
            · exact Or.inr (Or.inr h)
        refine ⟨?_, fun o ho => lift _ (hrec.2 o ho)⟩
        intro o ho
        rcases List.mem_append.mp ho with h | h
        · rcases hstep.1 o h with h | h
          · exact Or.inl (List.mem_append_left _ h)
          · exact Or.inr (Or.inr h)
        · exact lift _ (hrec.1 o h)

/-! ### C02 -/

/-- The call reports visit id `t` as completed. -/
def Reports (s : Core C Sv A) (op : Op C) (t : Int) : Prop :=
  (∃ o, op = .add o ∧ o.targetId = t) ∨ (∃ l, op = .addArr l ∧ t ∈ l.map Obs.targetId) ∨
  (∃ o, op = .mark o ∧ o.targetId = t ∧ t < s.counter)

/-- C02: after a visit is reported, no later call hands out a visit with its id, whatever
happens in between, unless the user appends it again or resets the counter. The scheduler
state before the report can be any reachable one (`Aligned` is the invariant C10). -/
theorem C02_never_again (E : Env C Sv A) (hd : DetKeepsIds E.q) (s s' : Core C Sv A) (ha : s.qm.Aligned)
    (op : Op C) (ops : List (Op C)) (t : Int) (hrep : Reports s op t)
    (outs : List Obs) (evs : List Ev) (h : run E s (op :: ops) = .ok (s', outs, evs))
    (hset : ∀ n, Op.setCounter n ∉ ops) (happ : t ∉ appendedIds ops) :
    ∀ o ∈ outs, o.targetId ≠ t := by
  unfold run at h
  split at h
  · cases h
  · rename_i s1 out ev h1
    split at h
    · cases h
    · rename_i s2 outs' evs' h2
      cases h
      have addDone : ∀ o : Obs, o.targetId = t → Done t (s.addObs E o).1 := by
        intro o ho
        have hb : (backfillBand o).targetId = t := by unfold backfillBand; split <;> exact ho
        refine ⟨?_, qaddObs_aligned _ _ _ ha, ?_⟩
        · show t < bump s.counter (backfillBand o).targetId
          rw [hb]; exact (bump_ge _ _).2
        · show ∀ p ∈ rows (s.qm.addObs E.q (backfillBand o)), _
          rw [(C10_refines E.q s.qm ha).2.2.2.2.1]
          intro p hp hid
          obtain ⟨r, hr, rfl⟩ := List.mem_map.mp hp
          by_cases hr' : r.1.targetId = (backfillBand o).targetId
          · simp [hr']
          · rw [if_neg hr'] at hid; rw [hb] at hr'; exact absurd hid hr'
      have hdone : Done t s1 ∧ out = none := by
        rcases hrep with ⟨o, rfl, ho⟩ | ⟨l, rfl, hl⟩ | ⟨o, rfl, ho, hlt⟩
        · cases h1; exact ⟨addDone o ho, rfl⟩
        · simp only [step] at h1
          split at h1
          · cases h1
          · rename_i t1 e1 ht
            cases h1
            refine ⟨?_, rfl⟩
            rcases addArr_cases ht with ⟨o, rfl, rfl, _⟩ | ⟨o, os, hs, hq, hc, _⟩
            · simp at hl; exact addDone o hl.symm
            · have hmem : t ∈ (o :: os).map Obs.targetId := by
                rw [← hs]
                have hp := (List.perm_insertionSort (fun a b : Obs => a.mjd ≤ b.mjd) (l.map backfillBand)).map Obs.targetId
                rw [hp.mem_iff, List.map_map]
                obtain ⟨x, hx, rfl⟩ := List.mem_map.mp hl
                refine List.mem_map.mpr ⟨x, hx, ?_⟩
                simp only [Function.comp, backfillBand]; split <;> rfl
              refine ⟨?_, by rw [hq]; exact qaddArr_aligned _ _ _ ha, ?_⟩
              · rw [hc]
                obtain ⟨x, hx, rfl⟩ := List.mem_map.mp hmem
                exact lt_of_le_of_lt (maxId_ge o os x hx) (bump_ge _ _).2
              · show ∀ p ∈ rows s1.qm, _
                rw [hq, (C10_refines E.q s.qm ha).2.2.2.2.2.1]
                intro p hp hid
                obtain ⟨r, hr, rfl⟩ := List.mem_map.mp hp
                by_cases hr' : r.1.targetId ∈ (o :: os).map Obs.targetId
                · rw [if_pos hr']
                · rw [if_neg hr'] at hid; rw [hid] at hr'; exact absurd hmem hr'
        · cases h1
          refine ⟨⟨hlt, mark_aligned _ _ ha, ?_⟩, rfl⟩
          show ∀ p ∈ rows (s.qm.mark o), _
          rw [(C10_refines E.q s.qm ha).2.2.2.1]
          intro p hp hid
          obtain ⟨r, hr, rfl⟩ := List.mem_map.mp hp
          by_cases hr' : r.1.targetId = o.targetId
          · simp [hr']
          · rw [if_neg hr'] at hid; rw [ho] at hr'; exact absurd hid hr'
      rw [hdone.2]
      refine fun o ho => (run_done hd h2 hdone.1 hset ?_).2 o (by simpa using ho)
      intro l hl o ho hid
      apply happ
      unfold appendedIds
      rw [List.mem_flatMap]
      exact ⟨.append l, hl, List.mem_map.mpr ⟨o, ho, hid⟩⟩

/-- The hypotheses of C02 are met: visit 7 is handed out, reported, and visit 8 comes next. -/
example : digest (run toyE toyS [.update ⟨60000, none⟩, .request none false, .add { targetId := 7 }, .request none false])
      = some ([7, 8], [.assigned 7, .assigned 8, .reported 7], 9, [(7, false), (8, true)]) := by decide +kernel

/-- The detailer assumption is met by detailers that only edit other columns. -/
example : DetKeepsIds toyE.q := fun _ _ l o ho => ⟨o, ho, rfl⟩

/-! ### C03, C04, C06, C10 for the scheduler as a whole -/

/-- C10: in every history from a fresh scheduler there is one flag per queued visit. -/
theorem C10_aligned (E : Env C Sv A) (a : A) (tiers : List (List Sv)) (n : Int) (f : Bool)
    (d : List (String × String)) (s' : Core C Sv A) (ops : List (Op C)) (outs : List Obs) (evs : List Ev)
    (h : run E (init a tiers n f d) ops = .ok (s', outs, evs)) :
    s'.qm.need.length = s'.qm.desired.length :=
  run_aligned h rfl

/-- C03: if the queue holds a visit that can be handed out, a request answers from the queue
and changes neither the queue nor the flags nor the id counter. -/
theorem C03_core_not_consuming (E : Env C Sv A) (s : Core C Sv A) (c : C) (m : Option ℚ) (w : Bool)
    (hc : s.conditions = some c) (hpend : s.qm.nonePending = false) (hres : (s.qm.request E.q c w).1 ≠ []) :
    ∃ s', s.request E m w = .ok (s', some ((s.qm.request E.q c w).1.map setNote), []) ∧
      rows s'.qm = rows s.qm ∧ s'.counter = s.counter ∧ s'.tiers = s.tiers := by
  have hl : ¬ ((s.qm.request E.q c w).1.length = 0) := by
    intro h; exact hres (List.length_eq_zero_iff.mp h)
  refine ⟨{ s with qm := (s.qm.request E.q c w).2 }, ?_, C03_not_consuming E.q s.qm c w, rfl, rfl⟩
  unfold request
  rw [hc]
  simp only [hpend, Bool.false_eq_true, if_false, if_neg hl]
  rw [← hc]

/-- C04 for the scheduler: a visit handed out is unexpired, if no expiry time in the queue it
came from is within one part in 10^9 of the current time. -/
theorem C04_core_partial (E : Env C Sv A) (s s' : Core C Sv A) (c : C) (m : Option ℚ) (w : Bool)
    (l : List Obs) (ev : List Ev) (hc : s.conditions = some c) (ha : s.qm.Aligned)
    (h : s.request E m w = .ok (s', some l, ev)) (hfar : NoClose (E.q.mjdOf c) s'.qm.desired)
    (hdet : ∀ a c l, ∀ o ∈ (E.q.detail a c l).1, ∃ o' ∈ l, o'.flushBy = o.flushBy) :
    ∀ o ∈ l, Unexpired (E.q.mjdOf c) o := by
  obtain ⟨c', q, hc', hq, hd, _, _, rfl, _⟩ := request_source ha h
  rw [hc] at hc'; cases hc'
  intro o ho
  obtain ⟨o', ho', rfl⟩ := List.mem_map.mp ho
  exact C04_unexpired_partial E.q q c w hq (by rw [hd]; exact hfar) hdet o' ho'

/-- C06 (b): a visit handed out by the scheduler lies on unmasked sky (detailers change
neither positions nor masks). -/
theorem C06_core_unmasked (E : Env C Sv A) (s s' : Core C Sv A) (c : C) (m : Option ℚ) (w : Bool)
    (l : List Obs) (ev : List Ev) (hc : s.conditions = some c) (ha : s.qm.Aligned)
    (h : s.request E m w = .ok (s', some l, ev))
    (hdet : ∀ a c l, ∀ o ∈ (E.q.detail a c l).1, ∃ o' ∈ l, o'.ra = o.ra ∧ o'.dec = o.dec)
    (hmask : ∀ a c l, E.q.reward (E.q.detail a c l).2 = E.q.reward a) :
    ∀ o ∈ l, ClearSky E.q s.qm.aux c o := by
  obtain ⟨c', q, hc', hq, _, _, haux, rfl, _⟩ := request_source ha h
  rw [hc] at hc'; cases hc'
  have hr : E.q.reward q.aux = E.q.reward s.qm.aux := by
    rcases haux with h | ⟨r, h⟩
    · rw [h]
    · rw [h, hmask]
  intro o ho
  obtain ⟨o', ho', rfl⟩ := List.mem_map.mp ho
  have := C06_unmasked E.q q c w hq hdet o' ho'
  unfold ClearSky at *
  rw [hr] at this
  exact this

/-- C06 (c): if visits are pending but all of them masked, the queue is discarded and
refilled exactly once; if the refill is masked as well the answer is `None`. -/
theorem C06_all_masked (E : Env C Sv A) (s s' : Core C Sv A) (c : C) (m : Option ℚ) (w : Bool)
    (out : Option (List Obs)) (ev : List Ev) (hc : s.conditions = some c) (ha : s.qm.Aligned)
    (h : s.request E m w = .ok (s', out, ev)) (hpend : ∃ o, (o, true) ∈ rows s.qm)
    (hmasked : ∀ o, (o, true) ∈ rows s.qm → ¬ ClearSky E.q s.qm.aux c o) :
    ∃ s3 ev2, ({ s with qm := s.qm.flush } : Core C Sv A).fillQueue E = .ok (s3, ev2) ∧
      rows s'.qm = rows s3.qm ∧ ev = ev2 ∧
      ((∀ o, (o, true) ∈ rows s3.qm → ¬ ClearSky E.q s.qm.aux c o) → out = none) := by
  obtain ⟨c', s1, ev1, hc', hfirst, hrest⟩ := request_cases h
  rw [hc] at hc'; cases hc'
  have hnp : s.qm.nonePending = false := by
    obtain ⟨o, ho⟩ := hpend
    unfold QM.nonePending
    rw [List.all_eq_false]
    exact ⟨true, (List.of_mem_zip ho).2, by simp⟩
  have nosel : ∀ q : QM A, q.Aligned → q.aux = s.qm.aux →
      (∀ o, (o, true) ∈ rows q → ¬ ClearSky E.q s.qm.aux c o) → q.selectable E.q c (E.q.mjdOf c) = [] := by
    intro q _ hx hm
    apply List.eq_nil_iff_forall_not_mem.mpr
    intro o ho
    obtain ⟨i, h1, h2, _, hu⟩ := QM.selectable_mem E.q q c _ ho
    have hz : (rows q)[i]? = some (o, true) := by
      unfold rows; rw [List.getElem?_zip_eq_some]; exact ⟨h1, h2⟩
    apply hm o (List.mem_of_getElem? hz)
    rw [← hx]
    exact (unmasked_iff E.q q.aux c o).mp hu
  have noreq : ∀ q : QM A, q.Aligned → q.aux = s.qm.aux →
      (∀ o, (o, true) ∈ rows q → ¬ ClearSky E.q s.qm.aux c o) → q.request E.q c w = ([], q) := by
    intro q hq hx hm
    rw [QM.request_eq E.q q c w hq, nosel q hq hx hm]
    cases w <;> simp
  rcases hfirst with ⟨hp, _⟩ | ⟨_, rfl, rfl⟩
  · rw [hnp] at hp; cases hp
  · have hreq := noreq s1.qm ha rfl hmasked
    rcases hrest with ⟨hp, _⟩ | ⟨_, hne, _⟩ | ⟨_, _, s3, ev2, hf, hs', hev, hout⟩
    · rw [hnp] at hp; cases hp
    · rw [hreq] at hne; exact absurd rfl hne
    · rw [hreq] at hf
      have haux3 : s3.qm.aux = s1.qm.aux := (fillQueue_frame hf).2.2.2.2.2
      refine ⟨s3, ev2, hf, ?_, by simpa using hev, ?_⟩
      · rw [hs']; exact C03_not_consuming E.q s3.qm c w
      · intro hm
        rcases hout with ⟨_, h⟩ | ⟨hne, _⟩
        · exact h
        · rw [noreq s3.qm (fillQueue_aligned hf) haux3 hm] at hne
          exact absurd rfl hne

/-! ### C05 -/

/-- A scheduler at 60000 whose queue holds a visit valid until 60001. -/
def staleS : Core ToyC ToySv Unit :=
  { toyS with conditions := some ⟨60000, none⟩,
              qm := ⟨[{ targetId := 3, flushBy := 60001 }], [true], ()⟩ }

/-- C05 fails for the code: asked at 60002, it hands out a visit that expired at 60001. The
`mjd` argument is not used (core_scheduler.py 363-371). -/
theorem C05_violated :
    (match staleS.request toyE (some 60002) false with
     | .ok (_, some l, _) => l.map (fun o => (o.targetId, o.flushBy))
     | _ => []) = [(3, 60001)] ∧ ¬ Unexpired 60002 { targetId := 3, flushBy := 60001 } := by
  decide +kernel

/-- The argument has no influence at all. -/
theorem C05_mjd_ignored (E : Env C Sv A) (s : Core C Sv A) (m m' : Option ℚ) (w : Bool) :
    s.request E m w = s.request E m' w := rfl

/-- C05, what holds: if the time passed is the time of the current conditions (and C04's
restriction holds). Missing: any other time. -/
theorem C05_current_time_partial (E : Env C Sv A) (s s' : Core C Sv A) (c : C) (t : ℚ) (w : Bool)
    (l : List Obs) (ev : List Ev) (hc : s.conditions = some c) (ha : s.qm.Aligned) (ht : t = E.q.mjdOf c)
    (h : s.request E (some t) w = .ok (s', some l, ev)) (hfar : NoClose t s'.qm.desired)
    (hdet : ∀ a c l, ∀ o ∈ (E.q.detail a c l).1, ∃ o' ∈ l, o'.flushBy = o.flushBy) :
    ∀ o ∈ l, Unexpired t o := by
  subst ht
  exact C04_core_partial E s s' c (some _) w l ev hc ha h hfar hdet

/-! ### C07, C08 -/

/-- The best value of a survey's reward: its largest non-nan entry. -/
def BestValue (E : Env C Sv A) (c : C) (sv : Sv) (r : XReal) : Prop :=
  r ∈ (E.sv.reward sv c).1 ∧ r ≠ .nan ∧ ∀ x ∈ (E.sv.reward sv c).1, x = .nan ∨ XReal.leB x r = true

/-- C07: a queue fill takes the visits of a survey in the first tier with a feasible survey:
earlier tiers have none, later tiers are left untouched; if no tier has one the queue is
emptied. -/
theorem C07_tier_priority (E : Env C Sv A) (s s' : Core C Sv A) (c : C) (ev : List Ev)
    (hc : s.conditions = some c) (h : s.fillQueue E = .ok (s', ev)) :
    ((∀ t ∈ s.tiers, ∀ sv ∈ t, ¬ Feasible E.sv c sv) ∧ rows s'.qm = []) ∨
    (∃ (i : Nat) (tier : List Sv) (sv : Sv), s.tiers[i]? = some tier ∧ sv ∈ tier ∧ Feasible E.sv c sv ∧
      s'.surveyIndex.1 = some i ∧
      (∀ k < i, ∀ t, s.tiers[k]? = some t → ∀ v ∈ t, ¬ Feasible E.sv c v) ∧
      (∀ k > i, s'.tiers[k]? = s.tiers[k]?) ∧
      s'.qm.desired.length = ((E.sv.gen (E.sv.reward sv c).2 c).1).length ∧
      s'.qm.desired.map (fun o => (o.ra, o.dec, o.band, o.payload)) =
        (E.sv.gen (E.sv.reward sv c).2 c).1.map (fun o => (o.ra, o.dec, o.band, o.payload))) := by
  rcases fillQueue_spec hc h with ⟨h1, h2, _, _⟩ | ⟨i, j, tier, sv, filled, hi, hj, hix, hb, hf, _, _, hfill, hq, hun⟩
  · left; exact ⟨h1, by rw [h2]; rfl⟩
  · right
    have key : ∀ (d : List (String × String)) (l l' : List Obs), fillFilters d l = .ok l' →
        l'.map (fun o => (o.ra, o.dec, o.band, o.payload)) = l.map (fun o => (o.ra, o.dec, o.band, o.payload)) := by
      intro d l
      induction l with
      | nil => intro l' h; cases h; rfl
      | cons o os ih =>
        intro l' h
        unfold fillFilters at h
        split at h
        · cases h
        · rename_i o' ho
          split at h
          · cases h
          · rename_i os' hos
            cases h
            have : (o'.ra, o'.dec, o'.band, o'.payload) = (o.ra, o.dec, o.band, o.payload) := by
              unfold fillFilter at ho
              split at ho
              · split at ho <;> cases ho; rfl
              · cases ho; rfl
            simp only [List.map_cons, this, ih os' hos]
    have tag : ∀ (n : Int) (l : List Obs), (tagIds n l).map (fun o => (o.ra, o.dec, o.band, o.payload)) =
        l.map (fun o => (o.ra, o.dec, o.band, o.payload)) := by
      intro n l
      induction l generalizing n with
      | nil => rfl
      | cons o os ih => simp [tagIds, ih]
    have hk := key _ _ _ hfill
    rw [tag] at hk
    refine ⟨i, tier, sv, hi, List.mem_of_getElem? hj, hf, by rw [hix], hb, hun, ?_, ?_⟩
    · have := congrArg List.length hk
      rw [hq]; simpa [QM.setQueue] using this
    · rw [hq]; exact hk

/-- C08: within the tier, the chosen survey has the largest best value, and every earlier
survey of the tier a strictly smaller one (or only nan). -/
theorem C08_best_survey (E : Env C Sv A) (s s' : Core C Sv A) (c : C) (ev : List Ev) (i j : Nat)
    (hc : s.conditions = some c) (h : s.fillQueue E = .ok (s', ev)) (hix : s'.surveyIndex = (some i, some j)) :
    ∃ tier sv r, s.tiers[i]? = some tier ∧ tier[j]? = some sv ∧ BestValue E c sv r ∧
      (∀ v ∈ tier, ∀ x ∈ (E.sv.reward v c).1, x = .nan ∨ XReal.leB x r = true) ∧
      (∀ k < j, ∀ v, tier[k]? = some v → ∀ x ∈ (E.sv.reward v c).1, x = .nan ∨ XReal.ltB x r = true) := by
  rcases fillQueue_spec hc h with ⟨_, _, h3, _⟩ | ⟨i', j', tier, sv, filled, hi, hj, hix', _, hf, hle, hlt, _, _, _⟩
  · rw [h3] at hix; cases hix
  · rw [hix'] at hix; cases hix
    have hbv : BestValue E c sv (scalarReward (E.sv.reward sv c).1) := by
      rcases scalarReward_max (E.sv.reward sv c).1 with ⟨hn, hall⟩ | h
      · exfalso
        obtain ⟨r, hr, hr'⟩ := hf
        rw [hall r hr] at hr'; simp [XReal.ltB] at hr'
      · exact ⟨h.2.1, h.1, h.2.2⟩
    refine ⟨tier, sv, _, hi, hj, hbv, ?_, ?_⟩
    · intro v hv x hx
      rcases scalarReward_max (E.sv.reward v c).1 with ⟨_, hall⟩ | ⟨h1, _, h3⟩
      · exact Or.inl (hall x hx)
      · rcases h3 x hx with h | h
        · exact Or.inl h
        · rcases hle v hv with h' | h'
          · exact absurd h' h1
          · exact Or.inr (XReal.leB_trans h h')
    · intro k hk v hv x hx
      rcases scalarReward_max (E.sv.reward v c).1 with ⟨_, hall⟩ | ⟨h1, _, h3⟩
      · exact Or.inl (hall x hx)
      · rcases h3 x hx with h | h
        · exact Or.inl h
        · rcases hlt k hk v hv with h' | h'
          · exact absurd h' h1
          · right
            generalize scalarReward (E.sv.reward v c).1 = a at *
            generalize scalarReward (E.sv.reward sv c).1 = b at *
            cases x <;> cases a <;> cases b <;> simp_all [XReal.leB, XReal.ltB]
            exact lt_of_le_of_lt h h'

/-- In the test scheduler the second survey of the second tier wins (tie with the third). -/
example : (match ({ toyS with conditions := some ⟨60000, none⟩ } : Core ToyC ToySv Unit).fillQueue toyE with
    | .ok (s, _) => (s.surveyIndex, s.qm.desired.map (fun o => (o.targetId, o.filter)))
    | .error _ => ((none, none), [])) = ((some 1, some 1), [(7, "g_6"), (8, "i_03")]) := by decide +kernel

/-! ### C09 -/

/-- A refill attempt that leads nowhere: no survey in any tier is feasible, or the best
survey's visits are all rejected by the queue manager (in particular if it has none). -/
def FutileFill (E : Env C Sv A) (s0 : Core C Sv A) (c : C) (whole : Bool) : Prop :=
  (∀ t ∈ s0.tiers, ∀ sv ∈ t, ¬ Feasible E.sv c sv) ∨
  (∃ s1 ev, s0.fillQueue E = .ok (s1, ev) ∧ (s1.qm.desired = [] ∨ (s1.qm.request E.q c whole).1 = []))

/-- C09: `None` is only returned if nothing waiting in the queue is valid and the last refill
attempt was futile. -/
theorem C09_none (E : Env C Sv A) (s s' : Core C Sv A) (m : Option ℚ) (w : Bool) (ev : List Ev) (c : C)
    (hc : s.conditions = some c) (h : s.request E m w = .ok (s', none, ev)) :
    (s.qm.nonePending = true ∨ (s.qm.request E.q c w).1 = []) ∧
    (FutileFill E s c w ∨
     -- the queue had to be emptied first
     (∃ q : QM A, q.desired = [] ∧ FutileFill E { s with qm := q } c w) ∨
     -- a first refill was rejected as a whole, and so was a second one
     (∃ s1 ev1 q, s.fillQueue E = .ok (s1, ev1) ∧ (s1.qm.request E.q c w).1 = [] ∧ q.desired = [] ∧
       FutileFill E { s1 with qm := q } c w)) := by
  obtain ⟨c', s1, ev1, hc', hfirst, hrest⟩ := request_cases h
  rw [hc] at hc'; cases hc'
  have fut : ∀ s0 s3 : Core C Sv A, ∀ ev2, s0.fillQueue E = .ok (s3, ev2) →
      (s3.qm.request E.q c w).1 = [] → FutileFill E s0 c w :=
    fun s0 s3 ev2 hf hr => Or.inr ⟨s3, ev2, hf, Or.inr hr⟩
  rcases hrest with ⟨hp, _, _, _⟩ | ⟨_, _, _, hn, _⟩ | ⟨hp, hr, s3, ev2, hf, _, _, hout⟩
  · rcases hfirst with ⟨hp0, hf⟩ | ⟨hp0, rfl, _⟩
    · refine ⟨Or.inl hp0, Or.inl ?_⟩
      rcases fillQueue_cases hf with ⟨h1, _, _⟩ | ⟨obs, filled, hfi, h1, _, _⟩
      · exact Or.inr ⟨s1, ev1, hf, Or.inl (by rw [h1]; rfl)⟩
      · refine Or.inr ⟨s1, ev1, hf, Or.inl ?_⟩
        rw [h1] at hp ⊢
        cases filled with
        | nil => rfl
        | cons a as => simp [QM.setQueue, QM.nonePending, List.replicate_succ] at hp
    · rw [hp0] at hp; cases hp
  · cases hn
  · have hr3 : (s3.qm.request E.q c w).1 = [] := by
      rcases hout with ⟨h, _⟩ | ⟨_, h⟩
      · exact h
      · cases h
    rcases hfirst with ⟨hp0, hf0⟩ | ⟨hp0, rfl, _⟩
    · exact ⟨Or.inl hp0, Or.inr (Or.inr ⟨s1, ev1, _, hf0, hr, rfl, fut _ _ _ hf hr3⟩)⟩
    · exact ⟨Or.inr hr, Or.inr (Or.inl ⟨_, rfl, fut _ _ _ hf hr3⟩)⟩

/-- C09, other direction: with an infeasible tier list and an empty queue, the answer is
`None` (a tier without surveys raises instead). -/
theorem C09_infeasible_gives_none (E : Env C Sv A) (s s' : Core C Sv A) (m : Option ℚ) (w : Bool)
    (out : Option (List Obs)) (ev : List Ev) (c : C) (hc : s.conditions = some c) (hq : s.qm.nonePending = true)
    (hinf : ∀ t ∈ s.tiers, ∀ sv ∈ t, ¬ Feasible E.sv c sv)
    (h : s.request E m w = .ok (s', out, ev)) : out = none := by
  obtain ⟨c', s1, ev1, hc', hfirst, hrest⟩ := request_cases h
  rw [hc] at hc'; cases hc'
  rcases hfirst with ⟨_, hf⟩ | ⟨hp, _, _⟩
  · have hnp : s1.qm.nonePending = true := by
      rcases fillQueue_spec hc hf with ⟨_, h2, _, _⟩ | ⟨i, j, tier, sv, filled, hi, hj, _, _, hfe, _⟩
      · rw [h2]; rfl
      · exact absurd hfe (hinf tier (List.mem_of_getElem? hi) sv (List.mem_of_getElem? hj))
    rcases hrest with ⟨_, _, hn, _⟩ | ⟨hp, _⟩ | ⟨hp, _⟩
    · exact hn
    · rw [hnp] at hp; cases hp
    · rw [hnp] at hp; cases hp
  · rw [hq] at hp; cases hp

example : (match (({ toyS with tiers := toyS.tiers.take 1 } : Core ToyC ToySv Unit).update toyE ⟨60000, none⟩).request toyE none false with
    | .ok (_, none, _) => true | _ => false) = true := by decide +kernel

/-! ### C11 -/

/-- Alert ids shown by an `update_conditions` call. -/
def alertIds (E : Env C Sv A) : Op C → List Int
  | .update c => ((E.toos c).getD []).map Prod.fst
  | _ => []

theorem request_too {E : Env C Sv A} {s s' : Core C Sv A} {m : Option ℚ} {w : Bool}
    {out : Option (List Obs)} {ev : List Ev} (h : s.request E m w = .ok (s', out, ev)) :
    s'.tooIds = s.tooIds ∧ s'.flushForNewToo = s.flushForNewToo := by
  obtain ⟨c, s1, ev1, _, hfirst, hrest⟩ := request_cases h
  have h1 : s1.tooIds = s.tooIds ∧ s1.flushForNewToo = s.flushForNewToo := by
    rcases hfirst with ⟨_, hf⟩ | ⟨_, rfl, _⟩
    · exact ⟨(fillQueue_frame hf).2.1, (fillQueue_frame hf).2.2.1⟩
    · exact ⟨rfl, rfl⟩
  rcases hrest with ⟨_, rfl, _, _⟩ | ⟨_, _, rfl, _, _⟩ | ⟨_, _, s3, ev2, hf, rfl, _, _⟩
  · exact h1
  · exact h1
  · have h3 := fillQueue_frame hf
    exact ⟨h3.2.1.trans h1.1, h3.2.2.1.trans h1.2⟩

theorem step_too {E : Env C Sv A} {s s' : Core C Sv A} {op : Op C} {out : Option (List Obs)} {ev : List Ev}
    (h : s.step E op = .ok (s', out, ev)) (hf : s.flushForNewToo = true) :
    s'.flushForNewToo = true ∧ ∀ i, i ∈ s'.tooIds ↔ i ∈ s.tooIds ∨ i ∈ alertIds E op := by
  cases op with
  | request m w =>
    have := request_too (m := m) h
    exact ⟨by rw [this.2, hf], by simp [this.1, alertIds]⟩
  | add o => cases h; exact ⟨hf, by simp [alertIds, Core.addObs]⟩
  | addArr l =>
    simp only [step] at h
    split at h
    · cases h
    · rename_i s1 ev1 h1
      cases h
      have : s'.tooIds = s.tooIds ∧ s'.flushForNewToo = s.flushForNewToo := by
        unfold Core.addArr at h1
        split at h1
        · cases h1; exact ⟨rfl, rfl⟩
        · simp only at h1
          split at h1
          · cases h1
          · cases h1; exact ⟨rfl, rfl⟩
      exact ⟨by rw [this.2, hf], by simp [this.1, alertIds]⟩
  | flush => cases h; exact ⟨hf, by simp [alertIds, Core.flush]⟩
  | append l => cases h; exact ⟨hf, by simp [alertIds]⟩
  | mark o => cases h; exact ⟨hf, by simp [alertIds]⟩
  | update c =>
    cases h
    have : (s.tooStep E c).flushForNewToo = true ∧
        ∀ i, i ∈ (s.tooStep E c).tooIds ↔ i ∈ s.tooIds ∨ i ∈ ((E.toos c).getD []).map Prod.fst := by
      unfold tooStep
      rw [if_pos hf]
      cases ht : E.toos c with
      | none => exact ⟨hf, by simp⟩
      | some ts =>
        simp only [Option.getD_some]
        have key : ∀ i, i ∈ s.tooIds ++ ((ts.filter (fun t => !s.tooIds.contains t.1)).map Prod.fst).dedup ↔
            i ∈ s.tooIds ∨ i ∈ ts.map Prod.fst := by
          intro i
          rw [List.mem_append, List.mem_dedup]
          constructor
          · rintro (h | h)
            · exact Or.inl h
            · obtain ⟨t, ht, rfl⟩ := List.mem_map.mp h
              exact Or.inr (List.mem_map.mpr ⟨t, (List.mem_filter.mp ht).1, rfl⟩)
          · rintro (h | h)
            · exact Or.inl h
            · by_cases hi : i ∈ s.tooIds
              · exact Or.inl hi
              · obtain ⟨t, ht, rfl⟩ := List.mem_map.mp h
                exact Or.inr (List.mem_map.mpr ⟨t, List.mem_filter.mpr ⟨ht, by simpa using hi⟩, rfl⟩)
        split
        · exact ⟨hf, key⟩
        · exact ⟨hf, key⟩
    exact this
  | setCounter n => cases h; exact ⟨hf, by simp [alertIds]⟩

theorem run_too {E : Env C Sv A} {s s' : Core C Sv A} {ops : List (Op C)} {outs : List Obs} {evs : List Ev}
    (h : run E s ops = .ok (s', outs, evs)) (hf : s.flushForNewToo = true) :
    s'.flushForNewToo = true ∧ ∀ i, i ∈ s'.tooIds ↔ i ∈ s.tooIds ∨ ∃ op ∈ ops, i ∈ alertIds E op := by
  induction ops generalizing s outs evs with
  | nil => cases h; exact ⟨hf, by simp⟩
  | cons op ops ih =>
    unfold run at h
    split at h
    · cases h
    · rename_i s1 out ev h1
      split at h
      · cases h
      · rename_i s2 outs' evs' h2
        cases h
        have hs := step_too h1 hf
        have hr := ih h2 hs.1
        refine ⟨hr.1, ?_⟩
        intro i
        rw [hr.2, hs.2]
        simp only [List.mem_cons, exists_eq_or_imp]
        tauto

/-- The update empties the queue exactly when it shows an alert, asking for a flush, whose id
was in no earlier update of the history; otherwise the queue and the record of the last
survey are untouched. -/
theorem C11_flush_iff_new (E : Env C Sv A) (a : A) (tiers : List (List Sv)) (n : Int)
    (d : List (String × String)) (s : Core C Sv A) (ops : List (Op C)) (outs : List Obs) (evs : List Ev) (c : C)
    (h : run E (init a tiers n true d) ops = .ok (s, outs, evs)) :
    ((∃ id, (id, true) ∈ (E.toos c).getD [] ∧ ∀ op ∈ ops, id ∉ alertIds E op) →
      (s.update E c).qm.desired = [] ∧ (s.update E c).qm.need = []) ∧
    ((¬ ∃ id, (id, true) ∈ (E.toos c).getD [] ∧ ∀ op ∈ ops, id ∉ alertIds E op) →
      (s.update E c).qm = s.qm ∧ (s.update E c).surveyIndex = s.surveyIndex) := by
  have hr := run_too h rfl
  have hids : ∀ i, i ∈ s.tooIds ↔ ∃ op ∈ ops, i ∈ alertIds E op := by
    intro i; rw [hr.2]; simp [init]
  show ((_ → (s.tooStep E c).qm.desired = [] ∧ (s.tooStep E c).qm.need = []) ∧
    (_ → (s.tooStep E c).qm = s.qm ∧ (s.tooStep E c).surveyIndex = s.surveyIndex))
  unfold tooStep
  rw [if_pos hr.1]
  cases ht : E.toos c with
  | none => simp
  | some ts =>
    simp only [Option.getD_some]
    have hany : (ts.filter (fun t => !s.tooIds.contains t.1)).any (fun t => t.2) = true ↔
        ∃ id, (id, true) ∈ ts ∧ ∀ op ∈ ops, id ∉ alertIds E op := by
      rw [List.any_eq_true]
      constructor
      · rintro ⟨t, hm, h2⟩
        obtain ⟨hm1, hm2⟩ := List.mem_filter.mp hm
        refine ⟨t.1, ?_, ?_⟩
        · rw [← h2]; exact hm1
        · have hn : t.1 ∉ s.tooIds := by simpa using hm2
          intro op hop hi
          exact hn ((hids t.1).mpr ⟨op, hop, hi⟩)
      · rintro ⟨id, hm, hno⟩
        refine ⟨(id, true), List.mem_filter.mpr ⟨hm, ?_⟩, rfl⟩
        have : id ∉ s.tooIds := by
          rw [hids]; rintro ⟨op, hop, hi⟩; exact hno op hop hi
        simpa using this
    constructor
    · intro hx
      rw [if_pos (hany.mpr hx)]
      exact ⟨rfl, rfl⟩
    · intro hx
      rw [if_neg (fun hc => hx (hany.mp hc))]
      exact ⟨rfl, rfl⟩

/-- C11: an update that shows only alert ids seen in earlier updates never flushes. -/
theorem C11_seen_never_flushes (E : Env C Sv A) (a : A) (tiers : List (List Sv)) (n : Int)
    (d : List (String × String)) (s : Core C Sv A) (ops : List (Op C)) (outs : List Obs) (evs : List Ev) (c : C)
    (h : run E (init a tiers n true d) ops = .ok (s, outs, evs))
    (hseen : ∀ x ∈ (E.toos c).getD [], ∃ op ∈ ops, x.1 ∈ alertIds E op) :
    (s.update E c).qm = s.qm ∧ (s.update E c).surveyIndex = s.surveyIndex := by
  apply (C11_flush_iff_new E a tiers n d s ops outs evs c h).2
  rintro ⟨id, hm, hno⟩
  obtain ⟨op, hop, hi⟩ := hseen _ hm
  exact hno op hop hi

/-- With the option off, no alert ever flushes the queue. -/
theorem C11_option_off (E : Env C Sv A) (s : Core C Sv A) (c : C) (hf : s.flushForNewToo = false) :
    (s.update E c).qm = s.qm := by
  show (s.tooStep E c).qm = s.qm
  unfold tooStep; simp [hf]

example : digest (run toyE toyS [.update ⟨60000, none⟩, .request none false, .update ⟨60000, some [(1, true)]⟩])
      = some ([7], [.assigned 7, .assigned 8], 9, []) := by decide +kernel

example : digest (run toyE toyS [.update ⟨60000, some [(1, false)]⟩, .request none false, .update ⟨60000, some [(1, true)]⟩])
      = some ([7], [.assigned 7, .assigned 8], 9, [(7, true), (8, true)]) := by decide +kernel

/-! ### C12 -/

/-- All times reported by the surveys, in survey order. -/
def reportedTimes (E : Env C Sv A) (tiers : List (List Sv)) : List ℚ :=
  (tiers.flatten.filterMap (fun v => E.sv.scheduled v)).flatten

/-- C12: after an update the scheduled times are sorted, none lies before now, and they are
exactly (with multiplicity) the times at or after now reported by the updated surveys. -/
theorem C12_scheduled (E : Env C Sv A) (s : Core C Sv A) (c : C) :
    (s.update E c).scheduled.Pairwise (· ≤ ·) ∧
    (∀ t ∈ (s.update E c).scheduled, E.q.mjdOf c ≤ t) ∧
    (∀ t, (s.update E c).scheduled.count t =
      if E.q.mjdOf c ≤ t then (reportedTimes E (s.update E c).tiers).count t else 0) := by
  have hsort : ((reportedTimes E (s.update E c).tiers).insertionSort (fun a b => a ≤ b)).Pairwise (· ≤ ·) :=
    List.pairwise_insertionSort _ _
  have hdef : (s.update E c).scheduled =
      ((reportedTimes E (s.update E c).tiers).insertionSort (fun a b => a ≤ b)).filter
        (fun t => decide (E.q.mjdOf c ≤ t)) := rfl
  rw [hdef]
  refine ⟨hsort.filter _, ?_, ?_⟩
  · intro t ht
    simpa using (List.mem_filter.mp ht).2
  · intro t
    split
    · rename_i hle
      rw [List.count_filter (by simpa using hle)]
      exact (List.perm_insertionSort _ _).count_eq t
    · rename_i hle
      apply List.count_eq_zero.mpr
      intro hm
      exact hle (by simpa using (List.mem_filter.mp hm).2)

example : (toyS.update toyE ⟨60000, none⟩).scheduled = [60005, 60010] := by decide +kernel

/-! ### C13 -/

/-- Feed the visits one at a time. -/
def addEach (E : Env C Sv A) (s : Core C Sv A) (l : List Obs) : Core C Sv A :=
  l.foldl (fun s o => (s.addObs E o).1) s

theorem counter_unique {n a b : Int} {ids : List Int}
    (ha : n ≤ a ∧ (∀ i ∈ ids, i < a) ∧ (a = n ∨ ∃ i ∈ ids, a = i + 1))
    (hb : n ≤ b ∧ (∀ i ∈ ids, i < b) ∧ (b = n ∨ ∃ i ∈ ids, b = i + 1)) : a = b := by
  obtain ⟨a1, a2, a3⟩ := ha
  obtain ⟨b1, b2, b3⟩ := hb
  rcases a3 with a3 | ⟨i, hi, a3⟩ <;> rcases b3 with b3 | ⟨j, hj, b3⟩
  · omega
  · have := a2 j hj; omega
  · have := b2 i hi; omega
  · have := a2 j hj; have := b2 i hi; omega

theorem backfillBand_id (o : Obs) : (backfillBand o).targetId = o.targetId := by
  unfold backfillBand; split <;> rfl

theorem addEach_counter (E : Env C Sv A) (s : Core C Sv A) (l : List Obs) :
    s.counter ≤ (addEach E s l).counter ∧ (∀ i ∈ l.map Obs.targetId, i < (addEach E s l).counter) ∧
    ((addEach E s l).counter = s.counter ∨ ∃ i ∈ l.map Obs.targetId, (addEach E s l).counter = i + 1) := by
  induction l generalizing s with
  | nil => exact ⟨le_refl _, by simp, Or.inl rfl⟩
  | cons o os ih =>
    obtain ⟨h1, h2, h3⟩ := ih (s.addObs E o).1
    have hc : (s.addObs E o).1.counter = bump s.counter o.targetId := by
      show bump s.counter (backfillBand o).targetId = _
      rw [backfillBand_id]
    have hb := bump_ge s.counter o.targetId
    have hbc : bump s.counter o.targetId = s.counter ∨ bump s.counter o.targetId = o.targetId + 1 := by
      unfold bump; split
      · exact Or.inr rfl
      · exact Or.inl rfl
    rw [hc] at h1 h3
    have hE : addEach E s (o :: os) = addEach E (s.addObs E o).1 os := rfl
    rw [hE]
    refine ⟨le_trans hb.1 h1, ?_, ?_⟩
    · intro i hi
      rcases List.mem_cons.mp hi with rfl | hi
      · exact lt_of_lt_of_le hb.2 h1
      · exact h2 i hi
    · rcases h3 with h3 | ⟨i, hi, h3⟩
      · rcases hbc with h | h
        · left; rw [h3, h]
        · right; exact ⟨o.targetId, by simp, by rw [h3, h]⟩
      · right; exact ⟨i, List.mem_cons_of_mem _ hi, h3⟩

theorem addEach_rows (E : Env C Sv A) (s : Core C Sv A) (l : List Obs) (ha : s.qm.Aligned) :
    rows (addEach E s l).qm = (rows s.qm).map (fun r => if r.1.targetId ∈ l.map Obs.targetId then (r.1, false) else r) := by
  induction l generalizing s with
  | nil => simp [addEach]
  | cons o os ih =>
    have hE : addEach E s (o :: os) = addEach E (s.addObs E o).1 os := rfl
    rw [hE, ih _ (qaddObs_aligned _ _ _ ha)]
    have h1 : rows (s.addObs E o).1.qm = _ := (C10_refines E.q s.qm ha).2.2.2.2.1 (backfillBand o)
    rw [h1, List.map_map]
    apply List.map_congr_left
    intro r _
    simp only [Function.comp, backfillBand_id, List.map_cons, List.mem_cons]
    by_cases h : r.1.targetId = o.targetId
    · simp only [h, true_or, if_true]; split <;> rfl
    · simp [h]

/-- C13: for every non-empty batch the pending flags and the id counter end up the same. -/
theorem C13_bulk_eq_each (E : Env C Sv A) (s : Core C Sv A) (l : List Obs) (hl : l ≠ []) (ha : s.qm.Aligned) :
    ∃ s' ev, s.addArr E l = .ok (s', ev) ∧ rows s'.qm = rows (addEach E s l).qm ∧
      s'.counter = (addEach E s l).counter := by
  have hperm := (List.perm_insertionSort (fun a b : Obs => a.mjd ≤ b.mjd) (l.map backfillBand)).map Obs.targetId
  have hids : (l.map backfillBand).map Obs.targetId = l.map Obs.targetId := by
    rw [List.map_map]; apply List.map_congr_left; intro o _; exact backfillBand_id o
  cases h : s.addArr E l with
  | error e =>
    exfalso
    unfold Core.addArr at h
    split at h
    · cases h
    · simp only at h
      split at h
      · rename_i heq
        have : (l.map backfillBand).length = 0 := by
          have h2 := (List.perm_insertionSort (fun a b : Obs => a.mjd ≤ b.mjd) (l.map backfillBand)).length_eq
          rw [heq] at h2; simpa using h2.symm
        simp at this
        exact hl this
      · cases h
  | ok p =>
    obtain ⟨s', ev⟩ := p
    refine ⟨s', ev, rfl, ?_, ?_⟩
    · rcases addArr_cases h with ⟨o, rfl, rfl, _⟩ | ⟨o, os, hs, hq, _, _⟩
      · rfl
      · rw [hq, addEach_rows E s l ha, (C10_refines E.q s.qm ha).2.2.2.2.2.1]
        apply List.map_congr_left
        intro r _
        have : r.1.targetId ∈ (o :: os).map Obs.targetId ↔ r.1.targetId ∈ l.map Obs.targetId := by
          rw [← hs, hperm.mem_iff, hids]
        by_cases hr : r.1.targetId ∈ l.map Obs.targetId
        · rw [if_pos hr, if_pos (this.mpr hr)]
        · rw [if_neg hr, if_neg (fun hc => hr (this.mp hc))]
    · rcases addArr_cases h with ⟨o, rfl, rfl, _⟩ | ⟨o, os, hs, _, hc, _⟩
      · rfl
      · apply counter_unique (n := s.counter) (ids := l.map Obs.targetId) _ (addEach_counter E s l)
        rw [hc]
        have hmem : ∀ i, i ∈ (o :: os).map Obs.targetId ↔ i ∈ l.map Obs.targetId := by
          intro i; rw [← hs, hperm.mem_iff, hids]
        have hb := bump_ge s.counter (maxId o os)
        refine ⟨hb.1, ?_, ?_⟩
        · intro i hi
          obtain ⟨x, hx, rfl⟩ := List.mem_map.mp ((hmem i).mpr hi)
          exact lt_of_le_of_lt (maxId_ge o os x hx) hb.2
        · unfold bump
          split
          · right
            obtain ⟨x, hx, he⟩ := maxId_mem o os
            exact ⟨x.targetId, (hmem _).mp (List.mem_map.mpr ⟨x, hx, rfl⟩), by rw [he]⟩
          · exact Or.inl rfl

/-- The empty batch raises (maximum of an empty array), while feeding no visits does nothing. -/
theorem C13_empty_batch_raises (E : Env C Sv A) (s : Core C Sv A) :
    s.addArr E [] = .error .emptyArray ∧ addEach E s [] = s := by
  constructor
  · simp [Core.addArr]
  · rfl

/-- C59: the queue manager's own basis functions and detailers are told of every completed
visit, however it is fed. It fails: with an empty queue a batch is not passed on
(queue_manager.py 81-91), while single visits are (71-78). The environment counts the
visits it has been told of. -/
theorem C59_violated :
    let E : Env ToyC ToySv Nat :=
      { q := { mjdOf := ToyC.mjd, reward := fun _ _ => [.fin 0], hpid := fun _ _ _ => 0,
               detail := fun a _ l => (l, a), addObs := fun a _ => a + 1, addArr := fun a l => a + l.length }
        sv := toyE.sv, toos := ToyC.toos }
    let s : Core ToyC ToySv Nat := init 0 [] 0 true []
    let batch : List Obs := [{ targetId := 1, mjd := 60000 }, { targetId := 2, mjd := 60001 }]
    (addEach E s batch).qm.aux = 2 ∧
    (match s.addArr E batch with | .ok (s', _) => s'.qm.aux | .error _ => 99) = 0 := by
  decide +kernel

/-- C59, what holds: with a non-empty queue the batch is passed on. Missing: an empty queue. -/
theorem C59_nonempty_queue_partial (E : Env C Sv A) (s : Core C Sv A) (l : List Obs)
    (hq : s.qm.desired ≠ []) :
    (s.qm.addArr E.q l).aux = E.q.addArr s.qm.aux l := by
  unfold QM.addArr
  rw [if_pos (List.length_pos_iff.mpr hq)]

/-! ### C14 -/

/-- What a queued visit looks like compared with the visit `o` the survey generated. -/
def Filled (d : List (String × String)) (o o' : Obs) : Prop :=
  (o.filter ≠ "" → o'.filter = o.filter) ∧
  (o.filter = "" → d ≠ [] → d.lookup o.band = some o'.filter) ∧
  (o.filter = "" → d = [] → o'.filter = "") ∧
  { o' with targetId := o.targetId, filter := o.filter } = o

theorem fillFilters_forall (d : List (String × String)) : ∀ (n : Int) (l l' : List Obs),
    fillFilters d (tagIds n l) = .ok l' → List.Forall₂ (Filled d) l l' := by
  intro n l
  induction l generalizing n with
  | nil => intro l' h; cases h; exact List.Forall₂.nil
  | cons o os ih =>
    intro l' h
    simp only [tagIds] at h
    unfold fillFilters at h
    split at h
    · cases h
    · rename_i o' ho
      split at h
      · cases h
      · rename_i os' hos
        cases h
        refine List.Forall₂.cons ?_ (ih _ _ hos)
        unfold fillFilter at ho
        simp only at ho
        split at ho
        · rename_i hcond
          split at ho
          · rename_i f hlk
            cases ho
            refine ⟨fun h => absurd hcond.1 h, fun _ _ => hlk, ?_, rfl⟩
            intro _ hd; rw [hd] at hcond; simp at hcond
          · cases ho
        · rename_i hcond
          cases ho
          refine ⟨fun _ => rfl, ?_, fun h _ => h, rfl⟩
          intro h1 h2
          exact absurd ⟨h1, List.length_pos_iff.mpr h2⟩ hcond

/-- C14 (a): after a fill, every queued visit is the generated one, except for the new id and,
if it had no filter, the filter mapped from its band (an unmapped band raises instead). With
a mapping, no queued visit is left without a filter unless the mapping says so. -/
theorem C14_fill (E : Env C Sv A) (s s' : Core C Sv A) (c : C) (ev : List Ev) (i j : Nat)
    (hc : s.conditions = some c) (h : s.fillQueue E = .ok (s', ev)) (hix : s'.surveyIndex = (some i, some j)) :
    ∃ tier sv, s.tiers[i]? = some tier ∧ tier[j]? = some sv ∧
      List.Forall₂ (Filled s.bandToFilter) (E.sv.gen (E.sv.reward sv c).2 c).1 s'.qm.desired := by
  rcases fillQueue_spec hc h with ⟨_, _, h3, _⟩ | ⟨i', j', tier, sv, filled, hi, hj, hix', _, _, _, _, hfill, hq, _⟩
  · rw [h3] at hix; cases hix
  · rw [hix'] at hix; cases hix
    exact ⟨tier, sv, hi, hj, by rw [hq]; exact fillFilters_forall _ _ _ _ hfill⟩

/-- C14 (b): a recorded visit keeps its band if it has one; otherwise the band becomes the
filter name without its trailing digits and underscores. Nothing else changes. -/
theorem C14_backfill (o : Obs) :
    (o.band ≠ "" → backfillBand o = o) ∧
    (o.band = "" → ∃ suffix : List Char, o.filter.toList = (backfillBand o).band.toList ++ suffix ∧
      (∀ ch ∈ suffix, ch = '_' ∨ ch.isDigit = true) ∧
      (∀ ch, (backfillBand o).band.toList.getLast? = some ch → ¬ (ch = '_' ∨ ch.isDigit = true)) ∧
      { backfillBand o with band := "" } = o) := by
  have hch : ∀ ch : Char, stripChars.contains ch = true ↔ (ch = '_' ∨ ch.isDigit = true) := by
    intro ch
    have h1 : stripChars = ['_', '0', '1', '2', '3', '4', '5', '6', '7', '8', '9'] := by decide +kernel
    rw [h1, List.contains_iff_mem]
    simp only [List.mem_cons, List.not_mem_nil, or_false]
    have hd : ch.isDigit = true ↔ (ch = '0' ∨ ch = '1' ∨ ch = '2' ∨ ch = '3' ∨ ch = '4' ∨ ch = '5' ∨
        ch = '6' ∨ ch = '7' ∨ ch = '8' ∨ ch = '9') := by
      constructor
      · intro h
        simp only [Char.isDigit, Bool.and_eq_true, decide_eq_true_eq] at h
        obtain ⟨ha, hb⟩ := h
        have h3 : 48 ≤ ch.val.toNat := ha
        have h4 : ch.val.toNat ≤ 57 := hb
        have : ∀ d : Char, ch.val.toNat = d.val.toNat → ch = d := by
          intro d hd; exact Char.ext (UInt32.toNat_inj.mp hd)
        have h5 : ch.val.toNat = 48 ∨ ch.val.toNat = 49 ∨ ch.val.toNat = 50 ∨ ch.val.toNat = 51 ∨
          ch.val.toNat = 52 ∨ ch.val.toNat = 53 ∨ ch.val.toNat = 54 ∨ ch.val.toNat = 55 ∨
          ch.val.toNat = 56 ∨ ch.val.toNat = 57 := by omega
        rcases h5 with h | h | h | h | h | h | h | h | h | h
        · left; exact this '0' h
        · right; left; exact this '1' h
        · right; right; left; exact this '2' h
        · right; right; right; left; exact this '3' h
        · right; right; right; right; left; exact this '4' h
        · right; right; right; right; right; left; exact this '5' h
        · right; right; right; right; right; right; left; exact this '6' h
        · right; right; right; right; right; right; right; left; exact this '7' h
        · right; right; right; right; right; right; right; right; left; exact this '8' h
        · right; right; right; right; right; right; right; right; right; exact this '9' h
      · rintro (rfl | rfl | rfl | rfl | rfl | rfl | rfl | rfl | rfl | rfl) <;> decide
    rw [hd]
  constructor
  · intro h; unfold backfillBand; rw [if_neg h]
  · intro h
    have hb : backfillBand o = { o with band := rstrip o.filter } := by unfold backfillBand; rw [if_pos h]
    rw [hb]
    simp only
    refine ⟨(o.filter.toList.reverse.takeWhile (fun ch => stripChars.contains ch)).reverse, ?_, ?_, ?_, ?_⟩
    · unfold rstrip
      rw [String.toList_ofList, ← List.reverse_append, List.takeWhile_append_dropWhile, List.reverse_reverse]
    · intro ch hm
      rw [List.mem_reverse] at hm
      exact (hch ch).mp (List.mem_takeWhile_imp hm)
    · intro ch hl
      unfold rstrip at hl
      rw [String.toList_ofList, List.getLast?_reverse] at hl
      rw [← hch]
      have := List.head?_dropWhile_not (fun ch => stripChars.contains ch) o.filter.toList.reverse
      rw [hl] at this
      simpa using this
    · rw [← h]

example : (backfillBand { targetId := 1, filter := "i_06" }).band = "i" ∧
    (backfillBand { targetId := 1, filter := "i_06", band := "z" }).band = "z" := by decide +kernel

end Verif
