import Verif.Lemmas.Quota

/-!
How marked visits of a simulation follow each other when surveys offer them only some time after those heard of.
-/

namespace Verif

open Whole Core

section
variable {C Sv A : Type}

/-- Surveys that offer marked visits, at most `L` at once, only when the last of them heard of was at least `delay` ago. `Heard ts` says that the survey has heard of marked
visits at the times `ts`. -/
structure Waits (E : Env C Sv A) (mark : String → Bool) (delay : ℚ) (L : ℕ) where
  Heard : List ℚ → Sv → Prop
  reward : ∀ {ts s} c, Heard ts s → Heard ts (E.sv.reward s c).2
  gen : ∀ {ts s} c, Heard ts s → Heard ts (E.sv.gen s c).2
  update : ∀ {ts s} c, Heard ts s → Heard ts (E.sv.update s c)
  hear : ∀ {ts s} o, Heard ts s → Heard (ts ++ if mark o.schedulerNote then [o.mjd] else []) (E.sv.addObs s o)
  limit : ∀ {ts s} c, Heard ts s → markedIn mark (E.sv.gen s c).1 = 0 ∨ (markedIn mark (E.sv.gen s c).1 ≤ L ∧ ∀ t ∈ ts.getLast?, t + delay ≤ E.q.mjdOf c)

variable {E : Env C Sv A} {mark : String → Bool} {delay : ℚ} {L : ℕ}

/-- Of the marked visits only those of the last sequence are less than the delay before `bar`, and with those in the queue there are at most `L` of them. -/
structure HeldDelay (Q : Waits E mark delay L) (bar : ℚ) (ts : List ℚ) (s : Core C Sv A) : Prop where
  surveys : AllSurveys (Q.Heard ts) s
  queue : ∃ old new : List ℚ, ts = old ++ new ∧ (∀ t ∈ old, t + delay ≤ bar) ∧ new.length + markedIn mark s.qm.active ≤ L
  aligned : s.qm.Aligned
  known : ∀ c, s.conditions = some c → E.q.mjdOf c ≤ bar
  order : ts.Pairwise (· ≤ ·)
  made : ∀ t ∈ ts, t ≤ bar

theorem HeldDelay.later {Q : Waits E mark delay L} {x y : ℚ} {ts : List ℚ} {s : Core C Sv A} (h : HeldDelay Q x ts s) (hxy : x ≤ y) : HeldDelay Q y ts s := by
  obtain ⟨old, new, e, ho, hl⟩ := h.queue
  exact ⟨h.surveys, ⟨old, new, e, fun t ht => (ho t ht).trans hxy, hl⟩, h.aligned, fun c hc => (h.known c hc).trans hxy, h.order, fun t ht => (h.made t ht).trans hxy⟩

theorem HeldDelay.queue_eq {Q : Waits E mark delay L} {bar : ℚ} {ts : List ℚ} {s s' : Core C Sv A} (h : HeldDelay Q bar ts s) (h1 : s'.tiers = s.tiers)
    (h2 : s'.qm.desired = s.qm.desired) (h3 : s'.qm.need = s.qm.need) (h4 : s'.conditions = s.conditions) : HeldDelay Q bar ts s' := by
  have e : s'.qm.active = s.qm.active := by unfold QM.active; rw [h2, h3]
  refine ⟨by unfold AllSurveys; rw [h1]; exact h.surveys, by rw [e]; exact h.queue, ?_, by rw [h4]; exact h.known, h.order, h.made⟩
  have := h.aligned
  unfold QM.Aligned at this ⊢
  rw [h2, h3]; exact this

theorem HeldDelay.bare {Q : Waits E mark delay L} {bar : ℚ} {ts : List ℚ} {s : Core C Sv A} (h : HeldDelay Q bar ts s) :
    ∃ old new : List ℚ, ts = old ++ new ∧ (∀ t ∈ old, t + delay ≤ bar) ∧ new.length + 0 ≤ L := by
  obtain ⟨old, new, e, ho, hl⟩ := h.queue
  exact ⟨old, new, e, ho, by omega⟩

theorem delay_flushed {Q : Waits E mark delay L} {bar : ℚ} {ts : List ℚ} {s s' : Core C Sv A} (h : HeldDelay Q bar ts s) (hs : AllSurveys (Q.Heard ts) s')
    (hq : s'.qm = s.qm.flush) (hk : ∀ c, s'.conditions = some c → E.q.mjdOf c ≤ bar) : HeldDelay Q bar ts s' := by
  refine ⟨hs, ?_, ?_, hk, h.order, h.made⟩
  · rw [hq]
    exact h.bare
  · rw [hq]; rfl

theorem delay_fill {Q : Waits E mark delay L} {bar : ℚ} {ts : List ℚ} {s s' : Core C Sv A} {ev : List Ev} {c : C}
    (hc : s.conditions = some c) (hf : s.fillQueue E = .ok (s', ev)) (h : HeldDelay Q bar ts s) : HeldDelay Q bar ts s' := by
  have hs' : AllSurveys (Q.Heard ts) s' := fillQueue_surveys hc hf (Q.Heard ts) (fun sv hp => Q.reward c hp) (fun sv hp => Q.gen c hp) h.surveys
  obtain ⟨-, hcase⟩ := fillQueue_gives hc hf (Q.Heard ts) (fun sv hp => Q.reward c hp) h.surveys (fun _ => true) (fun _ => rfl) (fun _ => rfl)
  have hk : ∀ c, s'.conditions = some c → E.q.mjdOf c ≤ bar := by rw [(fillQueue_frame hf).1]; exact h.known
  rcases hcase with hq | ⟨sv, k, filled, hsv, hfill, hq, -⟩
  · exact delay_flushed h hs' hq hk
  · have hact : s'.qm.active = filled := by
      rw [hq]
      unfold QM.active QM.setQueue
      exact all_pending filled
    have hc1 := filled_marked (mark := mark) (fillFilters_forall _ _ _ _ hfill)
    refine ⟨hs', ?_, by rw [hq]; exact List.length_replicate, hk, h.order, h.made⟩
    rw [hact, hc1]
    rcases Q.limit c hsv with h0 | ⟨h1, h2⟩
    · rw [h0]
      exact h.bare
    · refine ⟨ts, [], (List.append_nil _).symm, fun t ht => ?_, by rw [List.length_nil]; omega⟩
      obtain ⟨l, x, e⟩ : ∃ l x, ts = l ++ [x] := ⟨ts.dropLast, ts.getLast (List.ne_nil_of_mem ht), (List.dropLast_concat_getLast _).symm⟩
      have hx := h2 x (by rw [e, List.getLast?_concat]; rfl)
      have hord := h.order
      rw [e] at ht hord
      have hle : t ≤ x := by
        rcases List.mem_append.1 ht with ht | ht
        · exact (List.pairwise_append.1 hord).2.2 t ht x (List.mem_singleton.2 rfl)
        · rw [List.mem_singleton.1 ht]
      have := h.known c hc
      linarith

theorem delay_request {Q : Waits E mark delay L} (hdet : DetKeepsNotes E.q) {bar : ℚ} {ts : List ℚ} {s s' : Core C Sv A} {x : ℚ} {r : Option Obs} (h : HeldDelay Q bar ts s)
    (hr : coreRequest E s x = some (s', r)) : HeldDelay Q bar ts s' ∧ ∀ o ∈ r, RowFor s' o := by
  unfold coreRequest at hr
  cases hq : s.request E (some x) false with
  | error e => rw [hq] at hr; cases hr
  | ok z =>
    obtain ⟨s1, l, ev⟩ := z
    rw [hq] at hr
    have hr : some (s1, l.bind List.head?) = some (s', r) := hr
    simp only [Option.some.injEq, Prod.mk.injEq] at hr
    obtain ⟨rfl, rfl⟩ := hr
    obtain ⟨c, s2, ev2, hc, hfirst, hrest⟩ := request_cases hq
    have h2 : HeldDelay Q bar ts s2 ∧ s2.conditions = some c := by
      rcases hfirst with ⟨-, hf⟩ | ⟨-, rfl, -⟩
      · exact ⟨delay_fill hc hf h, (fillQueue_frame hf).1.trans hc⟩
      · exact ⟨h, hc⟩
    have hgive : ∀ u : Core C Sv A, HeldDelay Q bar ts u → HeldDelay Q bar ts { u with qm := (u.qm.request E.q c false).2 }
        ∧ ∀ o ∈ (some ((u.qm.request E.q c false).1.map setNote)).bind List.head?, RowFor { u with qm := (u.qm.request E.q c false).2 } o := by
      intro u hu
      have hqq := qrequest_queue E.q u.qm c false
      refine ⟨hu.queue_eq rfl hqq.1 hqq.2 rfl, ?_⟩
      intro o ho
      have ho := List.mem_of_head? (show ((u.qm.request E.q c false).1.map setNote).head? = some o from ho)
      obtain ⟨o1, ho1, rfl⟩ := List.mem_map.1 ho
      obtain ⟨row, h3, h4, h5⟩ := qrequest_active hdet u.qm hu.aligned c o1 ho1
      have : (u.qm.request E.q c false).2.active = u.qm.active := by unfold QM.active; rw [hqq.1, hqq.2]
      refine ⟨row, ?_, h4, h5⟩
      dsimp only
      rw [this]
      exact h3
    obtain ⟨h2, h2c⟩ := h2
    rcases hrest with ⟨-, rfl, rfl, -⟩ | ⟨-, -, rfl, rfl, -⟩ | ⟨-, -, s3, ev3, hf, rfl, -, hout⟩
    · exact ⟨h2, by rintro o ⟨⟩⟩
    · exact hgive s2 h2
    · have h3 : HeldDelay Q bar ts s3 := delay_fill (by exact h2c) hf (delay_flushed (hgive s2 h2).1 (by exact h2.surveys) rfl (by exact h2.known))
      rcases hout with ⟨-, rfl⟩ | ⟨-, rfl⟩
      · exact ⟨(hgive s3 h3).1, by rintro o ⟨⟩⟩
      · exact hgive s3 h3

theorem delay_update {Q : Waits E mark delay L} {bar : ℚ} {ts : List ℚ} {s : Core C Sv A} (h : HeldDelay Q bar ts s) (c : C) (hc : E.q.mjdOf c ≤ bar) :
    HeldDelay Q bar ts (s.update E c) := by
  have ht : (s.tooStep E c).tiers = s.tiers ∧ ((s.tooStep E c).qm = s.qm ∨ (s.tooStep E c).qm = s.qm.flush) := by
    unfold tooStep
    split
    · split
      · exact ⟨rfl, .inl rfl⟩
      · dsimp only
        split_ifs
        · exact ⟨rfl, .inr rfl⟩
        · exact ⟨rfl, .inl rfl⟩
    · exact ⟨rfl, .inl rfl⟩
  have hall : AllSurveys (Q.Heard ts) (s.update E c) := by
    show ∀ tier ∈ (s.tooStep E c).tiers.map (fun t => t.map fun v => E.sv.update v c), _
    rw [ht.1]
    intro tier h1 sv h2
    obtain ⟨t0, h3, rfl⟩ := List.mem_map.1 h1
    obtain ⟨sv0, h4, rfl⟩ := List.mem_map.1 h2
    exact Q.update c (h.surveys t0 h3 sv0 h4)
  have hk : ∀ c', (s.update E c).conditions = some c' → E.q.mjdOf c' ≤ bar := by
    intro c' h
    have h : some c = some c' := h
    cases h
    exact hc
  rcases ht.2 with e | e
  · refine ⟨hall, ?_, ?_, hk, h.order, h.made⟩
    · have : (s.update E c).qm.active = s.qm.active := by
        show (s.tooStep E c).qm.active = _
        rw [e]
      rw [this]
      exact h.queue
    · show (s.tooStep E c).qm.Aligned
      rw [e]; exact h.aligned
  · exact delay_flushed h hall e hk

/-- Among any `L + 1` times in a row, the first and the last are at least `delay` apart. -/
def Spread (delay : ℚ) (L : ℕ) (ts : List ℚ) : Prop := ∀ (i : ℕ) (t t' : ℚ), ts[i]? = some t → ts[i + L]? = some t' → t + delay ≤ t'

theorem backfill_mjd (o : Obs) : (backfillBand o).mjd = o.mjd := by
  unfold backfillBand
  split_ifs <;> rfl

theorem delay_add {Q : Waits E mark delay L} {bar : ℚ} {ts : List ℚ} {s : Core C Sv A} (o : Obs) (h : HeldDelay Q bar ts s)
    (hnow : HeldDelay Q o.mjd ts s) (hle : o.mjd ≤ bar) (hsp : Spread delay L ts) (hrow : RowFor s o) :
    HeldDelay Q bar (ts ++ if mark o.schedulerNote then [o.mjd] else []) (s.addObs E o).1 ∧ Spread delay L (ts ++ if mark o.schedulerNote then [o.mjd] else []) := by
  obtain ⟨row, h1, h2, h3⟩ := hrow
  have hb := backfill_note o
  have m := marked_drop (mark := mark) s.qm (backfillBand o) h1 (h2.trans hb.2.symm) (h3.trans hb.1.symm)
  rw [hb.1] at m
  have hd : 0 < s.qm.desired.length := by
    unfold QM.active at h1
    obtain ⟨p, hp, -⟩ := List.mem_map.1 h1
    have := List.length_pos_of_mem (List.mem_filter.1 hp).1
    rw [List.length_zip] at this
    omega
  have hact : (s.addObs E o).1.qm.active = (s.qm.mark (backfillBand o)).active := by
    show (s.qm.addObs E.q (backfillBand o)).active = _
    unfold QM.addObs
    dsimp only
    rw [if_pos hd]
    rfl
  refine ⟨⟨?_, ?_, Core.qaddObs_aligned _ _ _ h.aligned, h.known, ?_, ?_⟩, ?_⟩
  · show ∀ tier ∈ s.tiers.map (fun t => t.map fun v => E.sv.addObs v (backfillBand o)), _
    intro tier h1 sv h2
    obtain ⟨t0, h3, rfl⟩ := List.mem_map.1 h1
    obtain ⟨sv0, h4, rfl⟩ := List.mem_map.1 h2
    have := Q.hear (backfillBand o) (h.surveys t0 h3 sv0 h4)
    rw [hb.1, backfill_mjd] at this
    exact this
  · rw [hact]
    obtain ⟨old, new, e, ho, hl⟩ := h.queue
    refine ⟨old, new ++ if mark o.schedulerNote then [o.mjd] else [], by rw [e, List.append_assoc], ho, ?_⟩
    rw [List.length_append]
    by_cases hm : mark o.schedulerNote = true
    · rw [if_pos hm] at m ⊢
      rw [List.length_singleton]
      omega
    · rw [if_neg hm] at m ⊢
      rw [List.length_nil]
      omega
  · split_ifs
    · refine List.pairwise_append.2 ⟨h.order, List.pairwise_singleton _ _, ?_⟩
      intro t ht t' ht'
      rw [List.mem_singleton.1 ht']
      exact hnow.made t ht
    · rw [List.append_nil]
      exact h.order
  · intro t ht
    rcases List.mem_append.1 ht with ht | ht
    · exact h.made t ht
    · split_ifs at ht
      · rw [List.mem_singleton.1 ht]
        exact hle
      · cases ht
  · by_cases hm : mark o.schedulerNote = true
    · rw [if_pos hm] at m ⊢
      intro i t t' hi hi'
      by_cases hlt : i + L < ts.length
      · rw [List.getElem?_append_left hlt] at hi'
        rw [List.getElem?_append_left (by omega)] at hi
        exact hsp i t t' hi hi'
      · obtain ⟨old, new, e, ho, hl⟩ := hnow.queue
        have hi2 : i + L < (ts ++ [o.mjd]).length := (List.getElem?_eq_some_iff.1 hi').1
        rw [List.length_append, List.length_singleton] at hi2
        have hlast : i + L = ts.length := by omega
        rw [hlast, List.getElem?_append_right le_rfl, Nat.sub_self] at hi'
        have hi' : some o.mjd = some t' := hi'
        cases hi'
        have hle : ts.length = old.length + new.length := by rw [e, List.length_append]
        have hio : i < old.length := by omega
        rw [List.getElem?_append_left (by omega), e, List.getElem?_append_left hio] at hi
        exact ho t (List.mem_of_getElem? hi)
    · rw [if_neg hm, List.append_nil]
      exact hsp
end

/-! ### The simulation -/

section
variable {C B Sv A H K : Type} {E : Env C Sv A} {mark : String → Bool} {delay : ℚ} {L : ℕ}

/-- The times of the visits made whose note is marked. -/
def markedTimes (mark : String → Bool) (vs : List (Obs.Visit Obs)) : List ℚ := (vs.filter fun v => mark v.target.schedulerNote).map fun v => v.mjd

theorem markedTimes_snoc (mark : String → Bool) (vs : List (Obs.Visit Obs)) (v : Obs.Visit Obs) :
    markedTimes mark (vs ++ [v]) = markedTimes mark vs ++ if mark (told v).schedulerNote then [(told v).mjd] else [] := by
  unfold markedTimes
  rw [List.filter_append, List.map_append]
  congr 1
  by_cases h : mark v.target.schedulerNote = true
  · rw [if_pos (show mark (told v).schedulerNote = true from h), List.filter_cons_of_pos (by exact h)]
    rfl
  · rw [if_neg (show ¬ mark (told v).schedulerNote = true from h), List.filter_cons_of_neg (by exact h)]
    rfl

/-- The surveys have heard of the visits told of, and these are spread as they should. -/
def SimDelay (Q : Waits E mark delay L) (past : List ℚ) (p : World (Core C Sv A × H) K × List (Sim.Ev (Obs.Visit Obs) C B)) : Prop :=
  HeldDelay Q p.1.obs.mjd (past ++ markedTimes mark (Sim.toldOf p.2)) p.1.sched.1 ∧ Spread delay L (past ++ markedTimes mark (Sim.toldOf p.2))

theorem SimDelay.on {Q : Waits E mark delay L} {past : List ℚ} {p q : World (Core C Sv A × H) K × List (Sim.Ev (Obs.Visit Obs) C B)} (h : SimDelay Q past p)
    (ht : Sim.toldOf q.2 = Sim.toldOf p.2) (hs : ∀ ts, HeldDelay Q p.1.obs.mjd ts p.1.sched.1 → HeldDelay Q q.1.obs.mjd ts q.1.sched.1) : SimDelay Q past q := by
  unfold SimDelay
  rw [ht]
  exact ⟨hs _ h.1, h.2⟩

theorem delay_keeps (S : Obs.Site) (hn : Obs.Nights S.nights) (hd : Down.Ordered S.downs) (M : Obs.Kin K Obs) (hM : Obs.NonNeg M) (hK : KeepsNote M) (fuel : ℕ)
    (conds : Obs.St K → C) (mount : K → B → K) (Q : Waits E mark delay L) (htime : ∀ st, E.q.mjdOf (conds st) = st.mjd) (hdet : DetKeepsNotes E.q) (X : Rest H C B)
    (cfg : Sim.Cfg) (past : List ℚ) :
    Sim.KeepsNow (env S M fuel conds mount (coreSched E X)).recorded cfg (SimDelay Q past) (SimDelay Q past)
      (fun v p => SimDelay Q past p ∧ RowFor p.1.sched.1 v.target)
      (fun v p => SimDelay Q past p ∧ RowFor p.1.sched.1 v.target ∧ HeldDelay Q v.mjd (past ++ markedTimes mark (Sim.toldOf p.2)) p.1.sched.1
        ∧ v.mjd ≤ p.1.obs.mjd) := by
  have hsame : ∀ (w q : World (Core C Sv A × H) K × List (Sim.Ev (Obs.Visit Obs) C B)) e, SimDelay Q past w → q.2 = w.2 ++ [e] → Sim.toldOf [e] = [] →
      q.1.sched.1 = w.1.sched.1 → w.1.obs.mjd ≤ q.1.obs.mjd → SimDelay Q past q :=
    fun w q e h h1 h2 h3 h4 => h.on (by rw [h1, told_one _ _ h2]) (fun ts h => by rw [h3]; exact h.later h4)
  have hconds : ∀ w, SimDelay Q past w → SimDelay Q past ((env S M fuel conds mount (coreSched E X)).recorded.conds w).1 :=
    fun w h => hsame w _ _ h rfl rfl rfl le_rfl
  have hcheck : ∀ w x, SimDelay Q past w → SimDelay Q past ((env S M fuel conds mount (coreSched E X)).recorded.check w x).1 :=
    fun w x h => hsame w _ _ h rfl rfl rfl le_rfl
  have hupdate : ∀ w, SimDelay Q past w → SimDelay Q past (Sim.updateNow (env S M fuel conds mount (coreSched E X)).recorded w) := fun w h =>
    (hconds w h).on (told_one _ _ rfl) (fun ts h => delay_update h _ (le_of_eq (htime _)))
  have hreq : ∀ (w : World (Core C Sv A × H) K × List (Sim.Ev (Obs.Visit Obs) C B)) x, SimDelay Q past w →
      SimDelay Q past ((env S M fuel conds mount (coreSched E X)).recorded.request w x).1
      ∧ ∀ v ∈ ((env S M fuel conds mount (coreSched E X)).recorded.request w x).2,
        RowFor ((env S M fuel conds mount (coreSched E X)).recorded.request w x).1.1.sched.1 v.target := by
    intro w x h
    show SimDelay Q past ((requestOf (coreSched E X) w.1 x).1, w.2 ++ [.request w.1.obs.mjd x (requestOf (coreSched E X) w.1 x).2])
      ∧ ∀ v ∈ (requestOf (coreSched E X) w.1 x).2, RowFor (requestOf (coreSched E X) w.1 x).1.sched.1 v.target
    have hr : (coreSched E X).request w.1.sched x = (coreRequest E w.1.sched.1 x).map fun r => ((r.1, w.1.sched.2), r.2) := rfl
    unfold requestOf
    rw [hr]
    cases hq : coreRequest E w.1.sched.1 x with
    | none => exact ⟨h.on (told_one _ _ rfl) (fun _ h => h), by rintro v ⟨⟩⟩
    | some r =>
      obtain ⟨s', o⟩ := r
      refine ⟨h.on (told_one _ _ rfl) (fun _ h => (delay_request hdet h hq).1), ?_⟩
      intro v hv
      cases o with
      | none => cases hv
      | some o =>
        have hv : some (asked o) = some v := hv
        cases hv
        exact (delay_request hdet h.1 hq).2 o rfl
  have hobs : ∀ (w : World (Core C Sv A × H) K × List (Sim.Ev (Obs.Visit Obs) C B)) v, (observeOf S M fuel w.1 v).1.sched = w.1.sched
      ∧ w.1.obs.mjd ≤ (observeOf S M fuel w.1 v).1.obs.mjd
      ∧ ∀ v', (observeOf S M fuel w.1 v).2.1 = some v' → v'.target.targetId = v.target.targetId ∧ v'.target.schedulerNote = v.target.schedulerNote
        ∧ w.1.obs.mjd ≤ v'.mjd ∧ v'.mjd ≤ (observeOf S M fuel w.1 v).1.obs.mjd := by
    intro w v
    unfold observeOf
    cases ho : Obs.observe S M fuel w.1.obs v.target with
    | error e => exact ⟨rfl, le_rfl, by rintro v' ⟨⟩⟩
    | ok r =>
      obtain ⟨s', r, nn⟩ := r
      refine ⟨rfl, Obs.observe_forward hn hd hM ho, ?_⟩
      intro v' hv'
      have hv' : r = some v' := hv'
      subst hv'
      obtain ⟨hsl, hve, -, -, -, -, -, hnn, k, hk⟩ := observe_some hn hd hM ho
      refine ⟨(hK _ _ _ _ hk).1, (hK _ _ _ _ hk).2, ?_, ?_⟩
      · rw [← hsl]
        unfold slewStart
        have : 0 ≤ v'.slewtime / 24 / 3600 := by
          have := hnn.1
          positivity
        linarith
      · show v'.mjd ≤ s'.mjd
        rw [← hve]
        unfold visitEnd
        have : 0 ≤ v'.visittime / 24 / 3600 := by
          have := hnn.2
          positivity
        linarith
  refine ⟨hconds, hcheck, hupdate, fun w x h hx => hsame w _ _ h rfl rfl rfl hx, fun w v h => hsame w _ _ h rfl rfl rfl le_rfl,
    fun w h => h.on (told_one _ _ rfl) (fun _ h => delay_flushed h (by exact h.surveys) rfl (by exact h.known)),
    fun w c h => hsame w _ _ h rfl rfl rfl le_rfl, fun w b h => hsame w _ _ h rfl rfl rfl le_rfl, fun w h => Sim.refresh_keeps_now hcheck hupdate w h,
    ?_, ?_, ?_, ?_, ?_, ?_, ?_⟩
  · intro w u h hr
    have := (hreq w ((env S M fuel conds mount (coreSched E X)).recorded.clock w) h).1
    rw [hr] at this
    exact this
  · intro w u v h hr
    have := hreq w ((env S M fuel conds mount (coreSched E X)).recorded.clock w) h
    rw [hr] at this
    exact ⟨this.1, this.2 v rfl⟩
  · rintro w v x nn ⟨h, -⟩ ho
    have hx : x = ((observeOf S M fuel w.1 v).1, w.2 ++ [.observe w.1.obs.mjd v (observeOf S M fuel w.1 v).1.obs.mjd
      (observeOf S M fuel w.1 v).2.1 (observeOf S M fuel w.1 v).2.2]) := (congrArg Prod.fst ho).symm
    subst hx
    exact hsame w _ _ h rfl rfl (by rw [(hobs w v).1]) (hobs w v).2.1
  · rintro w v x v' nn ⟨h, hrow⟩ ho
    have hx : x = ((observeOf S M fuel w.1 v).1, w.2 ++ [.observe w.1.obs.mjd v (observeOf S M fuel w.1 v).1.obs.mjd
      (observeOf S M fuel w.1 v).2.1 (observeOf S M fuel w.1 v).2.2]) := (congrArg Prod.fst ho).symm
    have hv : (observeOf S M fuel w.1 v).2.1 = some v' := congrArg (fun z => z.2.1) ho
    obtain ⟨o1, o0, o2⟩ := hobs w v
    obtain ⟨o3, o4, o5, o6⟩ := o2 v' hv
    subst hx
    refine ⟨hsame w _ _ h rfl rfl (by rw [o1]) o0, ?_, ?_, o6⟩
    · dsimp only
      rw [o1]
      obtain ⟨row, r1, r2, r3⟩ := hrow
      exact ⟨row, r1, r2.trans o3.symm, r3.trans o4.symm⟩
    · dsimp only
      rw [o1, told_one _ _ rfl]
      exact h.1.later o5
  · rintro w v ⟨h, h2, h3, h4⟩
    refine ⟨hsame w _ _ h rfl rfl rfl le_rfl, h2, ?_, h4⟩
    show HeldDelay Q v.mjd (past ++ markedTimes mark (Sim.toldOf (w.2 ++ [_]))) w.1.sched.1
    rw [told_one _ _ rfl]
    exact h3
  · rintro w v x ⟨h, h2, h3, h4⟩ hx
    refine ⟨hsame w _ _ h rfl rfl rfl hx, h2, ?_, h4.trans hx⟩
    show HeldDelay Q v.mjd (past ++ markedTimes mark (Sim.toldOf (w.2 ++ [_]))) w.1.sched.1
    rw [told_one _ _ rfl]
    exact h3
  · rintro w v ⟨h, hrow, hlate, hle⟩
    have ht : Sim.toldOf ((env S M fuel conds mount (coreSched E X)).recorded.add w v).2 = Sim.toldOf w.2 ++ [v] := by
      show Sim.toldOf (w.2 ++ [.add w.1.obs.mjd v]) = _
      rw [Sim.toldOf_append]
      rfl
    have hnew := delay_add (told v) h.1 hlate hle h.2 hrow
    unfold SimDelay
    rw [ht, markedTimes_snoc, ← List.append_assoc]
    exact hnew

/-- Among any `L + 1` marked visits in a row that a simulation makes, with those made before, the first and the last are at least the delay apart. -/
theorem delay_kept (S : Obs.Site) (hn : Obs.Nights S.nights) (hd : Down.Ordered S.downs) (M : Obs.Kin K Obs) (hM : Obs.NonNeg M) (hK : KeepsNote M)
    (fuel : ℕ) (conds : Obs.St K → C) (mount : K → B → K) (Q : Waits E mark delay L) (htime : ∀ st, E.q.mjdOf (conds st) = st.mjd) (hdet : DetKeepsNotes E.q)
    (X : Rest H C B) (hX : ∀ h v, 0 ≤ (X.overhead h v).2) (cfg : Sim.Cfg) (hstep : 0 ≤ cfg.stepNone) (h1 : 0 < cfg.startSize) (h2 : 0 < cfg.appendSize)
    (m : ℕ) (w : World (Core C Sv A × H) K) (hc : w.sched.1.conditions = none) (hq : w.sched.1.qm.desired = []) (hneed : w.sched.1.qm.need = [])
    (past : List ℚ) (hpast : Spread delay L past) (hord : past.Pairwise (· ≤ ·)) (hmade : ∀ t ∈ past, t ≤ cfg.simStart.getD w.obs.mjd)
    (hlast : ∀ (i : ℕ) (t : ℚ), past[i]? = some t → i + L < past.length → t + delay ≤ cfg.simStart.getD w.obs.mjd)
    (hold : ∀ tier ∈ w.sched.1.tiers, ∀ s ∈ tier, Q.Heard past s) :
    ∃ vs : List (Obs.Visit Obs), (Sim.run (V := Obs.Visit Obs) (env S M fuel conds mount (coreSched E X)) cfg m w).st.result = vs.map some
      ∧ Spread delay L (past ++ markedTimes mark vs) := by
  have Kc := whole_contract S hn hd M hM fuel conds mount (coreSched E X) (fun u v => hX _ _)
  obtain ⟨hres, -, htold⟩ := recorded_result (env S M fuel conds mount (coreSched E X)) cfg h1 h2 m w
  have hstart : ∀ p : World (Core C Sv A × H) K × List (Sim.Ev (Obs.Visit Obs) C B), p.1.sched.1 = w.sched.1 → cfg.simStart.getD w.obs.mjd = p.1.obs.mjd → Sim.toldOf p.2 = [] →
      SimDelay Q past p := by
    intro p hp hle ht
    have hact : p.1.sched.1.qm.active = [] := by
      rw [hp]
      unfold QM.active
      rw [hq]; rfl
    unfold SimDelay
    rw [ht]
    show HeldDelay Q p.1.obs.mjd (past ++ []) _ ∧ Spread delay L (past ++ [])
    rw [List.append_nil]
    refine ⟨⟨by rw [hp]; exact hold, ?_, ?_, by rw [hp, hc]; rintro c ⟨⟩, hord, fun t ht => (hmade t ht).trans_eq hle⟩, hpast⟩
    · rw [hact]
      refine ⟨past.take (past.length - L), past.drop (past.length - L), (List.take_append_drop _ _).symm, ?_, ?_⟩
      · intro t htm
        obtain ⟨i, hi⟩ := List.mem_iff_getElem?.1 htm
        have hlt : i < past.length - L := by
          have := (List.getElem?_eq_some_iff.1 hi).1
          rw [List.length_take] at this
          omega
        rw [List.getElem?_take_of_lt hlt] at hi
        exact (hlast i t hi (by omega)).trans_eq hle
      · rw [List.length_drop]
        show past.length - (past.length - L) + 0 ≤ L
        omega
    · rw [hp]
      unfold QM.Aligned
      rw [hq, hneed]; rfl
  have key := Sim.run_keeps_now (Sim.recorded_contract Kc) hstep (delay_keeps S hn hd M hM hK fuel conds mount Q htime hdet X cfg past) m (w, [])
    (fun h => hstart _ rfl (by rw [h]; rfl) rfl) (fun _ h => hstart _ rfl (by rw [h]; rfl) rfl)
  refine ⟨_, hres, ?_⟩
  rw [← htold]
  exact key.2

end

end Verif
