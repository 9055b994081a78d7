import Verif.Lemmas.NoteOnce

/-!
How many marked visits a simulation makes when surveys offer them only while the visits heard of leave room for them.
-/

namespace Verif

open Whole Core

section
variable {C Sv A : Type}

/-- Visits whose note is marked. -/
def markedIn (mark : String → Bool) (l : List Obs) : ℕ := l.countP fun o => mark o.schedulerNote

/-- Surveys that offer marked visits, at most `L` at once, only while of the visits heard of, `b` in number, at most `quota b` were marked. `Heard a b` says that
the survey has heard of `b` visits, `a` of them marked. -/
structure Quota (E : Env C Sv A) (mark : String → Bool) (quota : ℕ → ℚ) (L : ℕ) where
  Heard : ℕ → ℕ → Sv → Prop
  reward : ∀ {a b s} c, Heard a b s → Heard a b (E.sv.reward s c).2
  gen : ∀ {a b s} c, Heard a b s → Heard a b (E.sv.gen s c).2
  update : ∀ {a b s} c, Heard a b s → Heard a b (E.sv.update s c)
  hear : ∀ {a b s} o, Heard a b s → Heard (a + if mark o.schedulerNote then 1 else 0) (b + 1) (E.sv.addObs s o)
  limit : ∀ {a b s} c, Heard a b s → markedIn mark (E.sv.gen s c).1 = 0 ∨ (markedIn mark (E.sv.gen s c).1 ≤ L ∧ (a : ℚ) ≤ quota b)

variable {E : Env C Sv A} {mark : String → Bool} {quota : ℕ → ℚ} {L : ℕ}

/-- The surveys have heard of `a` marked visits among `b`, and with those in the queue there are not too many. -/
structure HeldQuota (Q : Quota E mark quota L) (a b : ℕ) (s : Core C Sv A) : Prop where
  surveys : AllSurveys (Q.Heard a b) s
  queue : ((a + markedIn mark s.qm.active : ℕ) : ℚ) ≤ quota b + L
  aligned : s.qm.Aligned

theorem HeldQuota.queue_eq {Q : Quota E mark quota L} {a b : ℕ} {s s' : Core C Sv A} (h : HeldQuota Q a b s) (h1 : s'.tiers = s.tiers)
    (h2 : s'.qm.desired = s.qm.desired) (h3 : s'.qm.need = s.qm.need) : HeldQuota Q a b s' := by
  have e : s'.qm.active = s.qm.active := by unfold QM.active; rw [h2, h3]
  refine ⟨by unfold AllSurveys; rw [h1]; exact h.surveys, by rw [e]; exact h.queue, ?_⟩
  have := h.aligned
  unfold QM.Aligned at this ⊢
  rw [h2, h3]; exact this

theorem HeldQuota.bare {Q : Quota E mark quota L} {a b : ℕ} {s : Core C Sv A} (h : HeldQuota Q a b s) : (a : ℚ) ≤ quota b + L := by
  refine le_trans ?_ h.queue
  push_cast
  have : (0 : ℚ) ≤ (markedIn mark s.qm.active : ℚ) := by positivity
  linarith

theorem quota_flushed {Q : Quota E mark quota L} {a b : ℕ} {s s' : Core C Sv A} (h : HeldQuota Q a b s) (hs : AllSurveys (Q.Heard a b) s') (hq : s'.qm = s.qm.flush) :
    HeldQuota Q a b s' := by
  refine ⟨hs, ?_, ?_⟩
  · rw [hq]
    exact h.bare
  · rw [hq]; rfl

theorem filled_marked {B2F : _} {l l' : List Obs} (hf : List.Forall₂ (Filled B2F) l l') : markedIn mark l' = markedIn mark l := by
  induction hf with
  | nil => rfl
  | @cons a b _ _ hab _ ih =>
    have e := congrArg Obs.schedulerNote hab.2.2.2
    unfold markedIn at ih ⊢
    simp only [List.countP_cons, ih]
    dsimp only at e
    rw [e]

theorem quota_fill {Q : Quota E mark quota L} {a b : ℕ} {s s' : Core C Sv A} {ev : List Ev} {c : C}
    (hc : s.conditions = some c) (hf : s.fillQueue E = .ok (s', ev)) (h : HeldQuota Q a b s) : HeldQuota Q a b s' := by
  have hs' : AllSurveys (Q.Heard a b) s' := fillQueue_surveys hc hf (Q.Heard a b) (fun sv hp => Q.reward c hp) (fun sv hp => Q.gen c hp) h.surveys
  obtain ⟨-, hcase⟩ := fillQueue_gives hc hf (Q.Heard a b) (fun sv hp => Q.reward c hp) h.surveys (fun _ => true) (fun _ => rfl) (fun _ => rfl)
  rcases hcase with hq | ⟨sv, k, filled, hsv, hfill, hq, -⟩
  · exact quota_flushed h hs' hq
  · have hact : s'.qm.active = filled := by
      rw [hq]
      unfold QM.active QM.setQueue
      exact all_pending filled
    have hc1 := filled_marked (mark := mark) (fillFilters_forall _ _ _ _ hfill)
    refine ⟨hs', ?_, by rw [hq]; exact List.length_replicate⟩
    rw [hact, hc1]
    rcases Q.limit c hsv with h0 | ⟨h1, h2⟩
    · rw [h0]
      exact h.bare
    · push_cast
      have : (markedIn mark (E.sv.gen sv c).1 : ℚ) ≤ L := by exact_mod_cast h1
      linarith

theorem quota_request {Q : Quota E mark quota L} (hdet : DetKeepsNotes E.q) {a b : ℕ} {s s' : Core C Sv A} {x : ℚ} {r : Option Obs} (h : HeldQuota Q a b s)
    (hr : coreRequest E s x = some (s', r)) : HeldQuota Q a b s' ∧ ∀ o ∈ r, RowFor s' o := by
  unfold coreRequest at hr
  cases hq : s.request E (some x) false with
  | error e => rw [hq] at hr; cases hr
  | ok z =>
    obtain ⟨s1, l, ev⟩ := z
    rw [hq] at hr
    have hr : some (s1, l.bind List.head?) = some (s', r) := hr
    simp only [Option.some.injEq, Prod.mk.injEq] at hr
    obtain ⟨rfl, rfl⟩ := hr
    obtain ⟨c, s2, ev2, hc, hfirst, hrest⟩ := request_cases hq
    have h2 : HeldQuota Q a b s2 ∧ s2.conditions = some c := by
      rcases hfirst with ⟨-, hf⟩ | ⟨-, rfl, -⟩
      · exact ⟨quota_fill hc hf h, (fillQueue_frame hf).1.trans hc⟩
      · exact ⟨h, hc⟩
    have hgive : ∀ u : Core C Sv A, HeldQuota Q a b u → HeldQuota Q a b { u with qm := (u.qm.request E.q c false).2 }
        ∧ ∀ o ∈ (some ((u.qm.request E.q c false).1.map setNote)).bind List.head?, RowFor { u with qm := (u.qm.request E.q c false).2 } o := by
      intro u hu
      have hqq := qrequest_queue E.q u.qm c false
      refine ⟨hu.queue_eq rfl hqq.1 hqq.2, ?_⟩
      intro o ho
      have ho := List.mem_of_head? (show ((u.qm.request E.q c false).1.map setNote).head? = some o from ho)
      obtain ⟨o1, ho1, rfl⟩ := List.mem_map.1 ho
      obtain ⟨row, h3, h4, h5⟩ := qrequest_active hdet u.qm hu.aligned c o1 ho1
      have : (u.qm.request E.q c false).2.active = u.qm.active := by unfold QM.active; rw [hqq.1, hqq.2]
      refine ⟨row, ?_, h4, h5⟩
      dsimp only
      rw [this]
      exact h3
    obtain ⟨h2, h2c⟩ := h2
    rcases hrest with ⟨-, rfl, rfl, -⟩ | ⟨-, -, rfl, rfl, -⟩ | ⟨-, -, s3, ev3, hf, rfl, -, hout⟩
    · exact ⟨h2, by rintro o ⟨⟩⟩
    · exact hgive s2 h2
    · have h3 : HeldQuota Q a b s3 := quota_fill (by exact h2c) hf (quota_flushed (hgive s2 h2).1 (by exact h2.surveys) rfl)
      rcases hout with ⟨-, rfl⟩ | ⟨-, rfl⟩
      · exact ⟨(hgive s3 h3).1, by rintro o ⟨⟩⟩
      · exact hgive s3 h3

theorem quota_update {Q : Quota E mark quota L} {a b : ℕ} {s : Core C Sv A} (h : HeldQuota Q a b s) (c : C) : HeldQuota Q a b (s.update E c) := by
  have ht : (s.tooStep E c).tiers = s.tiers ∧ ((s.tooStep E c).qm = s.qm ∨ (s.tooStep E c).qm = s.qm.flush) := by
    unfold tooStep
    split
    · split
      · exact ⟨rfl, .inl rfl⟩
      · dsimp only
        split_ifs
        · exact ⟨rfl, .inr rfl⟩
        · exact ⟨rfl, .inl rfl⟩
    · exact ⟨rfl, .inl rfl⟩
  have hall : AllSurveys (Q.Heard a b) (s.update E c) := by
    show ∀ tier ∈ (s.tooStep E c).tiers.map (fun t => t.map fun v => E.sv.update v c), _
    rw [ht.1]
    intro tier h1 sv h2
    obtain ⟨t0, h3, rfl⟩ := List.mem_map.1 h1
    obtain ⟨sv0, h4, rfl⟩ := List.mem_map.1 h2
    exact Q.update c (h.surveys t0 h3 sv0 h4)
  rcases ht.2 with e | e
  · refine ⟨hall, ?_, ?_⟩
    · show ((a + markedIn mark (s.tooStep E c).qm.active : ℕ) : ℚ) ≤ _
      rw [e]; exact h.queue
    · show (s.tooStep E c).qm.Aligned
      rw [e]; exact h.aligned
  · exact quota_flushed h hall e

theorem marked_drop (q : QM A) (o : Obs) {r : Obs} (hr : r ∈ q.active) (h1 : r.targetId = o.targetId) (h2 : r.schedulerNote = o.schedulerNote) :
    markedIn mark (q.mark o).active + (if mark o.schedulerNote then 1 else 0) ≤ markedIn mark q.active := by
  rw [active_of_mark]
  unfold markedIn
  by_cases hm : mark o.schedulerNote = true
  · rw [if_pos hm]
    obtain ⟨l1, l2, hl⟩ := List.append_of_mem hr
    rw [hl]
    simp only [List.filter_append, List.filter_cons, h1, decide_true, Bool.not_true, Bool.false_eq_true, if_false, List.countP_append, List.countP_cons, h2, hm,
      if_true]
    have e1 := (List.filter_sublist (l := l1) (p := fun d : Obs => !decide (d.targetId = o.targetId))).countP_le (p := fun o : Obs => mark o.schedulerNote)
    have e2 := (List.filter_sublist (l := l2) (p := fun d : Obs => !decide (d.targetId = o.targetId))).countP_le (p := fun o : Obs => mark o.schedulerNote)
    omega
  · rw [if_neg hm]
    exact List.filter_sublist.countP_le

theorem quota_add {Q : Quota E mark quota L} (hmono : Monotone quota) {a b : ℕ} {s : Core C Sv A} (o : Obs) (h : HeldQuota Q a b s) (hrow : RowFor s o) :
    HeldQuota Q (a + if mark o.schedulerNote then 1 else 0) (b + 1) (s.addObs E o).1 := by
  obtain ⟨row, h1, h2, h3⟩ := hrow
  have hb := backfill_note o
  have m := marked_drop (mark := mark) s.qm (backfillBand o) h1 (h2.trans hb.2.symm) (h3.trans hb.1.symm)
  rw [hb.1] at m
  have hd : 0 < s.qm.desired.length := by
    unfold QM.active at h1
    obtain ⟨p, hp, -⟩ := List.mem_map.1 h1
    have := List.length_pos_of_mem (List.mem_filter.1 hp).1
    rw [List.length_zip] at this
    omega
  have hact : (s.addObs E o).1.qm.active = (s.qm.mark (backfillBand o)).active := by
    show (s.qm.addObs E.q (backfillBand o)).active = _
    unfold QM.addObs
    dsimp only
    rw [if_pos hd]
    rfl
  refine ⟨?_, ?_, Core.qaddObs_aligned _ _ _ h.aligned⟩
  · show ∀ tier ∈ s.tiers.map (fun t => t.map fun v => E.sv.addObs v (backfillBand o)), _
    intro tier h1 sv h2
    obtain ⟨t0, h3, rfl⟩ := List.mem_map.1 h1
    obtain ⟨sv0, h4, rfl⟩ := List.mem_map.1 h2
    have := Q.hear (backfillBand o) (h.surveys t0 h3 sv0 h4)
    rw [hb.1] at this
    exact this
  · rw [hact]
    have hq := h.queue
    have hm := hmono (Nat.le_succ b)
    have m' : ((a + (if mark o.schedulerNote then 1 else 0) + markedIn mark (s.qm.mark (backfillBand o)).active : ℕ) : ℚ) ≤ ((a + markedIn mark s.qm.active : ℕ) : ℚ) := by
      exact_mod_cast (by omega)
    refine m'.trans (hq.trans ?_)
    have : quota b ≤ quota (b + 1) := hm
    linarith
end

/-! ### The simulation -/

section
variable {C B Sv A H K : Type} {E : Env C Sv A} {mark : String → Bool} {quota : ℕ → ℚ} {L : ℕ}

/-- Visits made whose note is marked. -/
def markedMade (mark : String → Bool) (vs : List (Obs.Visit Obs)) : ℕ := vs.countP fun v => mark v.target.schedulerNote

/-- The surveys have heard of the visits told of, after `b0` visits of which `a0` were marked, and at no time there were too many. -/
def SimQuota (Q : Quota E mark quota L) (a0 b0 : ℕ) (p : World (Core C Sv A × H) K × List (Sim.Ev (Obs.Visit Obs) C B)) : Prop :=
  HeldQuota Q (a0 + markedMade mark (Sim.toldOf p.2)) (b0 + (Sim.toldOf p.2).length) p.1.sched.1
    ∧ ∀ k ≤ (Sim.toldOf p.2).length, ((a0 + markedMade mark ((Sim.toldOf p.2).take k) : ℕ) : ℚ) ≤ quota (b0 + k) + L

theorem SimQuota.on {Q : Quota E mark quota L} {a0 b0 : ℕ} {p q : World (Core C Sv A × H) K × List (Sim.Ev (Obs.Visit Obs) C B)} (h : SimQuota Q a0 b0 p)
    (ht : Sim.toldOf q.2 = Sim.toldOf p.2) (hs : ∀ a b, HeldQuota Q a b p.1.sched.1 → HeldQuota Q a b q.1.sched.1) : SimQuota Q a0 b0 q := by
  unfold SimQuota
  rw [ht]
  exact ⟨hs _ _ h.1, h.2⟩

theorem quota_keeps (S : Obs.Site) (hn : Obs.Nights S.nights) (hd : Down.Ordered S.downs) (M : Obs.Kin K Obs) (hM : Obs.NonNeg M) (hK : KeepsNote M) (fuel : ℕ)
    (conds : Obs.St K → C) (mount : K → B → K) (Q : Quota E mark quota L) (hmono : Monotone quota) (hdet : DetKeepsNotes E.q) (X : Rest H C B) (cfg : Sim.Cfg)
    (a0 b0 : ℕ) :
    Sim.Keeps (env S M fuel conds mount (coreSched E X)).recorded cfg (SimQuota Q a0 b0) (SimQuota Q a0 b0)
      (fun v p => SimQuota Q a0 b0 p ∧ RowFor p.1.sched.1 v.target) (fun v p => SimQuota Q a0 b0 p ∧ RowFor p.1.sched.1 v.target) := by
  have hsame : ∀ (w q : World (Core C Sv A × H) K × List (Sim.Ev (Obs.Visit Obs) C B)) e, SimQuota Q a0 b0 w → q.2 = w.2 ++ [e] → Sim.toldOf [e] = [] →
      q.1.sched.1 = w.1.sched.1 → SimQuota Q a0 b0 q := fun w q e h h1 h2 h3 => h.on (by rw [h1, told_one _ _ h2]) (fun a b h => by rw [h3]; exact h)
  have hconds : ∀ w, SimQuota Q a0 b0 w → SimQuota Q a0 b0 ((env S M fuel conds mount (coreSched E X)).recorded.conds w).1 := fun w h => hsame w _ _ h rfl rfl rfl
  have hcheck : ∀ w x, SimQuota Q a0 b0 w → SimQuota Q a0 b0 ((env S M fuel conds mount (coreSched E X)).recorded.check w x).1 :=
    fun w x h => hsame w _ _ h rfl rfl rfl
  have hupdate : ∀ w c, SimQuota Q a0 b0 w → SimQuota Q a0 b0 ((env S M fuel conds mount (coreSched E X)).recorded.update w c) := fun w c h =>
    h.on (told_one _ _ rfl) (fun a b h => quota_update h c)
  have hreq : ∀ (w : World (Core C Sv A × H) K × List (Sim.Ev (Obs.Visit Obs) C B)) x, SimQuota Q a0 b0 w →
      SimQuota Q a0 b0 ((env S M fuel conds mount (coreSched E X)).recorded.request w x).1
      ∧ ∀ v ∈ ((env S M fuel conds mount (coreSched E X)).recorded.request w x).2,
        RowFor ((env S M fuel conds mount (coreSched E X)).recorded.request w x).1.1.sched.1 v.target := by
    intro w x h
    show SimQuota Q a0 b0 ((requestOf (coreSched E X) w.1 x).1, w.2 ++ [.request w.1.obs.mjd x (requestOf (coreSched E X) w.1 x).2])
      ∧ ∀ v ∈ (requestOf (coreSched E X) w.1 x).2, RowFor (requestOf (coreSched E X) w.1 x).1.sched.1 v.target
    have hr : (coreSched E X).request w.1.sched x = (coreRequest E w.1.sched.1 x).map fun r => ((r.1, w.1.sched.2), r.2) := rfl
    unfold requestOf
    rw [hr]
    cases hq : coreRequest E w.1.sched.1 x with
    | none => exact ⟨h.on (told_one _ _ rfl) (fun _ _ h => h), by rintro v ⟨⟩⟩
    | some r =>
      obtain ⟨s', o⟩ := r
      refine ⟨h.on (told_one _ _ rfl) (fun _ _ h => (quota_request hdet h hq).1), ?_⟩
      intro v hv
      cases o with
      | none => cases hv
      | some o =>
        have hv : some (asked o) = some v := hv
        cases hv
        exact (quota_request hdet h.1 hq).2 o rfl
  have hobs : ∀ (w : World (Core C Sv A × H) K × List (Sim.Ev (Obs.Visit Obs) C B)) v, (observeOf S M fuel w.1 v).1.sched = w.1.sched
      ∧ ∀ v', (observeOf S M fuel w.1 v).2.1 = some v' → v'.target.targetId = v.target.targetId ∧ v'.target.schedulerNote = v.target.schedulerNote := by
    intro w v
    unfold observeOf
    cases ho : Obs.observe S M fuel w.1.obs v.target with
    | error e => exact ⟨rfl, by rintro v' ⟨⟩⟩
    | ok r =>
      obtain ⟨s', r, nn⟩ := r
      refine ⟨rfl, ?_⟩
      intro v' hv'
      have hv' : r = some v' := hv'
      subst hv'
      obtain ⟨-, -, -, -, -, -, -, -, k, hk⟩ := observe_some hn hd hM ho
      exact hK _ _ _ _ hk
  refine ⟨hconds, hcheck, hupdate, fun w x h _ => hsame w _ _ h rfl rfl rfl, fun w v h => hsame w _ _ h rfl rfl rfl,
    fun w h => h.on (told_one _ _ rfl) (fun _ _ h => quota_flushed h (by exact h.surveys) rfl),
    fun w c h => hsame w _ _ h rfl rfl rfl, fun w b h => hsame w _ _ h rfl rfl rfl, fun w h => Sim.refresh_keeps hconds hcheck hupdate w h,
    ?_, ?_, ?_, ?_, fun w v h => ⟨hsame w _ _ h.1 rfl rfl rfl, h.2⟩, fun w v x h _ => ⟨hsame w _ _ h.1 rfl rfl rfl, h.2⟩, ?_⟩
  · intro w u h hr
    have := (hreq w ((env S M fuel conds mount (coreSched E X)).recorded.clock w) h).1
    rw [hr] at this
    exact this
  · intro w u v h hr
    have := hreq w ((env S M fuel conds mount (coreSched E X)).recorded.clock w) h
    rw [hr] at this
    exact ⟨this.1, this.2 v rfl⟩
  · rintro w v x nn ⟨h, -⟩ ho
    have hx : x = ((observeOf S M fuel w.1 v).1, w.2 ++ [.observe w.1.obs.mjd v (observeOf S M fuel w.1 v).1.obs.mjd
      (observeOf S M fuel w.1 v).2.1 (observeOf S M fuel w.1 v).2.2]) := (congrArg Prod.fst ho).symm
    subst hx
    exact hsame w _ _ h rfl rfl (by rw [(hobs w v).1])
  · rintro w v x v' nn ⟨h, hrow⟩ ho
    have hx : x = ((observeOf S M fuel w.1 v).1, w.2 ++ [.observe w.1.obs.mjd v (observeOf S M fuel w.1 v).1.obs.mjd
      (observeOf S M fuel w.1 v).2.1 (observeOf S M fuel w.1 v).2.2]) := (congrArg Prod.fst ho).symm
    have hv : (observeOf S M fuel w.1 v).2.1 = some v' := congrArg (fun z => z.2.1) ho
    obtain ⟨o1, o2⟩ := hobs w v
    obtain ⟨o3, o4⟩ := o2 v' hv
    subst hx
    refine ⟨hsame w _ _ h rfl rfl (by rw [o1]), ?_⟩
    dsimp only
    rw [o1]
    obtain ⟨row, r1, r2, r3⟩ := hrow
    exact ⟨row, r1, r2.trans o3.symm, r3.trans o4.symm⟩
  · rintro w v ⟨h, hrow⟩
    have ht : Sim.toldOf ((env S M fuel conds mount (coreSched E X)).recorded.add w v).2 = Sim.toldOf w.2 ++ [v] := by
      show Sim.toldOf (w.2 ++ [.add w.1.obs.mjd v]) = _
      rw [Sim.toldOf_append]
      rfl
    have hnew := quota_add hmono (told v) h.1 hrow
    have e : a0 + markedMade mark (Sim.toldOf w.2 ++ [v]) = a0 + markedMade mark (Sim.toldOf w.2) + if mark (told v).schedulerNote then 1 else 0 := by
      unfold markedMade
      rw [List.countP_append, List.countP_singleton]
      exact (Nat.add_assoc _ _ _).symm
    unfold SimQuota
    rw [ht, List.length_append, List.length_singleton, ← Nat.add_assoc, e]
    refine ⟨hnew, ?_⟩
    intro k hk
    rcases Nat.lt_or_ge k ((Sim.toldOf w.2).length + 1) with hlt | hge
    · rw [List.take_append_of_le_length (by omega)]
      exact h.2 k (by omega)
    · have hk : k = (Sim.toldOf w.2).length + 1 := by omega
      subst hk
      rw [List.take_of_length_le (by simp), e, ← Nat.add_assoc]
      exact hnew.bare

/-- At no time of a simulation more marked visits have been made than the quota allows, but for those of one sequence. -/
theorem quota_kept (S : Obs.Site) (hn : Obs.Nights S.nights) (hd : Down.Ordered S.downs) (M : Obs.Kin K Obs) (hM : Obs.NonNeg M) (hK : KeepsNote M)
    (fuel : ℕ) (conds : Obs.St K → C) (mount : K → B → K) (Q : Quota E mark quota L) (hmono : Monotone quota) (hdet : DetKeepsNotes E.q)
    (X : Rest H C B) (hX : ∀ h v, 0 ≤ (X.overhead h v).2) (cfg : Sim.Cfg) (hstep : 0 ≤ cfg.stepNone) (h1 : 0 < cfg.startSize) (h2 : 0 < cfg.appendSize)
    (m : ℕ) (w : World (Core C Sv A × H) K) (hq : w.sched.1.qm.desired = []) (hneed : w.sched.1.qm.need = [])
    (a0 b0 : ℕ) (h0 : (a0 : ℚ) ≤ quota b0 + L) (hold : ∀ tier ∈ w.sched.1.tiers, ∀ s ∈ tier, Q.Heard a0 b0 s) :
    ∃ vs : List (Obs.Visit Obs), (Sim.run (V := Obs.Visit Obs) (env S M fuel conds mount (coreSched E X)) cfg m w).st.result = vs.map some
      ∧ ∀ k ≤ vs.length, ((a0 + markedMade mark (vs.take k) : ℕ) : ℚ) ≤ quota (b0 + k) + L := by
  have Kc := whole_contract S hn hd M hM fuel conds mount (coreSched E X) (fun u v => hX _ _)
  obtain ⟨hres, -, htold⟩ := recorded_result (env S M fuel conds mount (coreSched E X)) cfg h1 h2 m w
  have hstart : ∀ p : World (Core C Sv A × H) K × List (Sim.Ev (Obs.Visit Obs) C B), p.1.sched.1 = w.sched.1 → Sim.toldOf p.2 = [] → SimQuota Q a0 b0 p := by
    intro p hp ht
    have hact : p.1.sched.1.qm.active = [] := by
      rw [hp]
      unfold QM.active
      rw [hq]; rfl
    unfold SimQuota
    rw [ht]
    refine ⟨⟨by rw [hp]; exact hold, ?_, ?_⟩, ?_⟩
    · rw [hact]
      exact h0
    · rw [hp]
      unfold QM.Aligned
      rw [hq, hneed]; rfl
    · intro k hk
      have : k = 0 := Nat.le_zero.1 hk
      subst this
      exact h0
  have key := Sim.run_keeps (Sim.recorded_contract Kc) hstep (quota_keeps S hn hd M hM hK fuel conds mount Q hmono hdet X cfg a0 b0) m (w, [])
    (fun _ => hstart _ rfl rfl) (fun _ _ => hstart _ rfl rfl)
  refine ⟨_, hres, ?_⟩
  rw [← htold]
  exact key.2

end

end Verif
