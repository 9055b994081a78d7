import Verif.Lemmas.Delay
import Verif.Props.WholeSource

/-!
What a simulation makes of surveys that offer visits because of visits they have heard of.
-/

namespace Verif

open Whole Core

section
variable {C Sv A K α : Type}

/-- What filling the queue makes of surveys, when visits are asked for only right after the reward. -/
theorem fillQueue_asked {E : Env C Sv A} {s s' : Core C Sv A} {ev : List Ev} {c : C} (hc : s.conditions = some c)
    (h : s.fillQueue E = .ok (s', ev)) (P : Sv → Prop) (hr : ∀ sv, P sv → P (E.sv.reward sv c).2) (hg : ∀ sv, P sv → P (E.sv.gen (E.sv.reward sv c).2 c).2)
    (hp : ∀ t ∈ s.tiers, ∀ sv ∈ t, P sv) : ∀ t ∈ s'.tiers, ∀ sv ∈ t, P sv := by
  have hev : ∀ t ∈ s.tiers, ∀ sv ∈ (evalTier E.sv c t).2, P sv := by
    intro t ht sv hsv
    obtain ⟨sv0, h0, rfl⟩ := List.mem_map.1 hsv
    exact hr _ (hp t ht sv0 h0)
  unfold fillQueue at h
  rw [hc] at h
  dsimp only at h
  split at h
  · cases h
  · rename_i rs brk tiers' hl
    have ht : (∀ t ∈ tiers', ∀ sv ∈ t, P sv) ∧ ∀ i0, brk = some i0 → ∀ t, tiers'[i0]? = some t → ∀ sv ∈ t, P (E.sv.gen sv c).2 := by
      rcases tierLoop_spec E.sv c 0 s.tiers hl with ⟨hb, _, ht, _⟩ | ⟨k, t, hb, hk, _, _, _, ht⟩
      · refine ⟨?_, fun i0 h0 => by rw [hb] at h0; cases h0⟩
        rw [ht]
        intro t h1
        obtain ⟨t0, h0, rfl⟩ := List.mem_map.1 h1
        exact hev t0 h0
      · constructor
        · rw [ht]
          intro t' h1
          rcases List.mem_append.1 h1 with h1 | h1
          · obtain ⟨t0, h0, rfl⟩ := List.mem_map.1 h1
            exact hev t0 (List.mem_of_mem_take h0)
          · rcases List.mem_cons.1 h1 with rfl | h1
            · exact hev t (List.mem_of_getElem? hk)
            · exact hp t' (List.mem_of_mem_drop h1)
        · intro i0 h0 t' ht' sv hsv
          rw [hb] at h0
          cases h0
          obtain ⟨hlt, -⟩ := List.getElem?_eq_some_iff.1 hk
          rw [ht, List.getElem?_append_right (by simp)] at ht'
          have : 0 + k - ((s.tiers.take k).map (fun t => (evalTier E.sv c t).2)).length = 0 := by simp; omega
          rw [this] at ht'
          cases ht'
          obtain ⟨sv0, h0, rfl⟩ := List.mem_map.1 (show sv ∈ t.map _ from hsv)
          exact hg _ (hp t (List.mem_of_getElem? hk) sv0 h0)
    obtain ⟨ht, hb⟩ := ht
    split at h
    · cases h
    · split at h
      · cases h; exact ht
      · split at h
        · rename_i i0 i1 _
          split at h
          · cases h
          · rename_i tier hti
            split at h
            · cases h
            · rename_i sv hsv
              split at h
              · cases h
              · cases h
                dsimp only
                intro t h1 v hv
                have htier := ht tier (List.mem_of_getElem? hti)
                rcases List.mem_or_eq_of_mem_set h1 with h1 | rfl
                · exact ht t h1 v hv
                · rcases List.mem_or_eq_of_mem_set hv with hv | rfl
                  · exact htier v hv
                  · exact hb _ rfl tier hti sv (List.mem_of_getElem? hsv)
        · cases h

/-- Surveys that, when asked right after their reward was computed, offer only visits for which there is a reason in the visits heard of and the time of the conditions.
`Heard hs bar s` says that the survey has heard of the visits `hs`, and of no time after `bar`. -/
structure Causes (E : Env C Sv A) (key : Obs → α) (Because : List Obs → ℚ → α → Prop) where
  Heard : List Obs → ℚ → Sv → Prop
  later : ∀ {hs x y s}, x ≤ y → Heard hs x s → Heard hs y s
  reward : ∀ {hs bar s} c, E.q.mjdOf c ≤ bar → Heard hs bar s → Heard hs bar (E.sv.reward s c).2
  gen : ∀ {hs bar s} c, E.q.mjdOf c ≤ bar → Heard hs bar s → Heard hs bar (E.sv.gen (E.sv.reward s c).2 c).2
  update : ∀ {hs bar s} c, E.q.mjdOf c ≤ bar → Heard hs bar s → Heard hs bar (E.sv.update s c)
  hear : ∀ {hs s} o, Heard hs o.mjd s → Heard (hs ++ [o]) o.mjd (E.sv.addObs s o)
  cause : ∀ {hs bar s} c, E.q.mjdOf c ≤ bar → Heard hs bar s → ∀ g ∈ (E.sv.gen (E.sv.reward s c).2 c).1, ∃ t ≤ bar, Because hs t (key g)

/-- There was a reason at some time, not after `x`, in the visits of `hs` before some place; the visits from there on were made not before that time. -/
def Reasoned (Because : List Obs → ℚ → α → Prop) (hs : List Obs) (x : ℚ) (k : α) : Prop :=
  ∃ h1 t, h1 <+: hs ∧ t ≤ x ∧ Because h1 t k ∧ ∀ o ∈ hs.drop h1.length, t ≤ o.mjd

theorem Reasoned.later {Because : List Obs → ℚ → α → Prop} {hs : List Obs} {x y : ℚ} {k : α} (h : Reasoned Because hs x k) (h2 : x ≤ y) :
    Reasoned Because hs y k := by
  obtain ⟨l, t, a, b, c⟩ := h
  exact ⟨l, t, a, b.trans h2, c⟩

theorem Reasoned.more {Because : List Obs → ℚ → α → Prop} {hs : List Obs} {o : Obs} {k : α} (h : Reasoned Because hs o.mjd k) :
    Reasoned Because (hs ++ [o]) o.mjd k := by
  obtain ⟨l, t, a, b, c, d⟩ := h
  refine ⟨l, t, a.trans (List.prefix_append _ _), b, c, ?_⟩
  rw [List.drop_append_of_le_length a.length_le]
  intro o' ho
  rcases List.mem_append.1 ho with ho | ho
  · exact d o' ho
  · rw [List.mem_singleton.1 ho]
    exact b

variable {E : Env C Sv A} {M : Obs.Kin K Obs} {key : Obs → α} {Because : List Obs → ℚ → α → Prop}

/-- The surveys have heard of the visits, and there is a reason for all that is in the queue. -/
structure HeldCause (Q : Causes E key Because) (bar : ℚ) (hs : List Obs) (s : Core C Sv A) : Prop where
  surveys : AllSurveys (Q.Heard hs bar) s
  queue : ∀ o ∈ s.qm.desired, Reasoned Because hs bar (key o)
  known : ∀ c, s.conditions = some c → E.q.mjdOf c ≤ bar

theorem HeldCause.later {Q : Causes E key Because} {x y : ℚ} {hs : List Obs} {s : Core C Sv A} (h : HeldCause Q x hs s) (hxy : x ≤ y) : HeldCause Q y hs s :=
  ⟨fun t ht sv hv => Q.later hxy (h.surveys t ht sv hv), fun o ho => (h.queue o ho).later hxy, fun c hc => (h.known c hc).trans hxy⟩

theorem cause_fill {Q : Causes E key Because} (hkey : KeptColumns E M key) {bar : ℚ} {hs : List Obs} {s s' : Core C Sv A} {ev : List Ev} {c : C}
    (hc : s.conditions = some c) (hf : s.fillQueue E = .ok (s', ev)) (h : HeldCause Q bar hs s) : HeldCause Q bar hs s' := by
  have hle := h.known c hc
  refine ⟨fillQueue_asked hc hf (Q.Heard hs bar) (fun sv hp => Q.reward c hle hp) (fun sv hp => Q.gen c hle hp) h.surveys, ?_, ?_⟩
  · intro o ho
    obtain ⟨sv, g, ⟨i, tier, j, r, hi, hj, -⟩, hg, hk⟩ := fill_from hkey hc hf o ho
    rw [← hk]
    obtain ⟨t, ht, hb⟩ := Q.cause c hle (h.surveys tier (List.mem_of_getElem? hi) sv (List.mem_of_getElem? hj)) g hg
    exact ⟨hs, t, List.prefix_refl _, ht, hb, by simp⟩
  · rw [(fillQueue_frame hf).1]
    exact h.known

theorem cause_request {Q : Causes E key Because} (hkey : KeptColumns E M key) {bar : ℚ} {hs : List Obs} {s s' : Core C Sv A} {x : ℚ} {r : Option Obs}
    (h : HeldCause Q bar hs s) (hr : coreRequest E s x = some (s', r)) : HeldCause Q bar hs s' ∧ ∀ o ∈ r, Reasoned Because hs bar (key o) := by
  unfold coreRequest at hr
  cases hq : s.request E (some x) false with
  | error e => rw [hq] at hr; cases hr
  | ok z =>
    obtain ⟨s1, l, ev⟩ := z
    rw [hq] at hr
    have hr : some (s1, l.bind List.head?) = some (s', r) := hr
    simp only [Option.some.injEq, Prod.mk.injEq] at hr
    obtain ⟨rfl, rfl⟩ := hr
    obtain ⟨c, s2, ev2, hc, hfirst, hrest⟩ := request_cases hq
    have h2 : HeldCause Q bar hs s2 ∧ s2.conditions = some c := by
      rcases hfirst with ⟨-, hf⟩ | ⟨-, rfl, -⟩
      · exact ⟨cause_fill hkey hc hf h, (fillQueue_frame hf).1.trans hc⟩
      · exact ⟨h, hc⟩
    have hgive : ∀ u : Core C Sv A, HeldCause Q bar hs u → HeldCause Q bar hs { u with qm := (u.qm.request E.q c false).2 }
        ∧ ∀ o ∈ (some ((u.qm.request E.q c false).1.map setNote)).bind List.head?, Reasoned Because hs bar (key o) := by
      intro u hu
      have hqq := qrequest_queue E.q u.qm c false
      refine ⟨⟨by exact hu.surveys, ?_, by exact hu.known⟩, ?_⟩
      · dsimp only
        rw [hqq.1]
        exact hu.queue
      · intro o ho
        have ho := List.mem_of_head? (show ((u.qm.request E.q c false).1.map setNote).head? = some o from ho)
        obtain ⟨o1, ho1, rfl⟩ := List.mem_map.1 ho
        obtain ⟨o2, ho2, hk⟩ := qrequest_from hkey u.qm c false o1 ho1
        have e : key (setNote o1) = key o2 := (hkey.note _ _).trans hk.symm
        rw [e]
        exact hu.queue o2 ho2
    obtain ⟨h2, h2c⟩ := h2
    rcases hrest with ⟨-, rfl, rfl, -⟩ | ⟨-, -, rfl, rfl, -⟩ | ⟨-, -, s3, ev3, hf, rfl, -, hout⟩
    · exact ⟨h2, by rintro o ⟨⟩⟩
    · exact hgive s2 h2
    · have h3 : HeldCause Q bar hs s3 := cause_fill hkey (by exact h2c) hf
        ⟨by exact h2.surveys, fun o ho => absurd (show o ∈ [] from ho) List.not_mem_nil, by exact h2.known⟩
      rcases hout with ⟨-, rfl⟩ | ⟨-, rfl⟩
      · exact ⟨(hgive s3 h3).1, by rintro o ⟨⟩⟩
      · exact hgive s3 h3

theorem cause_update {Q : Causes E key Because} {bar : ℚ} {hs : List Obs} {s : Core C Sv A} (h : HeldCause Q bar hs s) (c : C) (hc : E.q.mjdOf c ≤ bar) :
    HeldCause Q bar hs (s.update E c) := by
  have ht : (s.tooStep E c).tiers = s.tiers := by
    unfold tooStep
    split
    · split
      · rfl
      · dsimp only
        split_ifs <;> rfl
    · rfl
  refine ⟨?_, fun o ho => h.queue o (update_queue s c o ho), ?_⟩
  · show ∀ tier ∈ (s.tooStep E c).tiers.map (fun t => t.map fun v => E.sv.update v c), _
    rw [ht]
    intro tier h1 sv h2
    obtain ⟨t0, h3, rfl⟩ := List.mem_map.1 h1
    obtain ⟨sv0, h4, rfl⟩ := List.mem_map.1 h2
    exact Q.update c hc (h.surveys t0 h3 sv0 h4)
  · intro c' h
    have h : some c = some c' := h
    cases h
    exact hc

theorem cause_add {Q : Causes E key Because} {hs : List Obs} {s : Core C Sv A} (v : Obs.Visit Obs) (h : HeldCause Q v.mjd hs s) :
    HeldCause Q v.mjd (hs ++ [madeRow v]) (s.addObs E (told v)).1 := by
  refine ⟨?_, ?_, h.known⟩
  · show ∀ tier ∈ s.tiers.map (fun t => t.map fun x => E.sv.addObs x (backfillBand (told v))), _
    rw [backfill_told]
    intro tier h1 sv h2
    obtain ⟨t0, h3, rfl⟩ := List.mem_map.1 h1
    obtain ⟨sv0, h4, rfl⟩ := List.mem_map.1 h2
    exact Q.hear (madeRow v) (h.surveys t0 h3 sv0 h4)
  · intro o ho
    have : o ∈ s.qm.desired := by
      have ho : o ∈ (s.qm.addObs E.q (backfillBand (told v))).desired := ho
      unfold QM.addObs at ho
      dsimp only at ho
      split_ifs at ho <;> exact ho
    exact (h.queue o this).more (o := madeRow v)

end

/-! ### The simulation -/

section
variable {C B Sv A H K α : Type} {E : Env C Sv A} {key : Obs → α} {Because : List Obs → ℚ → α → Prop}

/-- The surveys have heard of the visits told of, and for each of these there was a reason in those before it. -/
def SimCause (Q : Causes E key Because) (past : List Obs) (p : World (Core C Sv A × H) K × List (Sim.Ev (Obs.Visit Obs) C B)) : Prop :=
  HeldCause Q p.1.obs.mjd (past ++ (Sim.toldOf p.2).map madeRow) p.1.sched.1
    ∧ ∀ i v, (Sim.toldOf p.2)[i]? = some v → Reasoned Because (past ++ ((Sim.toldOf p.2).take i).map madeRow) (slewStart v) (key v.target)

theorem SimCause.on {Q : Causes E key Because} {past : List Obs} {p q : World (Core C Sv A × H) K × List (Sim.Ev (Obs.Visit Obs) C B)} (h : SimCause Q past p)
    (ht : Sim.toldOf q.2 = Sim.toldOf p.2) (hs : ∀ ts, HeldCause Q p.1.obs.mjd ts p.1.sched.1 → HeldCause Q q.1.obs.mjd ts q.1.sched.1) : SimCause Q past q := by
  unfold SimCause
  rw [ht]
  exact ⟨hs _ h.1, h.2⟩

theorem cause_keeps (S : Obs.Site) (hn : Obs.Nights S.nights) (hd : Down.Ordered S.downs) (M : Obs.Kin K Obs) (hM : Obs.NonNeg M) (fuel : ℕ)
    (conds : Obs.St K → C) (mount : K → B → K) (Q : Causes E key Because) (htime : ∀ st, E.q.mjdOf (conds st) = st.mjd) (hkey : KeptColumns E M key) (X : Rest H C B)
    (cfg : Sim.Cfg) (past : List Obs) :
    Sim.KeepsNow (env S M fuel conds mount (coreSched E X)).recorded cfg (SimCause Q past) (SimCause Q past)
      (fun v p => SimCause Q past p ∧ Reasoned Because (past ++ (Sim.toldOf p.2).map madeRow) p.1.obs.mjd (key v.target))
      (fun v p => SimCause Q past p ∧ Reasoned Because (past ++ (Sim.toldOf p.2).map madeRow) (slewStart v) (key v.target)
        ∧ HeldCause Q v.mjd (past ++ (Sim.toldOf p.2).map madeRow) p.1.sched.1 ∧ v.mjd ≤ p.1.obs.mjd) := by
  have hsame : ∀ (w q : World (Core C Sv A × H) K × List (Sim.Ev (Obs.Visit Obs) C B)) e, SimCause Q past w → q.2 = w.2 ++ [e] → Sim.toldOf [e] = [] →
      q.1.sched.1 = w.1.sched.1 → w.1.obs.mjd ≤ q.1.obs.mjd → SimCause Q past q :=
    fun w q e h h1 h2 h3 h4 => h.on (by rw [h1, told_one _ _ h2]) (fun ts h => by rw [h3]; exact h.later h4)
  have hconds : ∀ w, SimCause Q past w → SimCause Q past ((env S M fuel conds mount (coreSched E X)).recorded.conds w).1 :=
    fun w h => hsame w _ _ h rfl rfl rfl le_rfl
  have hcheck : ∀ w x, SimCause Q past w → SimCause Q past ((env S M fuel conds mount (coreSched E X)).recorded.check w x).1 :=
    fun w x h => hsame w _ _ h rfl rfl rfl le_rfl
  have hupdate : ∀ w, SimCause Q past w → SimCause Q past (Sim.updateNow (env S M fuel conds mount (coreSched E X)).recorded w) := fun w h =>
    (hconds w h).on (told_one _ _ rfl) (fun ts h => cause_update h _ (le_of_eq (htime _)))
  have hreq : ∀ (w : World (Core C Sv A × H) K × List (Sim.Ev (Obs.Visit Obs) C B)) x, SimCause Q past w →
      SimCause Q past ((env S M fuel conds mount (coreSched E X)).recorded.request w x).1
      ∧ ∀ v ∈ ((env S M fuel conds mount (coreSched E X)).recorded.request w x).2,
        Reasoned Because (past ++ (Sim.toldOf ((env S M fuel conds mount (coreSched E X)).recorded.request w x).1.2).map madeRow)
          ((env S M fuel conds mount (coreSched E X)).recorded.request w x).1.1.obs.mjd (key v.target) := by
    intro w x h
    show SimCause Q past ((requestOf (coreSched E X) w.1 x).1, w.2 ++ [.request w.1.obs.mjd x (requestOf (coreSched E X) w.1 x).2])
      ∧ ∀ v ∈ (requestOf (coreSched E X) w.1 x).2, Reasoned Because (past ++ (Sim.toldOf (w.2 ++ [_])).map madeRow) (requestOf (coreSched E X) w.1 x).1.obs.mjd (key v.target)
    rw [told_one _ _ rfl]
    have hr : (coreSched E X).request w.1.sched x = (coreRequest E w.1.sched.1 x).map fun r => ((r.1, w.1.sched.2), r.2) := rfl
    unfold requestOf
    rw [hr]
    cases hq : coreRequest E w.1.sched.1 x with
    | none => exact ⟨h.on (told_one _ _ rfl) (fun _ h => h), by rintro v ⟨⟩⟩
    | some r =>
      obtain ⟨s', o⟩ := r
      refine ⟨h.on (told_one _ _ rfl) (fun _ h => (cause_request hkey h hq).1), ?_⟩
      intro v hv
      cases o with
      | none => cases hv
      | some o =>
        have hv : some (asked o) = some v := hv
        cases hv
        exact (cause_request hkey h.1 hq).2 o rfl
  have hobs : ∀ (w : World (Core C Sv A × H) K × List (Sim.Ev (Obs.Visit Obs) C B)) v, (observeOf S M fuel w.1 v).1.sched = w.1.sched
      ∧ w.1.obs.mjd ≤ (observeOf S M fuel w.1 v).1.obs.mjd
      ∧ ∀ v', (observeOf S M fuel w.1 v).2.1 = some v' → key v'.target = key v.target ∧ slewStart v' = w.1.obs.mjd
        ∧ w.1.obs.mjd ≤ v'.mjd ∧ v'.mjd ≤ (observeOf S M fuel w.1 v).1.obs.mjd := by
    intro w v
    unfold observeOf
    cases ho : Obs.observe S M fuel w.1.obs v.target with
    | error e => exact ⟨rfl, le_rfl, by rintro v' ⟨⟩⟩
    | ok r =>
      obtain ⟨s', r, nn⟩ := r
      refine ⟨rfl, Obs.observe_forward hn hd hM ho, ?_⟩
      intro v' hv'
      have hv' : r = some v' := hv'
      subst hv'
      obtain ⟨hsl, hve, -, -, -, -, -, hnn, k, hk⟩ := observe_some hn hd hM ho
      refine ⟨hkey.prepare _ _ _ _ hk, hsl, ?_, ?_⟩
      · rw [← hsl]
        unfold slewStart
        have : 0 ≤ v'.slewtime / 24 / 3600 := by
          have := hnn.1
          positivity
        linarith
      · show v'.mjd ≤ s'.mjd
        rw [← hve]
        unfold visitEnd
        have : 0 ≤ v'.visittime / 24 / 3600 := by
          have := hnn.2
          positivity
        linarith
  refine ⟨hconds, hcheck, hupdate, fun w x h hx => hsame w _ _ h rfl rfl rfl hx, fun w v h => hsame w _ _ h rfl rfl rfl le_rfl,
    fun w h => h.on (told_one _ _ rfl) (fun _ h => ⟨by exact h.surveys, fun o ho => absurd (show o ∈ [] from ho) List.not_mem_nil, by exact h.known⟩),
    fun w c h => hsame w _ _ h rfl rfl rfl le_rfl, fun w b h => hsame w _ _ h rfl rfl rfl le_rfl, fun w h => Sim.refresh_keeps_now hcheck hupdate w h,
    ?_, ?_, ?_, ?_, ?_, ?_, ?_⟩
  · intro w u h hr
    have := (hreq w ((env S M fuel conds mount (coreSched E X)).recorded.clock w) h).1
    rw [hr] at this
    exact this
  · intro w u v h hr
    have := hreq w ((env S M fuel conds mount (coreSched E X)).recorded.clock w) h
    rw [hr] at this
    exact ⟨this.1, this.2 v rfl⟩
  · rintro w v x nn ⟨h, -⟩ ho
    have hx : x = ((observeOf S M fuel w.1 v).1, w.2 ++ [.observe w.1.obs.mjd v (observeOf S M fuel w.1 v).1.obs.mjd
      (observeOf S M fuel w.1 v).2.1 (observeOf S M fuel w.1 v).2.2]) := (congrArg Prod.fst ho).symm
    subst hx
    exact hsame w _ _ h rfl rfl (by rw [(hobs w v).1]) (hobs w v).2.1
  · rintro w v x v' nn ⟨h, hrow⟩ ho
    have hx : x = ((observeOf S M fuel w.1 v).1, w.2 ++ [.observe w.1.obs.mjd v (observeOf S M fuel w.1 v).1.obs.mjd
      (observeOf S M fuel w.1 v).2.1 (observeOf S M fuel w.1 v).2.2]) := (congrArg Prod.fst ho).symm
    have hv : (observeOf S M fuel w.1 v).2.1 = some v' := congrArg (fun z => z.2.1) ho
    obtain ⟨o1, o0, o2⟩ := hobs w v
    obtain ⟨o3, o4, o5, o6⟩ := o2 v' hv
    subst hx
    refine ⟨hsame w _ _ h rfl rfl (by rw [o1]) o0, ?_, ?_, o6⟩
    · dsimp only
      rw [told_one _ _ rfl, o3, o4]
      exact hrow
    · dsimp only
      rw [o1, told_one _ _ rfl]
      exact h.1.later o5
  · rintro w v ⟨h, h2, h3, h4⟩
    refine ⟨hsame w _ _ h rfl rfl rfl le_rfl, ?_, ?_, h4⟩
    · show Reasoned Because (past ++ (Sim.toldOf (w.2 ++ [_])).map madeRow) _ _
      rw [told_one _ _ rfl]
      exact h2
    · show HeldCause Q v.mjd (past ++ (Sim.toldOf (w.2 ++ [_])).map madeRow) w.1.sched.1
      rw [told_one _ _ rfl]
      exact h3
  · rintro w v x ⟨h, h2, h3, h4⟩ hx
    refine ⟨hsame w _ _ h rfl rfl rfl hx, ?_, ?_, h4.trans hx⟩
    · show Reasoned Because (past ++ (Sim.toldOf (w.2 ++ [_])).map madeRow) _ _
      rw [told_one _ _ rfl]
      exact h2
    · show HeldCause Q v.mjd (past ++ (Sim.toldOf (w.2 ++ [_])).map madeRow) w.1.sched.1
      rw [told_one _ _ rfl]
      exact h3
  · rintro w v ⟨h, hrow, hlate, hle⟩
    have ht : Sim.toldOf ((env S M fuel conds mount (coreSched E X)).recorded.add w v).2 = Sim.toldOf w.2 ++ [v] := by
      show Sim.toldOf (w.2 ++ [.add w.1.obs.mjd v]) = _
      rw [Sim.toldOf_append]
      rfl
    have hnew := (cause_add v hlate).later hle
    unfold SimCause
    rw [ht, List.map_append, ← List.append_assoc]
    refine ⟨hnew, ?_⟩
    intro i u hu
    rcases lt_or_ge i (Sim.toldOf w.2).length with hi | hi
    · rw [List.getElem?_append_left hi] at hu
      rw [List.take_append_of_le_length hi.le]
      exact h.2 i u hu
    · have hi2 := (List.getElem?_eq_some_iff.1 hu).1
      rw [List.length_append, List.length_singleton] at hi2
      have hi3 : i = (Sim.toldOf w.2).length := by omega
      subst hi3
      rw [List.getElem?_append_right le_rfl, Nat.sub_self] at hu
      have hu : some v = some u := hu
      cases hu
      rw [List.take_append_of_le_length le_rfl, List.take_length]
      exact hrow

/-- For every visit of a simulation there was a reason, no later than its slew, in visits made or known before it. -/
theorem cause_kept (S : Obs.Site) (hn : Obs.Nights S.nights) (hd : Down.Ordered S.downs) (M : Obs.Kin K Obs) (hM : Obs.NonNeg M)
    (fuel : ℕ) (conds : Obs.St K → C) (mount : K → B → K) (Q : Causes E key Because) (htime : ∀ st, E.q.mjdOf (conds st) = st.mjd) (hkey : KeptColumns E M key)
    (X : Rest H C B) (hX : ∀ h v, 0 ≤ (X.overhead h v).2) (cfg : Sim.Cfg) (hstep : 0 ≤ cfg.stepNone) (h1 : 0 < cfg.startSize) (h2 : 0 < cfg.appendSize)
    (m : ℕ) (w : World (Core C Sv A × H) K) (hc : w.sched.1.conditions = none) (hq : w.sched.1.qm.desired = [])
    (past : List Obs) (hold : ∀ tier ∈ w.sched.1.tiers, ∀ s ∈ tier, Q.Heard past (cfg.simStart.getD w.obs.mjd) s) :
    ∃ vs : List (Obs.Visit Obs), (Sim.run (V := Obs.Visit Obs) (env S M fuel conds mount (coreSched E X)) cfg m w).st.result = vs.map some
      ∧ ∀ i v, vs[i]? = some v → Reasoned Because (past ++ (vs.take i).map madeRow) (slewStart v) (key v.target) := by
  have Kc := whole_contract S hn hd M hM fuel conds mount (coreSched E X) (fun u v => hX _ _)
  obtain ⟨hres, -, htold⟩ := recorded_result (env S M fuel conds mount (coreSched E X)) cfg h1 h2 m w
  have hstart : ∀ p : World (Core C Sv A × H) K × List (Sim.Ev (Obs.Visit Obs) C B), p.1.sched.1 = w.sched.1 → cfg.simStart.getD w.obs.mjd = p.1.obs.mjd → Sim.toldOf p.2 = [] →
      SimCause Q past p := by
    intro p hp hle ht
    unfold SimCause
    rw [ht]
    show HeldCause Q p.1.obs.mjd (past ++ []) _ ∧ _
    rw [List.append_nil]
    refine ⟨⟨by rw [hp, ← hle]; exact hold, ?_, by rw [hp, hc]; rintro c ⟨⟩⟩, ?_⟩
    · rw [hp, hq]
      exact fun o ho => absurd ho List.not_mem_nil
    · intro i v hv
      cases hv
  have key := Sim.run_keeps_now (Sim.recorded_contract Kc) hstep (cause_keeps S hn hd M hM fuel conds mount Q htime hkey X cfg past) m (w, [])
    (fun h => hstart _ rfl (by rw [h]; rfl) rfl) (fun _ h => hstart _ rfl (by rw [h]; rfl) rfl)
  refine ⟨_, hres, ?_⟩
  rw [← htold]
  exact key.2

end

end Verif
