import Verif.Props.WholeNight
import Verif.Props.WholeOrder

/-!
C222: a whole simulation loses no time. Between the end of a visit and the start of the slew to the next, the clock stands still, unless at some time in
between no survey had anything to observe or a visit that was asked for could not be made.
-/

namespace Verif

open Core Whole

section

variable {C Sv A K H B F : Type}

/-- At the time of `st` no survey that has heard of the visits `heard` has a reward above minus infinity. -/
def NoneFeasible (conds : Obs.St K → C) (E : Env C Sv A) (R : Follower E F) (base : List (List F)) (heard : List (Obs.Visit Obs)) (st : Obs.St K) : Prop :=
  ∃ tiers : List (List Sv), (tiers.map fun t => t.map R.look) = (base.map fun t => t.map fun f => (heard.map madeRow).foldl R.hear f)
    ∧ ∀ t ∈ tiers, ∀ sv ∈ t, ∀ r ∈ (E.sv.reward sv (conds st)).1, XReal.ltB .ninf r = false

/-- The observatory in `st` cannot make the visit `o`: the telescope cannot slew to it, or it would end when the site is closed. -/
def Refused (S : Obs.Site) (M : Obs.Kin K Obs) (st : Obs.St K) (o : Obs) : Prop :=
  ∃ k o', M.prepare st.kin st.mjd o = some o' ∧ (k = st.kin ∨ k = M.park st.kin)
    ∧ ∀ slew ∈ (M.observe k o' st.mjd).2.1, ¬ Obs.Open S (st.mjd + (slew + (M.observe k o' st.mjd).2.2) / 24 / 3600)

/-- Between `a` and `b` the scheduler was asked for a visit and had none because no survey was feasible, or gave one that could not be made. -/
def Excuse (S : Obs.Site) (M : Obs.Kin K Obs) (conds : Obs.St K → C) (E : Env C Sv A) (R : Follower E F) (base : List (List F))
    (log : List (Sim.Ev (Obs.Visit Obs) C B)) (heard : List (Obs.Visit Obs)) (a b : ℚ) : Prop :=
  ∃ st : Obs.St K, a ≤ st.mjd ∧ st.mjd ≤ b ∧ ((.request st.mjd st.mjd none ∈ log ∧ NoneFeasible conds E R base heard st)
    ∨ ∃ v, .request st.mjd st.mjd (some v) ∈ log ∧ Refused S M st v.target)

theorem Excuse.mono {S : Obs.Site} {M : Obs.Kin K Obs} {conds : Obs.St K → C} {E : Env C Sv A} {R : Follower E F} {base : List (List F)}
    {log log' : List (Sim.Ev (Obs.Visit Obs) C B)} {heard : List (Obs.Visit Obs)} {a b b' : ℚ} (h : Excuse S M conds E R base log heard a b)
    (hl : ∀ e ∈ log, e ∈ log') (hb : b ≤ b') : Excuse S M conds E R base log' heard a b' := by
  obtain ⟨st, h1, h2, h3⟩ := h
  refine ⟨st, h1, h2.trans hb, h3.imp (fun h => ⟨hl _ h.1, h.2⟩) ?_⟩
  rintro ⟨v, h4, h5⟩
  exact ⟨v, hl _ h4, h5⟩

/-- The queue holds only visits that do not expire. -/
def NoExpiry (q : QM A) : Prop := q.Aligned ∧ ∀ o ∈ q.desired, o.flushBy = 0

theorem noExpiry_fill {E : Env C Sv A} (hexp : ∀ sv c, ∀ g ∈ (E.sv.gen sv c).1, g.flushBy = 0) {s s' : Core C Sv A} {ev : List Ev} {c : C}
    (hc : s.conditions = some c) (hf : s.fillQueue E = .ok (s', ev)) : NoExpiry s'.qm := by
  refine ⟨fillQueue_aligned hf, ?_⟩
  rcases fillQueue_spec hc hf with ⟨-, hq, -⟩ | ⟨i, j, tier, sv, filled, -, -, -, -, -, -, -, hfill, hq, -⟩
  · rw [hq]
    exact fun o ho => absurd ho List.not_mem_nil
  · have hdes : s'.qm.desired = filled := by rw [hq]; rfl
    rw [hdes]
    intro o ho
    have hfa := List.forall₂_iff_get.1 (fillFilters_forall _ _ _ _ hfill)
    obtain ⟨n, hn, rfl⟩ := List.mem_iff_getElem.1 ho
    have hn' : n < (E.sv.gen (E.sv.reward sv c).2 c).1.length := by rw [hfa.1]; exact hn
    have h4 : { filled[n] with targetId := ((E.sv.gen (E.sv.reward sv c).2 c).1[n]).targetId, filter := ((E.sv.gen (E.sv.reward sv c).2 c).1[n]).filter }
          = (E.sv.gen (E.sv.reward sv c).2 c).1[n] := (hfa.2 n hn' hn).2.2.2
    have h5 := hexp _ _ _ (List.getElem_mem hn')
    rw [← h4] at h5
    exact h5

theorem qrequest_nonempty {E : Env C Sv A} (hmask : ∀ a c, (E.q.reward a c).length ≤ 1) (hdet : ∀ a c l, l ≠ [] → (E.q.detail a c l).1 ≠ [])
    {q : QM A} (hq : NoExpiry q) (hp : q.nonePending = false) (c : C) : (q.request E.q c false).1 ≠ [] := by
  have hsel := QM.selectable_active E.q q c hq.1 (hmask _ _) (by
    intro x hx _
    right
    unfold QM.active at hx
    obtain ⟨y, hy, rfl⟩ := List.mem_map.1 hx
    exact hq.2 y.1 (List.of_mem_zip (List.mem_filter.1 hy).1).1)
  have hact : q.active ≠ [] := by
    unfold QM.nonePending at hp
    obtain ⟨b, hb, hbt⟩ := List.all_eq_false.1 hp
    obtain ⟨n, hn, rfl⟩ := List.mem_iff_getElem.1 hb
    have hl : q.need.length = q.desired.length := hq.1
    unfold QM.active
    intro he
    have he := List.map_eq_nil_iff.1 he
    rw [List.filter_eq_nil_iff] at he
    refine he (q.desired[n]'(by omega), q.need[n]) ?_ (by simpa using hbt)
    rw [List.mem_iff_getElem]
    exact ⟨n, by rw [List.length_zip]; omega, List.getElem_zip⟩
  rw [QM.request_eq E.q q c false hq.1]
  dsimp only
  have e : (if false = true then q.selectable E.q c (E.q.mjdOf c) else (q.selectable E.q c (E.q.mjdOf c)).take 1)
      = (q.selectable E.q c (E.q.mjdOf c)).take 1 := rfl
  rw [e, hsel]
  cases ha : q.active with
  | nil => exact absurd ha hact
  | cons x l => simpa using hdet _ _ _ (List.cons_ne_nil x [])

/-- A request keeps the queue free of visits that expire, and when it gives nothing the queue was empty and no survey feasible. -/
theorem core_idle {E : Env C Sv A} (hmask : ∀ a c, (E.q.reward a c).length ≤ 1) (hdet : ∀ a c l, l ≠ [] → (E.q.detail a c l).1 ≠ [])
    (hexp : ∀ sv c, ∀ g ∈ (E.sv.gen sv c).1, g.flushBy = 0)
    (hgen : ∀ sv c, Feasible E.sv c sv → (E.sv.gen (E.sv.reward sv c).2 c).1 ≠ []) {s s' : Core C Sv A} {x : ℚ} {r : Option Obs}
    (hq : NoExpiry s.qm) (h : coreRequest E s x = some (s', r)) :
    NoExpiry s'.qm ∧ (r = none → s.qm.nonePending = true ∧ ∀ c ∈ s.conditions, ∀ t ∈ s.tiers, ∀ sv ∈ t, ¬ Feasible E.sv c sv) := by
  unfold coreRequest at h
  cases hr : s.request E (some x) false with
  | error e => rw [hr] at h; cases h
  | ok z =>
    obtain ⟨s1, l, ev⟩ := z
    rw [hr] at h
    have h : some (s1, l.bind List.head?) = some (s', r) := h
    simp only [Option.some.injEq, Prod.mk.injEq] at h
    obtain ⟨rfl, hl⟩ := h
    obtain ⟨c, s2, ev1, hc, hfirst, hrest⟩ := request_cases hr
    have hq2 : NoExpiry s2.qm := by
      rcases hfirst with ⟨-, hf⟩ | ⟨-, rfl, -⟩
      · exact noExpiry_fill hexp hc hf
      · exact hq
    rcases hrest with ⟨hp, rfl, -, -⟩ | ⟨hp, hne, rfl, rfl, -⟩ | ⟨hp, hnil, -⟩
    · refine ⟨hq2, fun _ => ?_⟩
      rcases hfirst with ⟨hp0, hf⟩ | ⟨hp', rfl, -⟩
      · refine ⟨hp0, ?_⟩
        intro c' hc'
        rw [hc] at hc'
        cases hc'
        rcases fillQueue_spec hc hf with ⟨h, -⟩ | ⟨i, j, tier, sv, filled, -, -, -, -, hfe, -, -, hfill, hq, -⟩
        · exact h
        · exfalso
          have hfa := List.forall₂_iff_get.1 (fillFilters_forall _ _ _ _ hfill)
          have hne : filled ≠ [] := by
            intro he
            rw [he] at hfa
            exact hgen sv c hfe (List.length_eq_zero_iff.1 hfa.1)
          obtain ⟨a, as, he⟩ := List.exists_cons_of_ne_nil hne
          rw [hq, he] at hp
          unfold QM.nonePending QM.setQueue at hp
          simp at hp
      · rw [hp] at hp'; cases hp'
    · refine ⟨⟨?_, ?_⟩, ?_⟩
      · have hqq := qrequest_queue E.q s2.qm c false
        unfold QM.Aligned
        dsimp only
        rw [hqq.1, hqq.2]
        exact hq2.1
      · dsimp only
        rw [(qrequest_queue E.q s2.qm c false).1]
        exact hq2.2
      · intro hr0
        obtain ⟨o, os, he⟩ := List.exists_cons_of_ne_nil hne
        rw [he, hr0] at hl
        cases hl
    · exact absurd hnil (qrequest_nonempty hmask hdet hq2 hp c)

theorem noExpiry_update {E : Env C Sv A} (s : Core C Sv A) (c : C) (h : NoExpiry s.qm) : NoExpiry (s.update E c).qm := by
  show NoExpiry (s.tooStep E c).qm
  unfold tooStep
  split
  · split
    · exact h
    · dsimp only
      split
      · exact ⟨rfl, fun o ho => absurd ho List.not_mem_nil⟩
      · exact h
  · exact h

theorem observe_refused {S : Obs.Site} (hn : Obs.Nights S.nights) (hd : Down.Ordered S.downs) {M : Obs.Kin K Obs} {fuel : ℕ}
    {s s' : Obs.St K} {o : Obs} {nn : Bool} (h : Obs.observe S M fuel s o = .ok (s', none, nn)) : Refused S M s o := by
  unfold Obs.observe at h
  cases hp : M.prepare s.kin s.mjd o with
  | none => rw [hp] at h; cases h
  | some o' =>
    rw [hp] at h
    dsimp only at h
    refine ⟨if S.parkAfter < s.mjd - M.lastMjd s.kin then M.park s.kin else s.kin, o', hp, ?_, ?_⟩
    · split
      · exact .inr rfl
      · exact .inl rfl
    · generalize (if S.parkAfter < s.mjd - M.lastMjd s.kin then M.park s.kin else s.kin) = k at h ⊢
      intro slew hs
      have hs : (M.observe k o' s.mjd).2.1 = some slew := hs
      rw [hs] at h
      dsimp only at h
      cases hc : Obs.checkMjd S fuel (s.mjd + (slew + (M.observe k o' s.mjd).2.2) / 24 / 3600) with
      | error e => rw [hc] at h; cases h
      | ok r =>
        obtain ⟨b, x⟩ := r
        rw [hc] at h
        cases b with
        | true => simp at h
        | false => exact (((Obs.check_spec hn hd fuel).1 _ _ _ hc).2 rfl).1

end

section

variable {C Sv A K H B F : Type} {S : Obs.Site} {M : Obs.Kin K Obs} {conds : Obs.St K → C} {E : Env C Sv A} {R : Follower E F} {base : List (List F)} {t0 : ℚ}

/-- When the visits were over before which the others began: the start and the ends of the visits. -/
def endsFrom (t0 : ℚ) (vs : List (Obs.Visit Obs)) : List ℚ := t0 :: vs.map visitEnd

/-- The visits made so far lost no time. -/
structure Busy (S : Obs.Site) (M : Obs.Kin K Obs) (conds : Obs.St K → C) (E : Env C Sv A) (R : Follower E F) (base : List (List F)) (t0 : ℚ)
    (p : World (Core C Sv A × H) K × List (Sim.Ev (Obs.Visit Obs) C B)) : Prop where
  queue : NoExpiry p.1.sched.1.qm
  told : AllTold p
  follows : FollowsTold R base p
  each : ∀ i e b, (endsFrom t0 (Sim.completedOf p.2))[i]? = some e → (Sim.completedOf p.2)[i]? = some b →
    e = slewStart b ∨ Excuse S M conds E R base p.2 ((Sim.completedOf p.2).take i) e (slewStart b)

/-- Time was lost since the last visit, with an excuse. -/
def Lost (S : Obs.Site) (M : Obs.Kin K Obs) (conds : Obs.St K → C) (E : Env C Sv A) (R : Follower E F) (base : List (List F)) (t0 : ℚ)
    (p : World (Core C Sv A × H) K × List (Sim.Ev (Obs.Visit Obs) C B)) : Prop :=
  ∀ e ∈ (endsFrom t0 (Sim.completedOf p.2)).getLast?, Excuse S M conds E R base p.2 (Sim.completedOf p.2) e p.1.obs.mjd

/-- No time was lost since the last visit, or with an excuse. -/
def Gap (S : Obs.Site) (M : Obs.Kin K Obs) (conds : Obs.St K → C) (E : Env C Sv A) (R : Follower E F) (base : List (List F)) (t0 : ℚ)
    (p : World (Core C Sv A × H) K × List (Sim.Ev (Obs.Visit Obs) C B)) : Prop :=
  ∀ e ∈ (endsFrom t0 (Sim.completedOf p.2)).getLast?, e = p.1.obs.mjd ∨ Excuse S M conds E R base p.2 (Sim.completedOf p.2) e p.1.obs.mjd

theorem Busy.on {p q : World (Core C Sv A × H) K × List (Sim.Ev (Obs.Visit Obs) C B)} (h : Busy S M conds E R base t0 p) {e : Sim.Ev (Obs.Visit Obs) C B}
    (he : q.2 = p.2 ++ [e]) (hc : Sim.completedOf [e] = []) (ht : Sim.toldOf [e] = []) (hq : NoExpiry q.1.sched.1.qm)
    (hl : lookAll R q.1.sched.1 = lookAll R p.1.sched.1) : Busy S M conds E R base t0 q := by
  have e1 : Sim.completedOf q.2 = Sim.completedOf p.2 := by rw [he, completed_one _ _ hc]
  refine ⟨hq, h.told.on he hc ht, h.follows.same (by rw [he, told_one _ _ ht]) hl, ?_⟩
  rw [e1]
  intro i a b ha hb
  refine (h.each i a b ha hb).imp id fun hx => hx.mono ?_ le_rfl
  rw [he]
  exact fun e he => List.mem_append_left _ he

theorem Lost.on {p q : World (Core C Sv A × H) K × List (Sim.Ev (Obs.Visit Obs) C B)} (h : Lost S M conds E R base t0 p) {e : Sim.Ev (Obs.Visit Obs) C B}
    (he : q.2 = p.2 ++ [e]) (hc : Sim.completedOf [e] = []) (ht : p.1.obs.mjd ≤ q.1.obs.mjd) : Lost S M conds E R base t0 q := by
  have e1 : Sim.completedOf q.2 = Sim.completedOf p.2 := by rw [he, completed_one _ _ hc]
  unfold Lost
  rw [e1]
  intro a ha
  refine (h a ha).mono ?_ ht
  rw [he]
  exact fun e he => List.mem_append_left _ he

theorem Gap.on {p q : World (Core C Sv A × H) K × List (Sim.Ev (Obs.Visit Obs) C B)} (h : Gap S M conds E R base t0 p) {e : Sim.Ev (Obs.Visit Obs) C B}
    (he : q.2 = p.2 ++ [e]) (hc : Sim.completedOf [e] = []) (ht : p.1.obs.mjd = q.1.obs.mjd) : Gap S M conds E R base t0 q := by
  have e1 : Sim.completedOf q.2 = Sim.completedOf p.2 := by rw [he, completed_one _ _ hc]
  unfold Gap
  rw [e1]
  intro a ha
  refine (h a ha).imp (fun h => h.trans ht) fun h => h.mono ?_ ht.le
  rw [he]
  exact fun e he => List.mem_append_left _ he

theorem Lost.gap {p : World (Core C Sv A × H) K × List (Sim.Ev (Obs.Visit Obs) C B)} (h : Lost S M conds E R base t0 p) : Gap S M conds E R base t0 p :=
  fun e he => .inr (h e he)

theorem busy_keeps (S : Obs.Site) (hn : Obs.Nights S.nights) (hd : Down.Ordered S.downs) (M : Obs.Kin K Obs) (hM : Obs.NonNeg M) (fuel : ℕ)
    (conds : Obs.St K → C) (mount : K → B → K) (E : Env C Sv A) (R : Follower E F) (X : Rest H C B)
    (hmask : ∀ a c, (E.q.reward a c).length ≤ 1) (hdet : ∀ a c l, l ≠ [] → (E.q.detail a c l).1 ≠ [])
    (hexp : ∀ sv c, ∀ g ∈ (E.sv.gen sv c).1, g.flushBy = 0)
    (hgen : ∀ sv c, Feasible E.sv c sv → (E.sv.gen (E.sv.reward sv c).2 c).1 ≠ [])
    (cfg : Sim.Cfg) (hstep : 0 ≤ cfg.stepNone) (hover : cfg.useOverhead = false) (base : List (List F)) (t0 : ℚ) :
    Sim.PassKeeps (env S M fuel conds mount (coreSched E X)).recorded cfg
      (fun p => p.1.raised = true ∨ (Busy S M conds E R base t0 p ∧ Gap S M conds E R base t0 p))
      (fun p => p.1.raised = true ∨ ((Busy S M conds E R base t0 p ∧ Gap S M conds E R base t0 p)
        ∧ (p.1.sched.1.qm.nonePending = true → ∃ st : Obs.St K, st.mjd = p.1.obs.mjd ∧ p.1.sched.1.conditions = some (conds st))))
      (fun v p => p.1.raised = true ∨ ((Busy S M conds E R base t0 p ∧ Gap S M conds E R base t0 p)
        ∧ .request p.1.obs.mjd p.1.obs.mjd (some v) ∈ p.2))
      (fun p => p.1.raised = true ∨ (Busy S M conds E R base t0 p ∧ Lost S M conds E R base t0 p)) := by
  have hs0 : 0 ≤ cfg.step := by unfold Sim.Cfg.step; positivity
  have hsame : ∀ (w q : World (Core C Sv A × H) K × List (Sim.Ev (Obs.Visit Obs) C B)) e,
      (w.1.raised = true ∨ (Busy S M conds E R base t0 w ∧ Gap S M conds E R base t0 w)) → q.2 = w.2 ++ [e] → Sim.completedOf [e] = [] → Sim.toldOf [e] = [] →
      q.1.raised = w.1.raised → q.1.obs.mjd = w.1.obs.mjd → (NoExpiry w.1.sched.1.qm → NoExpiry q.1.sched.1.qm) →
      lookAll R q.1.sched.1 = lookAll R w.1.sched.1 → (q.1.raised = true ∨ (Busy S M conds E R base t0 q ∧ Gap S M conds E R base t0 q)) := by
    intro w q e h h1 h2 h3 h4 h5 h6 h7
    rw [h4]
    exact h.imp id fun h => ⟨h.1.on h1 h2 h3 (h6 h.1.queue) h7, h.2.on h1 h2 h5.symm⟩
  let P := fun p : World (Core C Sv A × H) K × List (Sim.Ev (Obs.Visit Obs) C B) =>
    p.1.raised = true ∨ (Busy S M conds E R base t0 p ∧ Gap S M conds E R base t0 p)
  have hconds : ∀ w, P w → P ((env S M fuel conds mount (coreSched E X)).recorded.conds w).1 := fun w h => hsame w _ _ h rfl rfl rfl rfl rfl id rfl
  have hcheck : ∀ w x, P w → P ((env S M fuel conds mount (coreSched E X)).recorded.check w x).1 := fun w x h => hsame w _ _ h rfl rfl rfl rfl rfl id rfl
  have hbands : ∀ w c, P w → P ((env S M fuel conds mount (coreSched E X)).recorded.bands w c).1 := fun w c h => hsame w _ _ h rfl rfl rfl rfl rfl id rfl
  have hmount : ∀ w b, P w → P ((env S M fuel conds mount (coreSched E X)).recorded.mount w b) := fun w b h => hsame w _ _ h rfl rfl rfl rfl rfl id rfl
  have hnow : ∀ w, P w → P (Sim.updateNow (env S M fuel conds mount (coreSched E X)).recorded w)
      ∧ ∃ st : Obs.St K, st.mjd = (Sim.updateNow (env S M fuel conds mount (coreSched E X)).recorded w).1.obs.mjd
        ∧ (Sim.updateNow (env S M fuel conds mount (coreSched E X)).recorded w).1.sched.1.conditions = some (conds st) := fun w h =>
    ⟨hsame _ _ _ (hconds w h) rfl rfl rfl rfl rfl (noExpiry_update _ _) (update_look R _ _), w.1.obs, rfl, rfl⟩
  have hraise : ∀ (w : World (Core C Sv A × H) K) x, w.raised = true → (requestOf (coreSched E X) w x).1.raised = true := by
    intro w x h
    unfold requestOf
    split
    · rfl
    · exact h
  have hraise' : ∀ (w : World (Core C Sv A × H) K) v, w.raised = true → (observeOf S M fuel w v).1.raised = true := by
    intro w v h
    unfold observeOf
    split
    · rfl
    · exact h
  have hrq : ∀ w : World (Core C Sv A × H) K, (coreSched E X).request w.sched w.obs.mjd = (coreRequest E w.sched.1 w.obs.mjd).map fun r => ((r.1, w.sched.2), r.2) :=
    fun _ => rfl
  have hlook : ∀ {s s' : Core C Sv A} {x : ℚ} {r}, coreRequest E s x = some (s', r) → lookAll R s' = lookAll R s := by
    intro s s' x r h
    unfold coreRequest at h
    cases hr : s.request E (some x) false with
    | error e => rw [hr] at h; cases h
    | ok z =>
      obtain ⟨s1, l, ev⟩ := z
      rw [hr] at h
      have h : some (s1, l.bind List.head?) = some (s', r) := h
      simp only [Option.some.injEq, Prod.mk.injEq] at h
      obtain ⟨rfl, -⟩ := h
      exact request_look R (m := some x) (w := false) hr
  refine ⟨fun w h => hmount _ _ (hbands _ _ (hconds _ h)), ?_, ?_, ?_, ?_, ?_, ?_, fun w v h => hsame w _ _ h rfl rfl rfl rfl rfl id rfl⟩
  · intro w h
    rcases Sim.refresh_cases (E := (env S M fuel conds mount (coreSched E X)).recorded) (cfg := cfg)
      (G := fun p => ∃ st : Obs.St K, st.mjd = p.1.obs.mjd ∧ p.1.sched.1.conditions = some (conds st)) hnow hcheck (fun w x _ hg => hg) w h with ⟨h1, h2⟩ | ⟨-, -, hck, e⟩
    · exact h1.imp id fun h => ⟨h, fun _ => h2⟩
    · rw [e]
      have h1 := hcheck w ((env S M fuel conds mount (coreSched E X)).recorded.clock w) h
      have hp : w.1.sched.1.qm.nonePending = false := check_pending hck
      refine h1.imp id fun h => ⟨h, ?_⟩
      intro h2
      have h2 : w.1.sched.1.qm.nonePending = true := h2
      rw [hp] at h2
      cases h2
  · intro w u h hr
    have hu : u = ((requestOf (coreSched E X) w.1 w.1.obs.mjd).1, w.2 ++ [.request w.1.obs.mjd w.1.obs.mjd (requestOf (coreSched E X) w.1 w.1.obs.mjd).2]) :=
      (congrArg Prod.fst hr).symm
    have hv : (requestOf (coreSched E X) w.1 w.1.obs.mjd).2 = none := congrArg Prod.snd hr
    rw [hv] at hu
    refine (hnow _ ?_).1
    show u.1.raised = true ∨ (Busy S M conds E R base t0 ({ u.1 with obs := { u.1.obs with mjd := u.1.obs.mjd + cfg.step } },
      u.2 ++ [.setClock u.1.obs.mjd (u.1.obs.mjd + cfg.step) (u.1.obs.mjd + cfg.step)]) ∧ Gap S M conds E R base t0
        ({ u.1 with obs := { u.1.obs with mjd := u.1.obs.mjd + cfg.step } },
      u.2 ++ [.setClock u.1.obs.mjd (u.1.obs.mjd + cfg.step) (u.1.obs.mjd + cfg.step)]))
    rcases h with h | ⟨⟨h1, h2⟩, h3⟩
    · left; rw [hu]; exact hraise _ _ h
    · unfold requestOf at hu hv
      rw [hrq] at hu hv
      cases hc : coreRequest E w.1.sched.1 w.1.obs.mjd with
      | none =>
        rw [hc] at hu
        left; rw [hu]; rfl
      | some r =>
        obtain ⟨s', r⟩ := r
        rw [hc] at hu hv
        have hr0 : r = none := by
          cases r with
          | none => rfl
          | some r => cases hv
        subst hr0
        have hu : u = ({ w.1 with sched := (s', w.1.sched.2) }, w.2 ++ [.request w.1.obs.mjd w.1.obs.mjd none]) := hu
        obtain ⟨hq, hnone⟩ := core_idle hmask hdet hexp hgen h1.queue hc
        obtain ⟨hp, hinf⟩ := hnone rfl
        obtain ⟨st, hst, hcond⟩ := h3 hp
        have hbu : Busy S M conds E R base t0 u := by
          subst hu
          exact h1.on rfl rfl rfl hq (hlook hc)
        have hlost : Lost S M conds E R base t0 u := by
          subst hu
          unfold Lost
          dsimp only
          rw [completed_one _ _ rfl]
          intro e he
          rcases h2 e he with h | h
          · refine ⟨st, by rw [hst]; exact h.le, hst.le, .inl ⟨List.mem_append_right _ (List.mem_singleton.2 (by rw [hst])), w.1.sched.1.tiers, ?_, ?_⟩⟩
            · have := h1.follows
              rw [show Sim.completedOf w.2 = Sim.toldOf w.2 from h1.told]
              exact this
            · intro t ht sv hsv r hr
              rw [← Bool.not_eq_true]
              exact fun hlt => hinf _ hcond t ht sv hsv ⟨r, hr, hlt⟩
          · exact h.mono (fun e he => List.mem_append_left _ he) le_rfl
        right
        exact ⟨hbu.on rfl rfl rfl hbu.queue rfl, (hlost.on rfl rfl (by show u.1.obs.mjd ≤ u.1.obs.mjd + cfg.step; linarith)).gap⟩
  · intro w u v h hr
    have hu : u = ((requestOf (coreSched E X) w.1 w.1.obs.mjd).1, w.2 ++ [.request w.1.obs.mjd w.1.obs.mjd (requestOf (coreSched E X) w.1 w.1.obs.mjd).2]) :=
      (congrArg Prod.fst hr).symm
    have hv : (requestOf (coreSched E X) w.1 w.1.obs.mjd).2 = some v := congrArg Prod.snd hr
    rw [hv] at hu
    rcases h with h | ⟨⟨h1, h2⟩, -⟩
    · left; rw [hu]; exact hraise _ _ h
    · unfold requestOf at hu hv
      rw [hrq] at hu hv
      cases hc : coreRequest E w.1.sched.1 w.1.obs.mjd with
      | none => rw [hc] at hv; cases hv
      | some r =>
        obtain ⟨s', r⟩ := r
        rw [hc] at hu
        have hu : u = ({ w.1 with sched := (s', w.1.sched.2) }, w.2 ++ [.request w.1.obs.mjd w.1.obs.mjd (some v)]) := hu
        subst hu
        obtain ⟨hq, -⟩ := core_idle hmask hdet hexp hgen h1.queue hc
        exact .inr ⟨⟨h1.on rfl rfl rfl hq (hlook hc), h2.on rfl rfl rfl⟩, List.mem_append_right _ (List.mem_singleton.2 rfl)⟩
  · intro w v x nn h ho
    have hx : x = ((observeOf S M fuel w.1 v).1, w.2 ++ [.observe w.1.obs.mjd v (observeOf S M fuel w.1 v).1.obs.mjd
      (observeOf S M fuel w.1 v).2.1 (observeOf S M fuel w.1 v).2.2]) := (congrArg Prod.fst ho).symm
    have hv : (observeOf S M fuel w.1 v).2.1 = none := congrArg (fun z => z.2.1) ho
    rw [hv] at hx
    rcases h with h | ⟨⟨h1, h2⟩, h3⟩
    · left; rw [hx]; exact hraise' _ _ h
    · unfold observeOf at hx hv
      cases hob : Obs.observe S M fuel w.1.obs v.target with
      | error e =>
        rw [hob] at hx
        left; rw [hx]
      | ok r =>
        obtain ⟨s', r, nn'⟩ := r
        rw [hob] at hx hv
        dsimp only at hv
        subst hv
        have hx : x = ({ w.1 with obs := s' }, w.2 ++ [.observe w.1.obs.mjd v s'.mjd none nn']) := hx
        subst hx
        have hle := Obs.observe_forward hn hd hM hob
        refine .inr ⟨h1.on rfl rfl rfl h1.queue rfl, ?_⟩
        have hl : Lost S M conds E R base t0 w := by
          intro e he
          rcases h2 e he with h | h
          · exact ⟨w.1.obs, h.le, le_rfl, .inr ⟨v, h3, observe_refused hn hd hob⟩⟩
          · exact h
        exact hl.on rfl rfl hle
  · intro w h
    rcases h with h | ⟨h1, h2⟩
    · exact .inl h
    · have h3 : Lost S M conds E R base t0 ((env S M fuel conds mount (coreSched E X)).recorded.flush w) := h2.on rfl rfl le_rfl
      exact .inr ⟨h1.on rfl rfl rfl ⟨rfl, fun o ho => absurd ho List.not_mem_nil⟩ rfl, h3.gap⟩
  · intro w v x v' nn h ho
    have hov : Sim.addOverhead (env S M fuel conds mount (coreSched E X)).recorded cfg x v' = x := by
      unfold Sim.addOverhead
      rw [hover]
      rfl
    rw [hov]
    have hx : x = ((observeOf S M fuel w.1 v).1, w.2 ++ [.observe w.1.obs.mjd v (observeOf S M fuel w.1 v).1.obs.mjd
      (observeOf S M fuel w.1 v).2.1 (observeOf S M fuel w.1 v).2.2]) := (congrArg Prod.fst ho).symm
    have hv : (observeOf S M fuel w.1 v).2.1 = some v' := congrArg (fun z => z.2.1) ho
    rw [hv] at hx
    rcases h with h | ⟨⟨h1, h2⟩, -⟩
    · left
      show x.1.raised = true
      rw [hx]; exact hraise' _ _ h
    · unfold observeOf at hx hv
      cases hob : Obs.observe S M fuel w.1.obs v.target with
      | error e => rw [hob] at hv; cases hv
      | ok r =>
        obtain ⟨s', r, nn'⟩ := r
        rw [hob] at hx hv
        dsimp only at hv
        subst hv
        have hx : x = ({ w.1 with obs := s' }, w.2 ++ [.observe w.1.obs.mjd v s'.mjd (some v') nn']) := hx
        subst hx
        obtain ⟨hb1, hb2, -⟩ := observe_some hn hd hM hob
        right
        show Busy S M conds E R base t0 ({ w.1 with obs := s', sched := ((w.1.sched.1.addObs E (told v')).1, w.1.sched.2) },
            w.2 ++ [.observe w.1.obs.mjd v s'.mjd (some v') nn'] ++ [.add s'.mjd v'])
          ∧ Gap S M conds E R base t0 ({ w.1 with obs := s', sched := ((w.1.sched.1.addObs E (told v')).1, w.1.sched.2) },
            w.2 ++ [.observe w.1.obs.mjd v s'.mjd (some v') nn'] ++ [.add s'.mjd v'])
        have ec : Sim.completedOf (w.2 ++ [.observe w.1.obs.mjd v s'.mjd (some v') nn'] ++ [.add s'.mjd v']) = Sim.completedOf w.2 ++ [v'] := by
          rw [completed_one _ _ rfl, Sim.completedOf_append]
          rfl
        have et : Sim.toldOf (w.2 ++ [.observe w.1.obs.mjd v s'.mjd (some v') nn'] ++ [.add s'.mjd v']) = Sim.toldOf w.2 ++ [v'] := by
          rw [Sim.toldOf_append, told_one _ _ rfl]
          rfl
        have hmem : ∀ e ∈ w.2, e ∈ w.2 ++ [.observe w.1.obs.mjd v s'.mjd (some v') nn'] ++ [.add s'.mjd v'] :=
          fun e he => List.mem_append_left _ (List.mem_append_left _ he)
        refine ⟨⟨⟨?_, ?_⟩, ?_, ?_, ?_⟩, ?_⟩
        · exact qaddObs_aligned _ _ _ h1.queue.1
        · intro o ho
          exact h1.queue.2 o (addObs_queue _ _ o ho)
        · unfold AllTold
          dsimp only
          rw [ec, et, show Sim.completedOf w.2 = Sim.toldOf w.2 from h1.told]
        · unfold FollowsTold
          dsimp only
          rw [addObs_look, et, backfill_told]
          have := h1.follows
          unfold FollowsTold at this
          rw [this]
          simp [Function.comp_def]
        · dsimp only
          rw [ec]
          intro i e b he hb
          unfold endsFrom at he
          rw [List.map_append] at he
          by_cases hlt : i < (Sim.completedOf w.2).length
          · rw [List.getElem?_append_left hlt] at hb
            rw [← List.cons_append, List.getElem?_append_left (by simp; omega)] at he
            rw [List.take_append_of_le_length hlt.le]
            exact (h1.each i e b he hb).imp id fun h => h.mono hmem le_rfl
          · have hge : (Sim.completedOf w.2).length ≤ i := not_lt.1 hlt
            rw [List.getElem?_append_right hge] at hb
            have hi : i = (Sim.completedOf w.2).length := by
              have := (List.getElem?_eq_some_iff.1 hb).1
              simp at this
              omega
            subst hi
            have hbv : v' = b := by simpa using hb
            subst hbv
            rw [← List.cons_append, List.getElem?_append_left (by simp)] at he
            have hlast : e ∈ (endsFrom t0 (Sim.completedOf w.2)).getLast? := by
              rw [List.getLast?_eq_getElem?]
              unfold endsFrom
              rw [List.length_cons, List.length_map, Nat.add_sub_cancel]
              exact he
            rw [List.take_left', hb1]
            · exact (h2 e hlast).imp id fun h => h.mono hmem le_rfl
            · rfl
        · unfold Gap
          dsimp only
          rw [ec]
          intro e he
          left
          unfold endsFrom at he
          rw [List.map_append, ← List.cons_append] at he
          have he : (t0 :: (Sim.completedOf w.2).map visitEnd ++ [visitEnd v']).getLast? = some e := he
          rw [List.getLast?_concat] at he
          cases he
          exact hb2

/-- C222: in a simulation without overheads, whose queue has no masks, whose visits do not expire and whose surveys generate a visit whenever they are
feasible, no time is lost: each slew begins when the visit before it ended, the first at the start of the simulation, or else at some time in between no
survey (having heard of all visits made so far) had a reward above minus infinity under the conditions of that time, or the visit that was asked for could
not be reached or would have ended when the site is closed. The same holds from the last visit to the end of the simulation. -/
theorem C222_no_time_lost (S : Obs.Site) (hn : Obs.Nights S.nights) (hd : Down.Ordered S.downs) (M : Obs.Kin K Obs) (hM : Obs.NonNeg M) (fuel : ℕ)
    (conds : Obs.St K → C) (mount : K → B → K) (E : Env C Sv A) (R : Follower E F) (X : Rest H C B)
    (hmask : ∀ a c, (E.q.reward a c).length ≤ 1) (hdet : ∀ a c l, l ≠ [] → (E.q.detail a c l).1 ≠ [])
    (hexp : ∀ sv c, ∀ g ∈ (E.sv.gen sv c).1, g.flushBy = 0)
    (hgen : ∀ sv c, (∃ r ∈ (E.sv.reward sv c).1, XReal.ltB .ninf r = true) → (E.sv.gen (E.sv.reward sv c).2 c).1 ≠ [])
    (cfg : Sim.Cfg) (hstep : 0 ≤ cfg.stepNone) (hover : cfg.useOverhead = false) (h1 : 0 < cfg.startSize) (h2 : 0 < cfg.appendSize) (n : ℕ)
    (w : World (Core C Sv A × H) K) (hq : w.sched.1.qm.desired = []) (hq' : w.sched.1.qm.need = [])
    (hraised : (Sim.run (V := Obs.Visit Obs) (env S M fuel conds mount (coreSched E X)) cfg n w).st.w.raised = false) :
    let log := (Sim.run (V := Obs.Visit Obs) (env S M fuel conds mount (coreSched E X)).recorded cfg n (w, [])).st.w.2
    let base := w.sched.1.tiers.map fun t => t.map R.look
    let t0 := cfg.simStart.getD w.obs.mjd
    ∃ vs : List (Obs.Visit Obs), (Sim.run (V := Obs.Visit Obs) (env S M fuel conds mount (coreSched E X)) cfg n w).st.result = vs.map some
      ∧ (∀ i e v, (t0 :: vs.map fun v => v.mjd + v.visittime / 24 / 3600)[i]? = some e → vs[i]? = some v →
        v.mjd - v.slewtime / 24 / 3600 = e ∨ Excuse S M conds E R base log (vs.take i) e (v.mjd - v.slewtime / 24 / 3600))
      ∧ ∀ e, (t0 :: vs.map fun v => v.mjd + v.visittime / 24 / 3600).getLast? = some e →
        (Sim.run (V := Obs.Visit Obs) (env S M fuel conds mount (coreSched E X)) cfg n w).st.w.obs.mjd = e
        ∨ Excuse S M conds E R base log vs e (Sim.run (V := Obs.Visit Obs) (env S M fuel conds mount (coreSched E X)) cfg n w).st.w.obs.mjd := by
  intro log base t0
  obtain ⟨hres, hwr, -⟩ := recorded_result (env S M fuel conds mount (coreSched E X)) cfg h1 h2 n w
  have hk := busy_keeps S hn hd M hM fuel conds mount E R X hmask hdet hexp hgen cfg hstep hover base t0
  have h0 : ∀ p : World (Core C Sv A × H) K × List (Sim.Ev (Obs.Visit Obs) C B), p.1.sched.1 = w.sched.1 → Sim.completedOf p.2 = [] → Sim.toldOf p.2 = [] →
      p.1.obs.mjd = t0 → Busy S M conds E R base t0 p ∧ Gap S M conds E R base t0 p := by
    intro p hp hc ht hm
    refine ⟨⟨⟨?_, ?_⟩, ?_, ?_, ?_⟩, ?_⟩
    · rw [hp]; unfold QM.Aligned; rw [hq, hq']; rfl
    · rw [hp, hq]; exact fun o ho => absurd ho List.not_mem_nil
    · exact hc.trans ht.symm
    · unfold FollowsTold
      rw [hp, ht]
      simp [lookAll, base]
    · rw [hc]
      rintro i e b - ⟨⟩
    · unfold Gap
      rw [hc]
      intro e he
      left
      have he : some t0 = some e := he
      cases he
      exact hm.symm
  have key1 := Sim.run_passKeeps hk n (w, []) (fun h => .inr (h0 _ rfl rfl rfl (by show w.obs.mjd = cfg.simStart.getD w.obs.mjd; rw [h]; rfl)))
    (fun m h => .inr (h0 _ rfl rfl rfl (by show m = cfg.simStart.getD w.obs.mjd; rw [h]; rfl)))
  have hend : Busy S M conds E R base t0 (Sim.run (V := Obs.Visit Obs) (env S M fuel conds mount (coreSched E X)).recorded cfg n (w, [])).st.w
      ∧ Gap S M conds E R base t0 (Sim.run (V := Obs.Visit Obs) (env S M fuel conds mount (coreSched E X)).recorded cfg n (w, [])).st.w := by
    rcases key1 with (h | h) | (h | h)
    · rw [← hwr, hraised] at h; cases h
    · exact h
    · rw [← hwr, hraised] at h; cases h
    · exact ⟨h.1, h.2.gap⟩
  refine ⟨_, hres, ?_, ?_⟩
  · intro i e v he hv
    exact (hend.1.each i e v he hv).imp Eq.symm id
  · intro e he
    rw [hwr]
    exact (hend.2 e he).imp Eq.symm id

end

/-! ### Examples -/

/-- Surveys that are not feasible for some time, with visits that do not expire and may be masked for some time. -/
def busyE (hides : Bool) : Env ToyC ToySv Unit :=
  { toyE with
    sv := { toyE.sv with reward := fun s c => (if 7 / 100 ≤ c.mjd ∧ c.mjd < 8 / 100 then [.ninf] else s.reward, s)
                         gen := fun s _ => ((if s.visits = [] then [{ targetId := 0, ra := 1 }] else s.visits).map fun o => { o with flushBy := 0 }, s) }
    q := { toyE.q with reward := fun _ c => if hides then [.fin 0, if c.mjd < 1 / 100 then .ninf else .fin 0] else [.fin 0] } }

def busyStart : World (Core ToyC ToySv Unit × Unit) ℚ :=
  ⟨⟨0, 0, 40⟩, (Core.init () [[⟨[.fin 1], [], none⟩], [⟨[.fin 1], [{ targetId := 0 }], none⟩]] 5 true [], ()), false⟩

def busyCfg : Sim.Cfg := { duration := 8 / 10, startSize := 2, appendSize := 2, stepNone := 15 }

/-- Starts of slews and ends of visits. -/
def busyOut (hides : Bool) : List (Option (ℚ × ℚ)) :=
  (Sim.run (V := Obs.Visit Obs) (env toySite wholeKin 20 (fun s => ⟨s.mjd, none⟩) (fun k _ => k) (coreSched (busyE hides) wholeRest))
    busyCfg 40 busyStart).st.result.map fun r => r.map fun v => (v.mjd - v.slewtime / 24 / 3600, v.mjd + v.visittime / 24 / 3600)

/-- Visit follows visit, except while no survey is feasible. -/
example : busyOut false = [some (0, 103 / 4320), some (103 / 4320, 103 / 2160), some (103 / 2160, 103 / 1440), some (59 / 720, 457 / 4320),
    some (457 / 4320, 7 / 54), some (7 / 54, 221 / 1440), some (221 / 1440, 383 / 2160), some (383 / 2160, 869 / 4320),
    some (869 / 4320, 9 / 40), some (9 / 40, 215 / 864)] := by decide +kernel

/-- The masks of the queue are a real exception: here the survey of the first tier is chosen again and again although its visit is masked, and a quarter of an
hour is lost although the survey of the second tier is feasible and its visit is not masked and can be made. -/
theorem C222_masked : (busyOut true).head? = some (some (1 / 96, 37 / 1080))
    ∧ ((busyE true).sv.reward ⟨[.fin 1], [{ targetId := 0 }], none⟩ ⟨0, none⟩).1 = [.fin 1]
    ∧ ((busyE true).sv.gen ⟨[.fin 1], [{ targetId := 0 }], none⟩ ⟨0, none⟩).1 = [{ targetId := 0 }]
    ∧ QM.unmasked (busyE true).q () ⟨0, none⟩ { targetId := 0 } = true := by decide +kernel

/-- The assumptions of C222 are met by this simulation. -/
example : Obs.NonNeg wholeKin ∧ (∀ a c, ((busyE false).q.reward a c).length ≤ 1) ∧ (∀ a c l, l ≠ [] → ((busyE false).q.detail a c l).1 ≠ [])
    ∧ (∀ sv c, ∀ g ∈ ((busyE false).sv.gen sv c).1, g.flushBy = 0) ∧ (∀ sv c, ((busyE false).sv.gen sv c).1 ≠ [])
    ∧ busyCfg.useOverhead = false ∧ busyStart.sched.1.qm.desired = [] ∧ busyStart.sched.1.qm.need = []
    ∧ (Sim.run (V := Obs.Visit Obs) (env toySite wholeKin 20 (fun s => ⟨s.mjd, none⟩) (fun k _ => k) (coreSched (busyE false) wholeRest))
        busyCfg 40 busyStart).st.w.raised = false := by
  refine ⟨?_, fun _ _ => le_rfl, fun _ _ l h => h, ?_, ?_, rfl, rfl, rfl, by decide +kernel⟩
  · intro k o t
    refine ⟨?_, by norm_num [wholeKin]⟩
    unfold wholeKin
    dsimp only
    split_ifs <;> simp
  · intro sv c g hg
    obtain ⟨o, -, rfl⟩ := List.mem_map.1 hg
    rfl
  · intro sv c h
    have h := List.map_eq_nil_iff.1 h
    split at h
    · cases h
    · contradiction

example : Follower (busyE false) ToySv := ⟨id, fun f _ => f, fun _ _ => rfl, fun _ _ => rfl, fun _ _ => rfl, fun _ _ => rfl⟩

end Verif
