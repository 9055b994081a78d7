import Verif.Props.WholeMarkov
import Verif.Lemmas.SimPass
import Verif.Lemmas.SimServes

/-!
Property C219: a simulation makes a visit in the night in which it was asked for.
-/

namespace Verif

open Whole Core

section
variable {C B Sv A H K F α : Type}

/-- `Bar x` says that nobody observes shortly after the time `x`. Of these times not before `st`, none is over for more than `L` at the time `t`. -/
def NotLong (Bar : ℚ → Prop) (L st t : ℚ) : Prop := ∀ x, Bar x → st ≤ x → t ≤ x + L

theorem NotLong.mono {Bar : ℚ → Prop} {L L' st t : ℚ} (h : NotLong Bar L st t) (hl : L ≤ L') : NotLong Bar L' st t :=
  fun a ha hs => (h a ha hs).trans (by linarith)

theorem NotLong.now (Bar : ℚ → Prop) {L t : ℚ} (hl : 0 ≤ L) : NotLong Bar L t t := fun a _ hs => by linarith

theorem NotLong.later {Bar : ℚ → Prop} {L x st t : ℚ} (h : NotLong Bar L st t) : NotLong Bar (L + x) st (t + x) :=
  fun a ha hs => by have := h a ha hs; linarith

/-- If a visit is over at an open time, after less than the telescope is closed, then it was over before. -/
theorem NotLong.visit {S : Obs.Site} {Bar : ℚ → Prop} {L D st t e : ℚ} (h : NotLong Bar L st t) (he : e ≤ t + D) (ho : Obs.Open S e)
    (hbar : ∀ x, Bar x → ∀ t, x < t → t ≤ x + (L + D) → ¬ Obs.Open S t) : NotLong Bar 0 st e := by
  intro x hx hs
  have h3 := h x hx hs
  by_contra hcon
  exact hbar x hx e (by linarith) (by linarith) ho

/-- After the end of a night the telescope is closed for the whole day. -/
theorem night_end_bar {S : Obs.Site} (hn : Obs.Nights S.nights) {L : ℚ} (hday : ∀ a ∈ S.nights, ∀ b ∈ S.nights, a.2 < b.1 → a.2 + L < b.1) :
    ∀ x, (∃ a ∈ S.nights, a.2 = x) → ∀ t, x < t → t ≤ x + L → ¬ Obs.Open S t := by
  rintro _ ⟨a, ha, rfl⟩ t h1' h3 ho
  obtain ⟨n, hnm, h1, h2⟩ := ho.night
  have hlt : a.2 < n.2 := by linarith
  have hab : a.2 < n.1 := by
    obtain ⟨i, hi, hia⟩ := List.mem_iff_getElem.1 ha
    obtain ⟨j, hj, hjn⟩ := List.mem_iff_getElem.1 hnm
    rcases lt_trichotomy i j with hij | hij | hij
    · have := List.pairwise_iff_getElem.1 hn.2 i j hi hj hij
      rw [hia, hjn] at this
      exact this
    · subst hij
      rw [hia] at hjn
      subst hjn
      exact absurd hlt (lt_irrefl _)
    · have := List.pairwise_iff_getElem.1 hn.2 j i hj hi hij
      rw [hia, hjn] at this
      have := hn.1 a ha
      linarith
  have := hday a ha n hnm hab
  linarith

/-- The scheduler was given conditions at a time not after `t` and, of the times `Bar` not before that, none is over for more than `L` at `t`; under them a
visit like `o` is allowed by the rule. -/
def AskedFor (Bar : ℚ → Prop) (conds : Obs.St K → C) (rule : C → α → Prop) (key : Obs → α) (log : List (Sim.Ev (Obs.Visit Obs) C B)) (L t : ℚ) (o : Obs) : Prop :=
  ∃ st : Obs.St K, st.mjd ≤ t ∧ .update st.mjd (conds st) ∈ log ∧ rule (conds st) (key o) ∧ NotLong Bar L st.mjd t

/-- Conditions of the scheduler, with the time at which they were given. -/
def GivenAt (Bar : ℚ → Prop) (conds : Obs.St K → C) (log : List (Sim.Ev (Obs.Visit Obs) C B)) (L t : ℚ) (c : C) : Prop :=
  ∃ st : Obs.St K, c = conds st ∧ st.mjd ≤ t ∧ .update st.mjd (conds st) ∈ log ∧ NotLong Bar L st.mjd t

/-- The claim for the completed visits. -/
def EachInNight (Bar : ℚ → Prop) (conds : Obs.St K → C) (rule : C → α → Prop) (key : Obs → α) (log : List (Sim.Ev (Obs.Visit Obs) C B)) : Prop :=
  ∀ v ∈ Sim.completedOf log, ∃ st : Obs.St K, st.mjd ≤ slewStart v ∧ .update st.mjd (conds st) ∈ log ∧ rule (conds st) (key v.target)
    ∧ NotLong Bar 0 st.mjd (visitEnd v)

theorem AskedFor.mono {Bar : ℚ → Prop} {conds : Obs.St K → C} {rule : C → α → Prop} {key : Obs → α} {log log' : List (Sim.Ev (Obs.Visit Obs) C B)} {L t : ℚ}
    {o o' : Obs} (h : AskedFor Bar conds rule key log L t o) (hl : ∀ e ∈ log, e ∈ log') (hk : key o = key o') : AskedFor Bar conds rule key log' L t o' := by
  obtain ⟨st, a, b, c, d⟩ := h
  exact ⟨st, a, hl _ b, hk ▸ c, d⟩

theorem GivenAt.mono {Bar : ℚ → Prop} {conds : Obs.St K → C} {log log' : List (Sim.Ev (Obs.Visit Obs) C B)} {L t : ℚ}
    {c : C} (h : GivenAt Bar conds log L t c) (hl : ∀ e ∈ log, e ∈ log') : GivenAt Bar conds log' L t c := by
  obtain ⟨st, a, b, d, e⟩ := h
  exact ⟨st, a, b, hl _ d, e⟩

theorem EachInNight.mono {Bar : ℚ → Prop} {conds : Obs.St K → C} {rule : C → α → Prop} {key : Obs → α} {log log' : List (Sim.Ev (Obs.Visit Obs) C B)}
    (h : EachInNight Bar conds rule key log) (hl : ∀ e ∈ log, e ∈ log') (hc : Sim.completedOf log' = Sim.completedOf log) : EachInNight Bar conds rule key log' := by
  intro v hv
  rw [hc] at hv
  obtain ⟨st, a, b, c⟩ := h v hv
  exact ⟨st, a, hl _ b, c⟩

/-- The same, unless a call has raised. -/
def EachOrRaised (Bar : ℚ → Prop) (conds : Obs.St K → C) (rule : C → α → Prop) (key : Obs → α)
    (p : World (Core C Sv A × H) K × List (Sim.Ev (Obs.Visit Obs) C B)) : Prop := p.1.raised = true ∨ EachInNight Bar conds rule key p.2

theorem EachOrRaised.on {Bar : ℚ → Prop} {conds : Obs.St K → C} {rule : C → α → Prop} {key : Obs → α}
    {p q : World (Core C Sv A × H) K × List (Sim.Ev (Obs.Visit Obs) C B)} (h : EachOrRaised Bar conds rule key p) (hr : p.1.raised = true → q.1.raised = true)
    (hl : ∀ e ∈ p.2, e ∈ q.2) (hc : Sim.completedOf q.2 = Sim.completedOf p.2) : EachOrRaised Bar conds rule key q :=
  h.imp hr fun h => h.mono hl hc

/-- Between passes: the queue has nothing to do or both its visits and the conditions of the scheduler are of this night. -/
structure OfNight (Bar : ℚ → Prop) (conds : Obs.St K → C) (rule : C → α → Prop) (key : Obs → α) (L step : ℚ)
    (p : World (Core C Sv A × H) K × List (Sim.Ev (Obs.Visit Obs) C B)) : Prop where
  each : EachOrRaised Bar conds rule key p
  queue : p.1.raised = true ∨ p.1.sched.1.qm.nonePending = true ∨
    (∀ o ∈ p.1.sched.1.qm.desired, AskedFor Bar conds rule key p.2 (L + step) p.1.obs.mjd o) ∧ ∀ c ∈ p.1.sched.1.conditions, GivenAt Bar conds p.2 L p.1.obs.mjd c

/-- Before a request: also the conditions are of this night. -/
structure ReadyNight (Bar : ℚ → Prop) (conds : Obs.St K → C) (rule : C → α → Prop) (key : Obs → α) (L step : ℚ)
    (p : World (Core C Sv A × H) K × List (Sim.Ev (Obs.Visit Obs) C B)) : Prop where
  each : EachOrRaised Bar conds rule key p
  queue : p.1.raised = true ∨ (p.1.sched.1.qm.nonePending = true ∨ ∀ o ∈ p.1.sched.1.qm.desired, AskedFor Bar conds rule key p.2 (L + step) p.1.obs.mjd o)
    ∧ ∀ c ∈ p.1.sched.1.conditions, GivenAt Bar conds p.2 L p.1.obs.mjd c

theorem OfNight.on {Bar : ℚ → Prop} {conds : Obs.St K → C} {rule : C → α → Prop} {key : Obs → α} {L step : ℚ}
    {p q : World (Core C Sv A × H) K × List (Sim.Ev (Obs.Visit Obs) C B)} (h : OfNight Bar conds rule key L step p) (hl : ∀ e ∈ p.2, e ∈ q.2)
    (hc : Sim.completedOf q.2 = Sim.completedOf p.2) (hr : q.1.raised = p.1.raised) (hs : q.1.sched.1 = p.1.sched.1) (ht : q.1.obs.mjd = p.1.obs.mjd) :
    OfNight Bar conds rule key L step q := by
  refine ⟨h.each.on (by rw [hr]; exact id) hl hc, ?_⟩
  rw [hr, hs, ht]
  rcases h.queue with h1 | h1 | ⟨h1, h2⟩
  · exact .inl h1
  · exact .inr (.inl h1)
  · exact .inr (.inr ⟨fun o ho => (h1 o ho).mono hl rfl, fun c hc => (h2 c hc).mono hl⟩)

theorem check_pending {E : Env C Sv A} {s : Core C Sv A} {x : ℚ} (h : coreCheck E s x = true) : s.qm.nonePending = false := by
  unfold coreCheck at h
  split at h
  · cases h
  · rename_i c hc
    by_contra hcon
    have hnone : s.qm.nonePending = true := by simpa using hcon
    unfold QM.checkQueueMjdOnly at h
    have h : (s.qm.findValid E.q c x).length > 0 := by simpa using h
    obtain ⟨i, hi⟩ := List.exists_mem_of_length_pos h
    have hneed : s.qm.need[i]? = some true := by
      unfold QM.findValid at hi
      dsimp only at hi
      have hv : ∀ l : List ℕ, i ∈ l.filter (fun i => ((List.range s.qm.need.length).filter (fun i => s.qm.need[i]? == some true)).contains i) →
          s.qm.need[i]? = some true := by
        intro l hl
        have := (List.mem_filter.1 hl).2
        rw [List.contains_iff_mem] at this
        simpa using (List.mem_filter.1 this).2
      split at hi
      · exact hv _ (List.mem_filter.1 hi).1
      · exact hv _ hi
    unfold QM.nonePending at hnone
    have := List.all_eq_true.1 hnone true (List.mem_of_getElem? hneed)
    simp at this

theorem update_pending {E : Env C Sv A} (s : Core C Sv A) (c : C) (h : s.qm.nonePending = true) : (s.update E c).qm.nonePending = true := by
  show (s.tooStep E c).qm.nonePending = true
  unfold tooStep
  split
  · split
    · exact h
    · dsimp only
      split
      · rfl
      · exact h
  · exact h

/-- What a request leaves in the queue when it gives nothing was generated under the conditions of now. -/
theorem coreRequest_none {E : Env C Sv A} {M : Obs.Kin K Obs} {key : Obs → α} (hkey : KeptColumns E M key) {s s' : Core C Sv A} {x : ℚ}
    (h : coreRequest E s x = some (s', none)) (Q : Obs → Prop) (hQ : ∀ o o', key o = key o' → Q o → Q o')
    (hnew : ∀ c ∈ s.conditions, ∀ tiers sv g, ChosenBy E tiers c sv → g ∈ (E.sv.gen (E.sv.reward sv c).2 c).1 → Q g) :
    ∀ o ∈ s'.qm.desired, Q o := by
  unfold coreRequest at h
  cases hr : s.request E (some x) false with
  | error e => rw [hr] at h; cases h
  | ok z =>
    obtain ⟨s1, l, ev⟩ := z
    rw [hr] at h
    have h : some (s1, l.bind List.head?) = some (s', none) := h
    simp only [Option.some.injEq, Prod.mk.injEq] at h
    obtain ⟨rfl, hl⟩ := h
    obtain ⟨c, s2, ev1, hc, hfirst, hrest⟩ := request_cases hr
    have hfill : ∀ (t t' : Core C Sv A) (ev : List Ev), t.conditions = some c → t.fillQueue E = .ok (t', ev) → ∀ o ∈ t'.qm.desired, Q o := by
      intro t t' ev ht hf o ho
      obtain ⟨sv, g, hch, hg, hk⟩ := fill_from hkey ht hf o ho
      exact hQ _ _ hk (hnew c hc _ sv g hch hg)
    have hc2 : s2.conditions = some c := by
      rcases hfirst with ⟨-, hf⟩ | ⟨-, rfl, -⟩
      · exact (fillQueue_frame hf).1.trans hc
      · exact hc
    rcases hrest with ⟨hp, rfl, -, -⟩ | ⟨-, hne, -, hout, -⟩ | ⟨-, -, s3, ev2, hf, rfl, -, -⟩
    · rcases hfirst with ⟨-, hf⟩ | ⟨hp', rfl, -⟩
      · exact hfill _ _ _ hc hf
      · rw [hp] at hp'; cases hp'
    · rw [hout] at hl
      obtain ⟨o, os, he⟩ := List.exists_cons_of_ne_nil hne
      rw [he] at hl
      cases hl
    · have := hfill _ _ _ (by exact hc2) hf
      dsimp only
      rw [(qrequest_queue E.q s3.qm c false).1]
      exact this

theorem coreRequest_pending {E : Env C Sv A} {M : Obs.Kin K Obs} {key : Obs → α} (hkey : KeptColumns E M key) {s s' : Core C Sv A} {x : ℚ}
    {r : Option Obs} (h : coreRequest E s x = some (s', r)) (Q : Obs → Prop) (hQ : ∀ o o', key o = key o' → Q o → Q o')
    (hq : s.qm.nonePending = true ∨ ∀ o ∈ s.qm.desired, Q o)
    (hnew : ∀ c ∈ s.conditions, ∀ tiers sv g, ChosenBy E tiers c sv → g ∈ (E.sv.gen (E.sv.reward sv c).2 c).1 → Q g) :
    s'.conditions = s.conditions ∧ (∀ o ∈ s'.qm.desired, Q o) ∧ ∀ o ∈ r, Q o := by
  let R : Follower E Unit := ⟨fun _ => (), fun _ _ => (), fun _ _ => rfl, fun _ _ => rfl, fun _ _ => rfl, fun _ _ => rfl⟩
  rcases hq with hp | hq
  · -- a queue with nothing to do is replaced first
    unfold coreRequest at h
    cases hr : s.request E (some x) false with
    | error e => rw [hr] at h; cases h
    | ok z =>
      obtain ⟨s1, l, ev⟩ := z
      rw [hr] at h
      have h : some (s1, l.bind List.head?) = some (s', r) := h
      simp only [Option.some.injEq, Prod.mk.injEq] at h
      obtain ⟨rfl, rfl⟩ := h
      obtain ⟨c, s2, ev1, hc, hfirst, hrest⟩ := request_cases hr
      have hfill : ∀ (t t' : Core C Sv A) (ev : List Ev), t.conditions = some c → t.fillQueue E = .ok (t', ev) → ∀ o ∈ t'.qm.desired, Q o := by
        intro t t' ev ht hf o ho
        obtain ⟨sv, g, hch, hg, hk⟩ := fill_from hkey ht hf o ho
        exact hQ _ _ hk (hnew c hc _ sv g hch hg)
      have h2 : s2.conditions = some c ∧ ∀ o ∈ s2.qm.desired, Q o := by
        rcases hfirst with ⟨-, hf⟩ | ⟨hp', rfl, -⟩
        · exact ⟨(fillQueue_frame hf).1.trans hc, hfill _ _ _ hc hf⟩
        · rw [hp] at hp'; cases hp'
      have hreq : ∀ q : QM A, (∀ o ∈ q.desired, Q o) → (∀ o ∈ (q.request E.q c false).2.desired, Q o) ∧
          ∀ l ∈ some ((q.request E.q c false).1.map setNote), ∀ o ∈ l, Q o := by
        intro q hq
        refine ⟨by rw [(qrequest_queue E.q q c false).1]; exact hq, ?_⟩
        intro l hl o ho
        cases hl
        obtain ⟨o1, ho1, rfl⟩ := List.mem_map.1 ho
        obtain ⟨o2, ho2, hk⟩ := qrequest_from hkey q c false o1 ho1
        exact hQ o2 _ (hk.trans (hkey.note _ _).symm) (hq o2 ho2)
      have key1 : (∀ o ∈ s1.qm.desired, Q o) ∧ ∀ k ∈ l, ∀ o ∈ k, Q o := by
        rcases hrest with ⟨-, rfl, rfl, -⟩ | ⟨-, -, rfl, rfl, -⟩ | ⟨-, -, s3, ev2, hf, rfl, -, hout⟩
        · exact ⟨h2.2, by rintro k ⟨⟩⟩
        · exact hreq _ h2.2
        · have h3 := hreq s3.qm (hfill _ _ _ (by exact h2.1) hf)
          refine ⟨h3.1, ?_⟩
          rcases hout with ⟨-, rfl⟩ | ⟨-, rfl⟩
          · rintro k ⟨⟩
          · exact h3.2
      refine ⟨request_conditions hr, key1.1, ?_⟩
      intro o ho
      cases l with
      | none => cases ho
      | some l => exact key1.2 l rfl o (List.mem_of_head? ho)
  · obtain ⟨a, -, b, c⟩ := coreRequest_from hkey R h Q hQ hq (fun c hc tiers sv g _ => hnew c hc tiers sv g)
    exact ⟨a, b, c⟩

theorem completed_one (l : List (Sim.Ev (Obs.Visit Obs) C B)) (e : Sim.Ev (Obs.Visit Obs) C B) (h : Sim.completedOf [e] = []) :
    Sim.completedOf (l ++ [e]) = Sim.completedOf l := by rw [Sim.completedOf_append, h, List.append_nil]

theorem AskedFor.later {Bar : ℚ → Prop} {conds : Obs.St K → C} {rule : C → α → Prop} {key : Obs → α} {log : List (Sim.Ev (Obs.Visit Obs) C B)} {L x t : ℚ}
    {o : Obs} (h : AskedFor Bar conds rule key log L t o) (hx : 0 ≤ x) : AskedFor Bar conds rule key log (L + x) (t + x) o := by
  obtain ⟨st, a, b, c, d⟩ := h
  exact ⟨st, by linarith, b, c, d.later⟩

theorem night_keeps (Bar : ℚ → Prop) (S : Obs.Site) (hn : Obs.Nights S.nights) (hd : Down.Ordered S.downs) (M : Obs.Kin K Obs) (hM : Obs.NonNeg M) (fuel : ℕ)
    (conds : Obs.St K → C) (mount : K → B → K) (E : Env C Sv A) (key : Obs → α) (hkey : KeptColumns E M key)
    (X : Rest H C B) (hX : ∀ h v, 0 ≤ (X.overhead h v).2) (cfg : Sim.Cfg) (hstep : 0 ≤ cfg.stepNone) (rule : C → α → Prop)
    (hrule : ∀ sv c r, BestValue E c sv r → XReal.ltB .ninf r = true → ∀ g ∈ (E.sv.gen (E.sv.reward sv c).2 c).1, rule c (key g))
    (D L : ℚ) (hL0 : 0 ≤ L) (hD : ∀ k o t, ∀ s ∈ (M.observe k o t).2.1, (s + (M.observe k o t).2.2) / 24 / 3600 ≤ D)
    (hL : ∀ h v, (X.overhead h v).2 / 86400 ≤ L)
    (hbar : ∀ x, Bar x → ∀ t, x < t → t ≤ x + (L + cfg.step + D) → ¬ Obs.Open S t) :
    Sim.PassKeeps (env S M fuel conds mount (coreSched E X)).recorded cfg (OfNight Bar conds rule key L cfg.step) (ReadyNight Bar conds rule key L cfg.step)
      (fun v p => EachOrRaised Bar conds rule key p ∧ (p.1.raised = true ∨ (AskedFor Bar conds rule key p.2 (L + cfg.step) p.1.obs.mjd v.target
        ∧ (∀ o ∈ p.1.sched.1.qm.desired, AskedFor Bar conds rule key p.2 (L + cfg.step) p.1.obs.mjd o)
        ∧ ∀ c ∈ p.1.sched.1.conditions, GivenAt Bar conds p.2 L p.1.obs.mjd c)))
      (EachOrRaised Bar conds rule key) := by
  have hs0 : 0 ≤ cfg.step := by unfold Sim.Cfg.step; positivity
  have hnow : ∀ w : World (Core C Sv A × H) K × List (Sim.Ev (Obs.Visit Obs) C B), EachOrRaised Bar conds rule key w →
      (w.1.raised = true ∨ w.1.sched.1.qm.nonePending = true ∨ ∀ o ∈ w.1.sched.1.qm.desired, AskedFor Bar conds rule key w.2 (L + cfg.step) w.1.obs.mjd o) →
      OfNight Bar conds rule key L cfg.step (Sim.updateNow (env S M fuel conds mount (coreSched E X)).recorded w)
      ∧ ∀ c ∈ (Sim.updateNow (env S M fuel conds mount (coreSched E X)).recorded w).1.sched.1.conditions,
        GivenAt Bar conds (Sim.updateNow (env S M fuel conds mount (coreSched E X)).recorded w).2 L
          (Sim.updateNow (env S M fuel conds mount (coreSched E X)).recorded w).1.obs.mjd c := by
    intro w he hq
    have hl : (Sim.updateNow (env S M fuel conds mount (coreSched E X)).recorded w).2
        = w.2 ++ [.conds w.1.obs.mjd (conds w.1.obs)] ++ [.update w.1.obs.mjd (conds w.1.obs)] := rfl
    have hmem : ∀ e ∈ w.2, e ∈ (Sim.updateNow (env S M fuel conds mount (coreSched E X)).recorded w).2 := by
      intro e he
      rw [hl]
      exact List.mem_append_left _ (List.mem_append_left _ he)
    have hgiven : ∀ c ∈ (Sim.updateNow (env S M fuel conds mount (coreSched E X)).recorded w).1.sched.1.conditions,
        GivenAt Bar conds (Sim.updateNow (env S M fuel conds mount (coreSched E X)).recorded w).2 L
          (Sim.updateNow (env S M fuel conds mount (coreSched E X)).recorded w).1.obs.mjd c := by
      intro c hc
      have hc : some (conds w.1.obs) = some c := hc
      cases hc
      refine ⟨w.1.obs, rfl, le_rfl, ?_, NotLong.now Bar hL0⟩
      rw [hl]
      exact List.mem_append_right _ (List.mem_singleton.2 rfl)
    refine ⟨⟨he.on (fun h => h) hmem ?_, ?_⟩, hgiven⟩
    · rw [hl, completed_one _ _ rfl, completed_one _ _ rfl]
    · rcases hq with h | h | h
      · exact .inl h
      · exact .inr (.inl (update_pending _ _ h))
      · exact .inr (.inr ⟨fun o ho => (h o (update_queue _ _ o ho)).mono hmem rfl, hgiven⟩)
  have hnow' : ∀ w, OfNight Bar conds rule key L cfg.step w → OfNight Bar conds rule key L cfg.step (Sim.updateNow (env S M fuel conds mount (coreSched E X)).recorded w)
      ∧ ∀ c ∈ (Sim.updateNow (env S M fuel conds mount (coreSched E X)).recorded w).1.sched.1.conditions,
        GivenAt Bar conds (Sim.updateNow (env S M fuel conds mount (coreSched E X)).recorded w).2 L
          (Sim.updateNow (env S M fuel conds mount (coreSched E X)).recorded w).1.obs.mjd c :=
    fun w h => hnow w h.each (h.queue.imp id (Or.imp id fun h => h.1))
  have hcheck : ∀ w x, OfNight Bar conds rule key L cfg.step w → OfNight Bar conds rule key L cfg.step ((env S M fuel conds mount (coreSched E X)).recorded.check w x).1 :=
    fun w x h => h.on (fun e he => List.mem_append_left _ he) (completed_one _ _ rfl) rfl rfl rfl
  have hconds : ∀ w, OfNight Bar conds rule key L cfg.step w → OfNight Bar conds rule key L cfg.step ((env S M fuel conds mount (coreSched E X)).recorded.conds w).1 :=
    fun w h => h.on (fun e he => List.mem_append_left _ he) (completed_one _ _ rfl) rfl rfl rfl
  have hbands : ∀ w c, OfNight Bar conds rule key L cfg.step w → OfNight Bar conds rule key L cfg.step ((env S M fuel conds mount (coreSched E X)).recorded.bands w c).1 :=
    fun w c h => h.on (fun e he => List.mem_append_left _ he) (completed_one _ _ rfl) rfl rfl rfl
  have hmount : ∀ w b, OfNight Bar conds rule key L cfg.step w → OfNight Bar conds rule key L cfg.step ((env S M fuel conds mount (coreSched E X)).recorded.mount w b) :=
    fun w b h => h.on (fun e he => List.mem_append_left _ he) (completed_one _ _ rfl) rfl rfl rfl
  have hchosen : ∀ (c : C) (Q : Obs → Prop), (∀ o, rule c (key o) → Q o) → ∀ tiers sv g, ChosenBy E tiers c sv → g ∈ (E.sv.gen (E.sv.reward sv c).2 c).1 → Q g := by
    rintro c Q hQ tiers sv g ⟨_, _, _, r, -, -, hb, hr, -⟩ hg
    exact hQ g (hrule sv c r hb hr g hg)
  refine ⟨fun w h => hmount _ _ (hbands _ _ (hconds _ h)), ?_, ?_, ?_, ?_, ?_, ?_,
    fun w v h => h.on (fun e he => List.mem_append_left _ he) (completed_one _ _ rfl) rfl rfl rfl⟩
  · intro w h
    rcases Sim.refresh_cases (E := (env S M fuel conds mount (coreSched E X)).recorded) (cfg := cfg)
      (G := fun p => ∀ c ∈ p.1.sched.1.conditions, GivenAt Bar conds p.2 L p.1.obs.mjd c) hnow' hcheck
      (fun w x _ hg c hc => (hg c hc).mono fun e he => List.mem_append_left _ he) w h with ⟨h1, h2⟩ | ⟨-, -, hck, e⟩
    · exact ⟨h1.each, h1.queue.imp id fun h => ⟨h.imp id fun h => h.1, h2⟩⟩
    · rw [e]
      have h1 := hcheck w ((env S M fuel conds mount (coreSched E X)).recorded.clock w) h
      have hp : w.1.sched.1.qm.nonePending = false := check_pending hck
      refine ⟨h1.each, h1.queue.imp id ?_⟩
      rintro (h2 | h2)
      · have h2 : w.1.sched.1.qm.nonePending = true := h2
        rw [hp] at h2
        cases h2
      · exact ⟨.inr h2.1, h2.2⟩
  · intro w u h hr
    have hu : u = ((requestOf (coreSched E X) w.1 w.1.obs.mjd).1, w.2 ++ [.request w.1.obs.mjd w.1.obs.mjd (requestOf (coreSched E X) w.1 w.1.obs.mjd).2]) :=
      (congrArg Prod.fst hr).symm
    have hv : (requestOf (coreSched E X) w.1 w.1.obs.mjd).2 = none := congrArg Prod.snd hr
    have hrq : (coreSched E X).request w.1.sched w.1.obs.mjd = (coreRequest E w.1.sched.1 w.1.obs.mjd).map fun r => ((r.1, w.1.sched.2), r.2) := rfl
    rw [hv] at hu
    refine (hnow _ ?_ ?_).1
    · refine EachOrRaised.on (p := u) ?_ (fun h => h) (fun e he => List.mem_append_left _ he) (completed_one _ _ rfl)
      refine h.each.on ?_ (by rw [hu]; exact fun e he => List.mem_append_left _ he) (by rw [hu]; exact completed_one _ _ rfl)
      rw [hu]
      unfold requestOf
      intro hrd
      split
      · rfl
      · exact hrd
    · show u.1.raised = true ∨ u.1.sched.1.qm.nonePending = true ∨ ∀ o ∈ u.1.sched.1.qm.desired,
        AskedFor Bar conds rule key (u.2 ++ [.setClock u.1.obs.mjd (u.1.obs.mjd + cfg.step) (u.1.obs.mjd + cfg.step)]) (L + cfg.step) (u.1.obs.mjd + cfg.step) o
      unfold requestOf at hu hv
      rw [hrq] at hu hv
      cases hc : coreRequest E w.1.sched.1 w.1.obs.mjd with
      | none =>
        rw [hc] at hu
        left
        rw [hu]
        rfl
      | some r =>
        obtain ⟨s', r⟩ := r
        rw [hc] at hu hv
        have hr0 : r = none := by
          cases r with
          | none => rfl
          | some r => cases hv
        subst hr0
        rcases h.queue with h1 | ⟨-, h2⟩
        · left; rw [hu]; exact h1
        · refine .inr (.inr ?_)
          have hQ := coreRequest_none hkey hc (AskedFor Bar conds rule key w.2 L w.1.obs.mjd) (fun o o' hk ha => ha.mono (fun _ he => he) hk) (by
            intro c hcc
            obtain ⟨st, rfl, a, b, d⟩ := h2 c hcc
            exact hchosen _ _ fun o ho => ⟨st, a, b, ho, d⟩)
          subst hu
          intro o ho
          exact ((hQ o ho).later hs0).mono (fun e he => List.mem_append_left _ (List.mem_append_left _ he)) rfl
  · intro w u v h hr
    have hu : u = ((requestOf (coreSched E X) w.1 w.1.obs.mjd).1, w.2 ++ [.request w.1.obs.mjd w.1.obs.mjd (requestOf (coreSched E X) w.1 w.1.obs.mjd).2]) :=
      (congrArg Prod.fst hr).symm
    have hv : (requestOf (coreSched E X) w.1 w.1.obs.mjd).2 = some v := congrArg Prod.snd hr
    have hrq : (coreSched E X).request w.1.sched w.1.obs.mjd = (coreRequest E w.1.sched.1 w.1.obs.mjd).map fun r => ((r.1, w.1.sched.2), r.2) := rfl
    rw [hv] at hu
    unfold requestOf at hu hv
    rw [hrq] at hu hv
    cases hc : coreRequest E w.1.sched.1 w.1.obs.mjd with
    | none => rw [hc] at hv; cases hv
    | some r =>
      obtain ⟨s', r⟩ := r
      rw [hc] at hu hv
      have hu : u = ({ w.1 with sched := (s', w.1.sched.2) }, w.2 ++ [.request w.1.obs.mjd w.1.obs.mjd (some v)]) := hu
      have hv : r.map asked = some v := hv
      subst hu
      refine ⟨h.each.on (fun h => h) (fun e he => List.mem_append_left _ he) (completed_one _ _ rfl), h.queue.imp id ?_⟩
      rintro ⟨h1, h2⟩
      obtain ⟨a, b, d⟩ := coreRequest_pending hkey hc (AskedFor Bar conds rule key w.2 (L + cfg.step) w.1.obs.mjd)
        (fun o o' hk ha => ha.mono (fun _ he => he) hk) h1 (by
          intro c hcc
          obtain ⟨st, rfl, a, b, d⟩ := h2 c hcc
          exact hchosen _ _ fun o ho => ⟨st, a, b, ho, d.mono (by linarith)⟩)
      refine ⟨?_, fun o ho => (b o ho).mono (fun e he => List.mem_append_left _ he) rfl, ?_⟩
      · cases r with
        | none => cases hv
        | some o =>
          cases hv
          exact (d o rfl).mono (fun e he => List.mem_append_left _ he) rfl
      · intro c hcc
        have hcc : c ∈ s'.conditions := hcc
        rw [a] at hcc
        exact (h2 c hcc).mono (fun e he => List.mem_append_left _ he)
  · rintro w v x nn ⟨h, -⟩ ho
    have hx : x = ((observeOf S M fuel w.1 v).1, w.2 ++ [.observe w.1.obs.mjd v (observeOf S M fuel w.1 v).1.obs.mjd
      (observeOf S M fuel w.1 v).2.1 (observeOf S M fuel w.1 v).2.2]) := (congrArg Prod.fst ho).symm
    have hv : (observeOf S M fuel w.1 v).2.1 = none := congrArg (fun z => z.2.1) ho
    subst hx
    rw [hv]
    refine h.on ?_ (fun e he => List.mem_append_left _ he) (completed_one _ _ rfl)
    intro hrd
    unfold observeOf
    split
    · rfl
    · exact hrd
  · intro w h
    exact ⟨h.on (fun h => h) (fun e he => List.mem_append_left _ he) (completed_one _ _ rfl), .inr (.inl rfl)⟩
  · rintro w v x v' nn ⟨h, hq⟩ ho
    have hx : x = ((observeOf S M fuel w.1 v).1, w.2 ++ [.observe w.1.obs.mjd v (observeOf S M fuel w.1 v).1.obs.mjd
      (observeOf S M fuel w.1 v).2.1 (observeOf S M fuel w.1 v).2.2]) := (congrArg Prod.fst ho).symm
    have hv : (observeOf S M fuel w.1 v).2.1 = some v' := congrArg (fun z => z.2.1) ho
    subst hx
    rw [hv]
    unfold observeOf at hv ⊢
    cases hob : Obs.observe S M fuel w.1.obs v.target with
    | error e => rw [hob] at hv; cases hv
    | ok r =>
      obtain ⟨s', r, nn'⟩ := r
      rw [hob] at hv
      dsimp only at hv
      subst hv
      obtain ⟨h1, h2, h3, -, -, h6, -, -, k, hk⟩ := observe_some hn hd hM hob
      have hend : s'.mjd ≤ w.1.obs.mjd + D := by
        rcases Obs.observe_cases hob with ⟨hz, -⟩ | ⟨k, o', slew, -, -, hsl, h4⟩
        · cases hz
        · rcases h4 with ⟨y, -, -, h9, -⟩ | ⟨-, hz, -⟩
          · rw [h9]
            have := hD k o' w.1.obs.mjd slew (by rw [hsl]; rfl)
            linarith
          · cases hz
      have hin : ∀ z L', L' ≤ L + cfg.step → NotLong Bar L' z w.1.obs.mjd → NotLong Bar 0 z s'.mjd := by
        intro z L' hle hz
        exact (hz.mono hle).visit hend (by rw [← h2]; exact h6) hbar
      rcases hq with hrd | ⟨hask, hqueue, hcond⟩
      · -- a call has raised before
        have hrd' : (Sim.addOverhead (env S M fuel conds mount (coreSched E X)).recorded cfg ({ w.1 with obs := s' },
            w.2 ++ [.observe w.1.obs.mjd v s'.mjd (some v') nn']) v').1.raised = true := by
          unfold Sim.addOverhead
          split_ifs <;> exact hrd
        exact ⟨.inl hrd', .inl hrd'⟩
      · have hdone : EachOrRaised Bar conds rule key (({ w.1 with obs := s' }, w.2 ++ [.observe w.1.obs.mjd v s'.mjd (some v') nn']) :
            World (Core C Sv A × H) K × List (Sim.Ev (Obs.Visit Obs) C B)) := by
          rcases h with hrd | h
          · exact .inl hrd
          right
          intro u hu
          have hu : u ∈ Sim.completedOf (w.2 ++ [.observe w.1.obs.mjd v s'.mjd (some v') nn']) := hu
          rw [Sim.completedOf_append] at hu
          rcases List.mem_append.1 hu with hu | hu
          · obtain ⟨st, a, b, c⟩ := h u hu
            exact ⟨st, a, List.mem_append_left _ b, c⟩
          · have hu : u ∈ [v'] := hu
            rw [List.mem_singleton] at hu
            subst hu
            obtain ⟨st, a, b, c, d⟩ := hask
            refine ⟨st, by rw [h1]; exact a, List.mem_append_left _ b, ?_, ?_⟩
            · rw [hkey.prepare _ _ _ _ hk]
              exact c
            · rw [h2]
              exact hin _ _ le_rfl d
        obtain ⟨x, hx0, hxL, hover⟩ : ∃ x, 0 ≤ x ∧ x ≤ L ∧ ∃ es : List (Sim.Ev (Obs.Visit Obs) C B), Sim.completedOf es = [] ∧
            ∃ r, Sim.addOverhead (env S M fuel conds mount (coreSched E X)).recorded cfg ({ w.1 with obs := s' },
              w.2 ++ [.observe w.1.obs.mjd v s'.mjd (some v') nn']) v' = ({ w.1 with obs := { s' with mjd := s'.mjd + x }, sched := (w.1.sched.1, r) },
              w.2 ++ [.observe w.1.obs.mjd v s'.mjd (some v') nn'] ++ es) := by
          unfold Sim.addOverhead
          split_ifs
          · refine ⟨(X.overhead w.1.sched.2 v').2 / 86400, by have := hX w.1.sched.2 v'; positivity, hL _ _,
              [.overhead s'.mjd v' (X.overhead w.1.sched.2 v').2] ++ [.setClock s'.mjd (s'.mjd + (X.overhead w.1.sched.2 v').2 / 86400)
                (s'.mjd + (X.overhead w.1.sched.2 v').2 / 86400)], rfl, (X.overhead w.1.sched.2 v').1, ?_⟩
            rw [← List.append_assoc]
            rfl
          · refine ⟨0, le_rfl, hL0, [], rfl, w.1.sched.2, ?_⟩
            rw [List.append_nil, add_zero]
        obtain ⟨es, hes, r, e⟩ := hover
        show OfNight Bar conds rule key L cfg.step ((env S M fuel conds mount (coreSched E X)).recorded.add (Sim.addOverhead
          (env S M fuel conds mount (coreSched E X)).recorded cfg ({ w.1 with obs := s' }, w.2 ++ [.observe w.1.obs.mjd v s'.mjd (some v') nn']) v') v')
        rw [e]
        have hmem : ∀ z ∈ w.2, z ∈ w.2 ++ [.observe w.1.obs.mjd v s'.mjd (some v') nn'] ++ es ++ [.add (s'.mjd + x) v'] :=
          fun z hz => List.mem_append_left _ (List.mem_append_left _ (List.mem_append_left _ hz))
        have hfar : ∀ z, NotLong Bar 0 z s'.mjd → NotLong Bar L z (s'.mjd + x) := by
          intro z hz a ha hs
          have := hz a ha hs
          linarith
        refine ⟨hdone.on (fun h => h) (fun z hz => List.mem_append_left _ (List.mem_append_left _ hz)) ?_, .inr (.inr ⟨?_, ?_⟩)⟩
        · show Sim.completedOf (w.2 ++ [.observe w.1.obs.mjd v s'.mjd (some v') nn'] ++ es ++ [.add (s'.mjd + x) v']) = _
          rw [completed_one _ _ rfl, Sim.completedOf_append, hes, List.append_nil]
        · intro o ho
          obtain ⟨st, a, b, c, d⟩ := hqueue o (addObs_queue _ _ o ho)
          exact ⟨st, by show st.mjd ≤ s'.mjd + x; linarith, hmem _ b, c, (hfar _ (hin _ _ le_rfl d)).mono (by linarith)⟩
        · intro c hc
          obtain ⟨st, a, b, d, f⟩ := hcond c hc
          exact ⟨st, a, by show st.mjd ≤ s'.mjd + x; linarith, hmem _ d, hfar _ (hin _ _ (by linarith) f)⟩

/-- Whatever times `Bar` are followed by a closed telescope for longer than it takes to make a visit: none of them is between asking for a visit and making it. -/
theorem asked_before_bar (Bar : ℚ → Prop) (S : Obs.Site) (hn : Obs.Nights S.nights) (hd : Down.Ordered S.downs) (M : Obs.Kin K Obs) (hM : Obs.NonNeg M) (fuel : ℕ)
    (conds : Obs.St K → C) (mount : K → B → K) (E : Env C Sv A) (key : Obs → α) (hkey : KeptColumns E M key)
    (X : Rest H C B) (hX : ∀ h v, 0 ≤ (X.overhead h v).2)
    (cfg : Sim.Cfg) (hstep : 0 ≤ cfg.stepNone) (h1 : 0 < cfg.startSize) (h2 : 0 < cfg.appendSize) (n : ℕ) (w : World (Core C Sv A × H) K)
    (hw : w.sched.1.conditions = none) (hq : w.sched.1.qm.desired = []) (rule : C → α → Prop)
    (hrule : ∀ sv c r, BestValue E c sv r → XReal.ltB .ninf r = true → ∀ g ∈ (E.sv.gen (E.sv.reward sv c).2 c).1, rule c (key g))
    (longest over : ℚ) (hover0 : 0 ≤ over) (hlong : ∀ k o t, ∀ s ∈ (M.observe k o t).2.1, (s + (M.observe k o t).2.2) / 24 / 3600 ≤ longest)
    (hover : ∀ h v, (X.overhead h v).2 / 86400 ≤ over)
    (hbar : ∀ x, Bar x → ∀ t, x < t → t ≤ x + (over + cfg.stepNone / 60 / 24 + longest) → ¬ Obs.Open S t)
    (hraised : (Sim.run (V := Obs.Visit Obs) (env S M fuel conds mount (coreSched E X)) cfg n w).st.w.raised = false) :
    ∃ vs : List (Obs.Visit Obs), (Sim.run (V := Obs.Visit Obs) (env S M fuel conds mount (coreSched E X)) cfg n w).st.result = vs.map some
      ∧ ∀ v ∈ vs, ∃ st : Obs.St K, st.mjd ≤ v.mjd - v.slewtime / 24 / 3600
        ∧ .update st.mjd (conds st) ∈ (Sim.run (V := Obs.Visit Obs) (env S M fuel conds mount (coreSched E X)).recorded cfg n (w, [])).st.w.2
        ∧ rule (conds st) (key v.target)
        ∧ ∀ x, Bar x → x < v.mjd + v.visittime / 24 / 3600 → x < st.mjd := by
  obtain ⟨hres, hwr, -⟩ := recorded_result (env S M fuel conds mount (coreSched E X)) cfg h1 h2 n w
  have hk := night_keeps Bar S hn hd M hM fuel conds mount E key hkey X hX cfg hstep rule hrule longest over hover0 hlong hover hbar
  have h0 : ∀ p : World (Core C Sv A × H) K × List (Sim.Ev (Obs.Visit Obs) C B), p.1.sched.1 = w.sched.1 → Sim.completedOf p.2 = [] →
      OfNight Bar conds rule key over cfg.step p := by
    intro p hp hc
    refine ⟨.inr ?_, .inr (.inr ⟨?_, ?_⟩)⟩
    · intro v hv
      rw [hc] at hv
      exact absurd hv List.not_mem_nil
    · rw [hp, hq]
      exact fun o ho => absurd ho List.not_mem_nil
    · rw [hp, hw]
      rintro c ⟨⟩
  have key1 := Sim.run_passKeeps hk n (w, []) (fun _ => h0 _ rfl rfl) (fun m _ => h0 _ rfl rfl)
  have heach : EachOrRaised Bar conds rule key (Sim.run (V := Obs.Visit Obs) (env S M fuel conds mount (coreSched E X)).recorded cfg n (w, [])).st.w :=
    key1.elim (fun h => h.each) id
  refine ⟨_, hres, ?_⟩
  intro v hv
  rcases heach with hr | he
  · rw [← hwr, hraised] at hr
    cases hr
  · obtain ⟨st, a, b, c, d⟩ := he v hv
    refine ⟨st, a, b, c, ?_⟩
    intro x hx hlt
    by_contra hcon
    have := d x hx (not_lt.1 hcon)
    have e : visitEnd v = v.mjd + v.visittime / 24 / 3600 := rfl
    linarith

/-- C219: let visits with slews and overheads, and the step taken when there is nothing to do, be shorter together than every day between two nights. Then every
visit that a simulation with the core scheduler returns was asked for in the night in which it was made, by surveys that saw conditions of that night: the
scheduler was given the conditions at some time not after its slew began, when no night was over that was not over at its end, and under these conditions the
survey keeps its rule (such as not to observe a masked place, see C208). -/
theorem C219_same_night (S : Obs.Site) (hn : Obs.Nights S.nights) (hd : Down.Ordered S.downs) (M : Obs.Kin K Obs) (hM : Obs.NonNeg M) (fuel : ℕ)
    (conds : Obs.St K → C) (mount : K → B → K) (E : Env C Sv A) (key : Obs → α) (hkey : KeptColumns E M key)
    (X : Rest H C B) (hX : ∀ h v, 0 ≤ (X.overhead h v).2)
    (cfg : Sim.Cfg) (hstep : 0 ≤ cfg.stepNone) (h1 : 0 < cfg.startSize) (h2 : 0 < cfg.appendSize) (n : ℕ) (w : World (Core C Sv A × H) K)
    (hw : w.sched.1.conditions = none) (hq : w.sched.1.qm.desired = []) (rule : C → α → Prop)
    (hrule : ∀ sv c r, BestValue E c sv r → XReal.ltB .ninf r = true → ∀ g ∈ (E.sv.gen (E.sv.reward sv c).2 c).1, rule c (key g))
    (longest over : ℚ) (hover0 : 0 ≤ over) (hlong : ∀ k o t, ∀ s ∈ (M.observe k o t).2.1, (s + (M.observe k o t).2.2) / 24 / 3600 ≤ longest)
    (hover : ∀ h v, (X.overhead h v).2 / 86400 ≤ over)
    (hday : ∀ a ∈ S.nights, ∀ b ∈ S.nights, a.2 < b.1 → a.2 + (over + cfg.stepNone / 60 / 24 + longest) < b.1)
    (hraised : (Sim.run (V := Obs.Visit Obs) (env S M fuel conds mount (coreSched E X)) cfg n w).st.w.raised = false) :
    ∃ vs : List (Obs.Visit Obs), (Sim.run (V := Obs.Visit Obs) (env S M fuel conds mount (coreSched E X)) cfg n w).st.result = vs.map some
      ∧ ∀ v ∈ vs, ∃ st : Obs.St K, st.mjd ≤ v.mjd - v.slewtime / 24 / 3600
        ∧ .update st.mjd (conds st) ∈ (Sim.run (V := Obs.Visit Obs) (env S M fuel conds mount (coreSched E X)).recorded cfg n (w, [])).st.w.2
        ∧ rule (conds st) (key v.target)
        ∧ ∀ a ∈ S.nights, a.2 < v.mjd + v.visittime / 24 / 3600 → a.2 < st.mjd := by
  obtain ⟨vs, hr, hv⟩ := asked_before_bar (fun x => ∃ a ∈ S.nights, a.2 = x) S hn hd M hM fuel conds mount E key hkey X hX cfg hstep h1 h2 n w hw hq rule hrule
    longest over hover0 hlong hover (night_end_bar hn hday) hraised
  refine ⟨vs, hr, fun v hvm => ?_⟩
  obtain ⟨st, a, b, c, d⟩ := hv v hvm
  exact ⟨st, a, b, c, fun a ha => d _ ⟨a, ha, rfl⟩⟩

end

/-! ### Examples -/

/-- The surveys note in the declination when they were asked. -/
def nightEnv : Env ToyC ToySv Unit := { toyE with sv := { toyE.sv with gen := fun s c => (s.visits.map fun o => { o with dec := c.mjd }, s) } }

/-- An overhead after one visit; `big` in seconds. -/
def nightRest (big : ℚ) : Rest Unit ToyC Unit := ⟨fun _ _ => (), fun _ _ => ((), ()), fun _ v => ((), if 1 / 6 ≤ v.mjd ∧ v.mjd < 17 / 100 then big else 0)⟩

/-- When visits were asked for and when the telescope set out for them. -/
def nightMade (big : ℚ) : List (Option (ℚ × ℚ)) × Bool :=
  let o := Sim.run (V := Obs.Visit Obs) (env { toySite with downs := [] } wholeKin 20 (fun s => ⟨s.mjd, none⟩) (fun k _ => k) (coreSched nightEnv (nightRest big)))
    { duration := 11 / 10, startSize := 2, appendSize := 2, useOverhead := true } 60 wholeStart
  (o.st.result.map fun r => r.map fun v => (v.target.dec, slewStart v), o.st.w.raised)

/-- The last visit of the first night was asked for with two others, for which the night is too short; in the second night visits are asked for anew. -/
example : (nightMade 0).1.drop 18 = [some (103 / 270, 103 / 240), some (1957 / 4320, 1957 / 4320), some (73 / 72, 73 / 72), some (73 / 72, 4483 / 4320),
    some (73 / 72, 2293 / 2160), some (521 / 480, 521 / 480)] ∧ (nightMade 0).2 = false := by
  decide +kernel

/-- An overhead longer than the day takes a visit from one night to the next, so C219 needs its assumption: the visit asked for at 721/4320 in the first
night is made in the second. -/
theorem C219_long_overhead : ((nightMade (86400 * 9 / 10)).1.drop 7).take 2 = [some (721 / 4320, 721 / 4320), some (721 / 4320, 721 / 4320 + 103 / 4320 + 9 / 10)]
    ∧ (1 : ℚ) ≤ 721 / 4320 + 103 / 4320 + 9 / 10 ∧ (721 / 4320 : ℚ) ≤ 1 / 2 := by
  decide +kernel

/-- The other assumptions of C219 are met, with the time of asking as a rule. -/
example : KeptColumns nightEnv wholeKin Obs.dec ∧ (∀ h v, 0 ≤ ((nightRest 0).overhead h v).2) ∧ (∀ h v, ((nightRest 0).overhead h v).2 / 86400 ≤ 0)
    ∧ (∀ sv c r, BestValue nightEnv c sv r → XReal.ltB .ninf r = true → ∀ g ∈ (nightEnv.sv.gen (nightEnv.sv.reward sv c).2 c).1, g.dec = c.mjd)
    ∧ (∀ k o t, ∀ s ∈ (wholeKin.observe k o t).2.1, (s + (wholeKin.observe k o t).2.2) / 24 / 3600 ≤ 103 / 4320)
    ∧ (∀ a ∈ toySite.nights, ∀ b ∈ toySite.nights, a.2 < b.1 → a.2 + (0 + (15 : ℚ) / 60 / 24 + 103 / 4320) < b.1)
    ∧ wholeStart.sched.1.conditions = none ∧ wholeStart.sched.1.qm.desired = [] := by
  have h0 : ∀ h v, ((nightRest 0).overhead h v).2 = 0 := by
    intro h v
    simp [nightRest]
  refine ⟨⟨fun _ _ _ => rfl, fun _ _ => rfl, fun _ _ l o ho => ⟨o, ho, rfl⟩, ?_⟩, ?_, ?_, ?_, ?_, by decide +kernel, rfl, rfl⟩
  · intro k t o o' h
    have h : some o = some o' := h
    cases h
    rfl
  · intro h v; rw [h0]
  · intro h v; rw [h0]; norm_num
  · intro sv c r _ _ g hg
    obtain ⟨o, -, rfl⟩ := List.mem_map.1 hg
    rfl
  · intro k o t s hs
    simp only [wholeKin] at hs ⊢
    split_ifs at hs
    · cases hs
    · cases hs; norm_num

end Verif
