import Verif.Props.WholeAlert
import Verif.Props.WholeIdle

/-!
Property C256: surveys that follow alerts do not change a simulation in which nothing they follow is announced.
-/

namespace Verif

open Whole Core XReal

section
variable {C Sv A H K B : Type}

/-- The script is empty, and nothing is left to offer. -/
structure NothingPlanned (s : Script.St) : Prop where
  script : s.script = []
  scheduled : s.scheduled = none
  rough : s.rough = []
  obs : s.obs = []

/-- A survey that follows alerts, with settings as `Mine` says, and no plans. -/
def NoPlans (Mine : Too.Cfg → Prop) (s : Too.Sv) : Prop := Mine s.cfg ∧ ∀ x, s.st = some x → NothingPlanned x.base

theorem checkList_nil (cfg : Script.Cfg) {s : Script.St} (c : Script.Cond) (h : s.script = []) : Script.checkList cfg s c = [] := by
  unfold Script.checkList
  rw [h]
  have : Script.checkAltsHa c (([] : List Script.Entry).filter (Script.inWindow c)) = [] := by simp [Script.checkAltsHa]
  rw [this]
  unfold Script.truncate
  split_ifs <;> cases cfg.sort <;> simp

theorem gen_nothing (cfg : Script.Cfg) {s : Script.St} (c : Script.Cond) (h : NothingPlanned s) :
    NothingPlanned (Script.gen cfg s c).1 ∧ (Script.gen cfg s c).2 = [] := by
  have hr : NothingPlanned (Script.genRough cfg s c).1 ∧ (Script.genRough cfg s c).2 = [] := by
    unfold Script.genRough
    rw [checkList_nil cfg c h.script]
    split_ifs
    · exact ⟨h, h.rough⟩
    · exact ⟨⟨h.script, h.scheduled, rfl, h.obs⟩, rfl⟩
  unfold Script.gen
  split_ifs with h1
  · exact ⟨h, h.obs⟩
  · dsimp only
    rw [if_pos hr.2, hr.2]
    exact ⟨⟨hr.1.script, hr.1.scheduled, hr.1.rough, rfl⟩, rfl⟩

theorem flush_nothing (idOf : String → Option ℕ) {s : Script.St} (now : ℚ) (h : NothingPlanned s) :
    ∃ b, Too.flushScript idOf s now = some b ∧ NothingPlanned b := by
  refine ⟨Script.clear s, ?_, rfl, rfl, h.rough, h.obs⟩
  unfold Too.flushScript
  rw [if_pos (by rw [h.script]; rfl)]

theorem update_nothing (cfg : Too.Cfg) (idOf : String → Option ℕ) (now : ℚ) (as : List Too.Alert) (hno : ∀ a ∈ as, Too.follows cfg a = some false) :
    ∀ s : Too.S, NothingPlanned s.base → ∀ x, as.foldlM (Too.newEvent cfg idOf now) s = some x → NothingPlanned x.base := by
  induction as with
  | nil =>
    intro s h x hx
    cases hx
    exact h
  | cons a as ih =>
    intro s h x hx
    obtain ⟨b, hb, hb2⟩ := flush_nothing idOf now h
    have e : Too.newEvent cfg idOf now s a = some ⟨b, s.seen⟩ := by
      unfold Too.newEvent
      rw [hb, hno a List.mem_cons_self]
      rfl
    rw [List.foldlM_cons, e] at hx
    exact ih (fun a ha => hno a (List.mem_cons_of_mem _ ha)) ⟨b, s.seen⟩ hb2 x hx

variable {Mine : Too.Cfg → Prop}

theorem noPlans_update (idOf : String → Option ℕ) (now : ℚ) {al : Option (List Too.Alert)} (hno : ∀ as, al = some as → ∀ a ∈ as, ∀ cfg, Mine cfg → Too.follows cfg a = some false)
    {s : Too.Sv} (h : NoPlans Mine s) : NoPlans Mine (s.update idOf now al) := by
  refine ⟨h.1, fun x hx => ?_⟩
  obtain ⟨y, hy, hx⟩ := Option.bind_eq_some_iff.1 hx
  cases al with
  | none =>
    cases hx
    exact h.2 _ hy
  | some as => exact update_nothing s.cfg idOf now as (fun a ha => hno as rfl a ha _ h.1) y (h.2 y hy) x hx

theorem noPlans_gen {s : Too.Sv} (c : Script.Cond) (h : NoPlans Mine s) : NoPlans Mine (s.gen c).2 ∧ (s.gen c).1 = [] := by
  unfold Too.Sv.gen
  cases hs : s.st with
  | none => exact ⟨h, rfl⟩
  | some x =>
    obtain ⟨h1, h2⟩ := gen_nothing s.base c (h.2 x hs)
    refine ⟨⟨h.1, fun y hy => ?_⟩, h2⟩
    cases hy
    exact h1

/-- C256: surveys that follow targets of opportunity and have no plans at the start do not change a simulation while no alert of a type they follow is announced. With
them and without them it ends in the same way, at the same time, with the same visits; the observatory and all other surveys are left in the same state. Alerts of other
types may be announced. There must be another survey, and no tier may be empty. -/
theorem C256_quiet (S : Obs.Site) (M : Obs.Kin K Obs) (fuel : ℕ) (conds : Obs.St K → C) (mount : K → B → K) (X : Rest H C B) (cfg : Sim.Cfg) (n : ℕ)
    (E : Env C Sv A) (cond : C → Script.Cond) (alerts : C → Option (List Too.Alert)) (idOf : String → Option ℕ) (value : ℚ)
    (w : World (Core C (Sv ⊕ Too.Sv) A × H) K) (hnew : w.sched.1.conditions = none)
    (hplans : ∀ t ∈ w.sched.1.tiers, ∀ s, Sum.inr s ∈ t → ∃ id seen, s.st = some ⟨Script.init id, seen⟩)
    (halerts : ∀ o as, alerts (conds o) = some as → ∀ a ∈ as, ∀ t ∈ w.sched.1.tiers, ∀ s, Sum.inr s ∈ t → Too.follows s.cfg a = some false)
    (hfull : ∀ t ∈ w.sched.1.tiers, t ≠ []) (hsome : ∃ t ∈ w.sched.1.tiers, ∃ s, Sum.inl s ∈ t) :
    let more := Sim.run (V := Obs.Visit Obs)
      (env S M fuel conds mount (coreSched { q := E.q, sv := Script.mixed E.sv (Too.ops cond alerts idOf value), toos := E.toos } X)) cfg n w
    let less := Sim.run (V := Obs.Visit Obs) (env S M fuel conds mount (coreSched E X)) cfg n (withoutIdle w)
    less.kind = more.kind ∧ less.st.result = more.st.result ∧ less.st.mjd = more.st.mjd ∧ less.st.w.obs = more.st.w.obs ∧ less.st.w.raised = more.st.w.raised
      ∧ less.st.w.sched.1.tiers = (more.st.w.sched.1.tiers.map (List.filterMap Sum.getLeft?)).filter fun t => !t.isEmpty := by
  refine C251_meanwhile S M fuel conds mount X cfg n E (Too.ops cond alerts idOf value)
    (fun c => ∀ as, alerts c = some as → ∀ a ∈ as, ∀ cfg, (∃ t ∈ w.sched.1.tiers, ∃ s, Sum.inr s ∈ t ∧ s.cfg = cfg) → Too.follows cfg a = some false)
    (NoPlans fun cfg => ∃ t ∈ w.sched.1.tiers, ∃ s, Sum.inr s ∈ t ∧ s.cfg = cfg) ?_ ?_ ?_ ?_ ?_ ?_ w ?_ ?_ hfull hsome
  · rintro o as ha a h cfg ⟨t, ht, s, hs, rfl⟩
    exact halerts o as ha a h t ht s hs
  · intro s c hi hp r hr
    have h1 : ((s.update idOf (cond c).mjd (alerts c)).gen (cond c)).1 = [] := (noPlans_gen (cond c) (noPlans_update idOf (cond c).mjd hp hi)).2
    have h2 : (Too.ops cond alerts idOf value).reward s c = ([if ((s.update idOf (cond c).mjd (alerts c)).gen (cond c)).1 = [] then .ninf else .fin value],
      ((s.update idOf (cond c).mjd (alerts c)).gen (cond c)).2) := rfl
    rw [h2, h1] at hr
    simp only [if_true, List.mem_cons, List.not_mem_nil, or_false] at hr
    rw [hr]
    rfl
  · intro s hi
    show (s.st.bind fun x => x.base.scheduled) = none
    cases hs : s.st with
    | none => rfl
    | some x => exact (hi.2 x hs).scheduled
  · intro s c hi hp
    exact (noPlans_gen (cond c) (noPlans_update idOf (cond c).mjd hp hi)).1
  · intro s o hi
    refine ⟨hi.1, fun x hx => ?_⟩
    obtain ⟨y, hy, rfl⟩ := Option.map_eq_some_iff.1 hx
    have h := hi.2 y hy
    show NothingPlanned (Script.addOne s.base y.base o.schedulerNote)
    unfold Script.addOne
    split_ifs
    · exact ⟨by show Script.markFirst _ _ = []; rw [h.script]; rfl, h.scheduled, h.rough, h.obs⟩
    · exact h
  · intro s c hi hp
    exact noPlans_update idOf (cond c).mjd hp hi
  · intro c hc
    rw [hnew] at hc
    cases hc
  · intro t ht s hs
    refine ⟨⟨t, ht, s, hs, rfl⟩, fun x hx => ?_⟩
    obtain ⟨id, seen, h⟩ := hplans t ht s hs
    rw [h] at hx
    cases hx
    exact ⟨rfl, rfl, rfl, rfl⟩

end

/-! ### Examples -/

/-- Alerts of a type that is not followed, or of one that is. -/
def newsOf (kind : String) (c : ToyC) : Option (List Too.Alert) := Too.serve [{ alert 1 0 none with kind := some kind }, { alert 2 (1 / 50) (some 1) with kind := some kind }] c.mjd

def quietOther : ToySv := ⟨[.fin 1], [{ targetId := 0, band := "y" }], none⟩

/-- A survey that follows gravitational waves in the first tier, a survey of visits in the second. -/
def quietStart : World (Core ToyC (ToySv ⊕ Too.Sv) Unit × Unit) ℚ :=
  ⟨⟨0, 0, 40⟩, (Core.init () [[.inr ⟨alertCfg, cfg0 .none [], some ⟨Script.init 0, []⟩⟩], [.inl quietOther]] 5 true [], ()), false⟩

/-- The assumptions of C256 are met when neutrinos are announced. -/
example : quietStart.sched.1.conditions = none ∧ (∀ t ∈ quietStart.sched.1.tiers, ∀ s, Sum.inr s ∈ t → ∃ id seen, s.st = some ⟨Script.init id, seen⟩)
    ∧ (∀ (o : Obs.St ℚ) as, newsOf "neutrino" ⟨o.mjd, none⟩ = some as → ∀ a ∈ as, ∀ t ∈ quietStart.sched.1.tiers, ∀ s, Sum.inr s ∈ t → Too.follows s.cfg a = some false)
    ∧ (∀ t ∈ quietStart.sched.1.tiers, t ≠ []) ∧ (∃ t ∈ quietStart.sched.1.tiers, ∃ s, Sum.inl s ∈ t) := by
  have ht : quietStart.sched.1.tiers = [[.inr ⟨alertCfg, cfg0 .none [], some ⟨Script.init 0, []⟩⟩], [.inl quietOther]] := rfl
  refine ⟨rfl, ?_, ?_, ?_, [.inl quietOther], by simp [ht], quietOther, by simp⟩
  · intro t h s hs
    simp only [ht, List.mem_cons, List.not_mem_nil, or_false] at h
    rcases h with rfl | rfl
    · simp only [List.mem_cons, List.not_mem_nil, or_false, Sum.inr.injEq] at hs
      exact ⟨0, [], by rw [hs]⟩
    · simp at hs
  · intro o as has a ha t h s hs
    simp only [ht, List.mem_cons, List.not_mem_nil, or_false] at h
    rcases h with rfl | rfl
    · simp only [List.mem_cons, List.not_mem_nil, or_false, Sum.inr.injEq] at hs
      have hk : a.kind = some "neutrino" := by
        have hl : ∀ l : List Too.Alert, Too.orNone l = some as → as = l := by
          rintro (_ | ⟨x, l⟩) h
          · cases h
          · exact (Option.some.inj h).symm
        rw [hl _ has] at ha
        have := List.mem_of_mem_filter ha
        simp only [List.mem_cons, List.not_mem_nil, or_false] at this
        rcases this with rfl | rfl <;> rfl
      unfold Too.follows
      rw [hs, hk]
      decide +kernel
    · simp at hs
  · intro t h
    simp only [ht, List.mem_cons, List.not_mem_nil, or_false] at h
    rcases h with rfl | rfl <;> simp

/-- Notes and bands of the visits of a simulation. -/
def quietOut {S : Type} (o : Sim.Out (World S ℚ) (Obs.Visit Obs)) : List (Option (String × String)) × Bool :=
  (o.st.result.map fun r => r.map fun v => (v.target.schedulerNote, v.target.band), o.st.w.raised)

/-- A simulation with alerts of a type. -/
def quietSim (kind : String) : List (Option (String × String)) × Bool :=
  quietOut (Sim.run (V := Obs.Visit Obs) (env toySite wholeKin 20 (fun s => ⟨s.mjd, none⟩) (fun k _ => k)
    (coreSched { q := toyE.q, sv := Script.mixed toyE.sv (Too.ops (fun c => skyAt c.mjd) (newsOf kind) idOf0 2), toos := toyE.toos } wholeRest))
    { duration := 1 / 10, startSize := 2, appendSize := 2 } 20 quietStart)

/-- Nothing changes when neutrinos are announced; visits for gravitational waves are made when those are. -/
example : quietSim "neutrino" = ([some ("", "y"), some ("", "y"), some ("", "y"), some ("", "y"), some ("", "y")], false)
    ∧ quietOut (Sim.run (V := Obs.Visit Obs) wholeEnv { duration := 1 / 10, startSize := 2, appendSize := 2 } 20 (withoutIdle quietStart)) = quietSim "neutrino"
    ∧ quietSim "GW" = ([some ("", "y"), some ("ToO, g, 1, i0, 0", "g"), some ("ToO, r, 1, i0, 1", "r"), some ("ToO, g, 2, i0, 2", "g"), some ("ToO, r, 2, i0, 3", "r")],
      false) := by
  decide +kernel

end Verif
