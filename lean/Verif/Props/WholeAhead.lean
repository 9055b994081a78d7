import Verif.Model.SummitSim
import Verif.Props.SummitSame
import Verif.Props.WholeNight

/-!
Property C225: a simulation with the look-ahead wrapper makes the visits of a simulation with the scheduler it wraps.
-/

namespace Verif

open Whole Core

variable {C B Sv A H K : Type}

/-- A completed visit without its target id. -/
def visitNoId (v : Obs.Visit Obs) : Obs.Visit Obs := { v with target := noId v.target }

/-- The telescope pays no attention to target ids, and keeps them. -/
structure IdBlind (M : Obs.Kin K Obs) : Prop where
  keeps : ∀ k t o o', M.prepare k t o = some o' → o'.targetId = o.targetId
  prepare : ∀ k t o o', noId o = noId o' → (M.prepare k t o).map noId = (M.prepare k t o').map noId
  observe : ∀ k o o' t, noId o = noId o' → M.observe k o t = M.observe k o' t

/-- Neither do the band scheduler and the overheads. -/
structure RestBlind (X : Rest H C B) : Prop where
  bandAdd : ∀ h v v', visitNoId v = visitNoId v' → X.bandAdd h v = X.bandAdd h v'
  overhead : ∀ h v v', visitNoId v = visitNoId v' → X.overhead h v = X.overhead h v'

theorem observe_blind {M : Obs.Kin K Obs} (hM : IdBlind M) (S : Obs.Site) (fuel : ℕ) (s : Obs.St K) {o o' : Obs} (h : noId o = noId o') :
    ((∃ e, Obs.observe S M fuel s o = .error e) ∧ ∃ e, Obs.observe S M fuel s o' = .error e) ∨
    ∃ s1 r r' nn, Obs.observe S M fuel s o = .ok (s1, r, nn) ∧ Obs.observe S M fuel s o' = .ok (s1, r', nn)
      ∧ ((r = none ∧ r' = none) ∨ ∃ v v', r = some v ∧ r' = some v' ∧ visitNoId v = visitNoId v' ∧ v.target.targetId = o.targetId ∧ v'.target.targetId = o'.targetId) := by
  have hp := hM.prepare s.kin s.mjd o o' h
  unfold Obs.observe
  cases h1 : M.prepare s.kin s.mjd o with
  | none =>
    rw [h1] at hp
    cases h2 : M.prepare s.kin s.mjd o' with
    | none => exact .inl ⟨⟨_, rfl⟩, ⟨_, rfl⟩⟩
    | some b => rw [h2] at hp; cases hp
  | some a =>
    rw [h1] at hp
    cases h2 : M.prepare s.kin s.mjd o' with
    | none => rw [h2] at hp; cases hp
    | some b =>
      rw [h2] at hp
      have hp : noId a = noId b := Option.some.inj hp
      have e1 := hM.keeps _ _ _ _ h1
      have e2 := hM.keeps _ _ _ _ h2
      dsimp only
      rw [hM.observe _ a b _ hp]
      generalize M.observe (if S.parkAfter < s.mjd - M.lastMjd s.kin then M.park s.kin else s.kin) b s.mjd = r
      obtain ⟨k, sl, vt⟩ := r
      dsimp only
      cases sl with
      | none => exact .inr ⟨_, _, _, _, rfl, rfl, .inl ⟨rfl, rfl⟩⟩
      | some slew =>
        dsimp only
        cases Obs.checkMjd S fuel (s.mjd + (slew + vt) / 24 / 3600) with
        | error e => exact .inl ⟨⟨_, rfl⟩, ⟨_, rfl⟩⟩
        | ok x =>
          obtain ⟨p, new⟩ := x
          cases p with
          | false => exact .inr ⟨_, _, _, _, rfl, rfl, .inl ⟨rfl, rfl⟩⟩
          | true =>
            refine .inr ⟨_, _, _, _, rfl, rfl, .inr ⟨_, _, rfl, rfl, ?_, e1, e2⟩⟩
            unfold visitNoId
            dsimp only
            rw [hp]

theorem told_blind {v v' : Obs.Visit Obs} (h : visitNoId v = visitNoId v') : noId (told v) = noId (told v') := by
  unfold visitNoId at h
  simp only [Obs.Visit.mk.injEq] at h
  have h1 := h.1
  have h2 := h.2.1
  unfold noId told at *
  simp only [Obs.mk.injEq] at h1 ⊢
  tauto

/-! ### The wrapper beside the scheduler -/

variable {E : Env C Sv A} {eq : Sv → Sv → Prop}

theorem SameCore.symm (H : Forgetful E.sv eq) {p k : Core C Sv A} (h : SameCore E eq p k) : SameCore E eq k p :=
  ⟨h.rows.symm, h.alignedK, h.alignedP, h.lastK, h.lastP, h.idsK, h.idsP, h.aux.symm, tiersAs_symm H h.tiers, h.cond.symm, h.filters.symm, h.flag.symm, h.toos.symm⟩

theorem Quiet.update (P : Plain E) (H : Forgetful E.sv eq) (Q : ForgetfulQ E.q) (F : FillIn C) {p : Core C Sv A} {w : Summit C Sv A} (h : Quiet E eq p w) (c : C) :
    Quiet E eq (p.update E c) (Summit.update E w c) := by
  rcases turn_alike P H Q F h (.update c) trivial with ⟨h1, -⟩ | ⟨p', w', l, l', h1, h2, -, h4⟩
  · cases h1
  · have e1 : some (p.update E c, ([] : List Obs)) = some (p', l) := h1
    have e2 : some (Summit.update E w c, ([] : List Obs)) = some (w', l') := h2
    cases e1; cases e2
    exact h4

/-- The plain scheduler may be given the same conditions again. -/
theorem Quiet.again (H : Forgetful E.sv eq) {p : Core C Sv A} {w : Summit C Sv A} (h : Quiet E eq p w) {c : C} (hc : p.conditions = some c) :
    Quiet E eq (p.update E c) w := by
  have hwc : w.cond = some c := h.cond.trans (h.same.cond.symm.trans hc)
  obtain ⟨h1, h2⟩ := (h.same.symm H).again H hc (by
    intro hf
    rw [h.same.toos]
    exact h.known c hwc (h.same.flag.symm.trans hf))
  refine ⟨h1.symm H, h.pend, h.ids, h.cond, h.ahead, h.known, ?_, h.toos, h.flag, h.aligned⟩
  rw [h2]
  exact h.queue

/-- Visits that last at all times have no end. -/
theorem lasting_zero {q : QEnv C A} (htime : ∀ t, ∃ c, q.mjdOf c = t) {o : Obs} (h : QM.Lasting q o) : o.flushBy = 0 := by
  obtain ⟨c, hc⟩ := htime (o.flushBy + 1)
  rcases h c with h1 | h1
  · rw [hc] at h1; linarith
  · exact h1

theorem coreCheck_ready (P : Plain E) (htime : ∀ t, ∃ c, E.q.mjdOf c = t) {s : Core C Sv A} {c : C} (hc : s.conditions = some c) (ha : s.qm.Aligned)
    (hl : ∀ o ∈ s.qm.active, QM.Lasting E.q o) (x : ℚ) : coreCheck E s x = !s.qm.nonePending := by
  cases hn : s.qm.nonePending with
  | true =>
    cases h : coreCheck E s x with
    | false => rfl
    | true => rw [check_pending h] at hn; cases hn
  | false =>
    unfold coreCheck
    rw [hc]
    show decide ((s.qm.findValid E.q c x).length > 0) = true
    rw [decide_eq_true_eq, gt_iff_lt, List.length_pos_iff]
    intro h0
    have h1 := QM.selected_eq E.q s.qm c x ha
    rw [h0] at h1
    have h2 : s.qm.selectable E.q c x = s.qm.active := QM.selectable_active { E.q with mjdOf := fun _ => x } s.qm c ha (P.mask _ _)
      (fun o ho _ => .inr (lasting_zero htime (hl o ho)))
    rw [h2] at h1
    have := (QM.nonePending_iff s.qm ha).2 h1.symm
    rw [hn] at this
    cases this

theorem Quiet.check (P : Plain E) (htime : ∀ t, ∃ c, E.q.mjdOf c = t) {p : Core C Sv A} {w : Summit C Sv A} (h : Quiet E eq p w) {c : C} (hc : p.conditions = some c)
    (x : ℚ) : Summit.check w x = coreCheck E p x := by
  rw [coreCheck_ready P htime hc h.same.alignedP h.same.lastP x]
  have hq := h.queue
  cases hp : p.qm.active with
  | nil =>
    rw [hp] at hq
    have ha : w.ahead.qm.active = [] := List.map_eq_nil_iff.1 hq
    rw [(QM.nonePending_iff _ h.same.alignedP).2 hp]
    unfold Summit.check
    rw [(QM.nonePending_iff _ h.aligned).2 ha]
    rfl
  | cons o r =>
    have hpn : p.qm.nonePending = false := by
      cases hx : p.qm.nonePending with
      | false => rfl
      | true => rw [(QM.nonePending_iff _ h.same.alignedP).1 hx] at hp; cases hp
    cases ha : w.ahead.qm.active with
    | nil => rw [hp, ha] at hq; cases hq
    | cons o' r' =>
      have hwn : w.ahead.qm.nonePending = false := by
        cases hx : w.ahead.qm.nonePending with
        | false => rfl
        | true => rw [(QM.nonePending_iff _ h.aligned).1 hx] at ha; cases ha
      rw [hp, ha] at hq
      have h0 : o.flushBy = 0 := lasting_zero htime (h.same.lastP o (by rw [hp]; exact List.mem_cons_self))
      have h1 : o'.flushBy = o.flushBy := by
        have := (List.cons.inj hq).1
        exact (show (noId o').flushBy = (noId o).flushBy by rw [this])
      unfold Summit.check
      rw [hwn, hpn, ha, List.any_cons, h1, h0]
      simp

/-! ### The simulation -/

/-- The worlds of the two simulations at the same place of the loop. -/
structure WorldsAlike (S : Obs.Site) (M : Obs.Kin K Obs) (E : Env C Sv A) (eq : Sv → Sv → Prop) (a : World (Core C Sv A × H) K) (b : World (Summit C Sv A × H) K) : Prop where
  obs : a.obs = b.obs
  rest : a.sched.2 = b.sched.2
  fineA : a.raised = false
  fineB : b.raised = false
  quiet : Quiet E eq a.sched.1 b.sched.1
  first : a.sched.1.conditions = none → a.sched.1.qm.active = []
  still : a.sched.1.conditions = none → Obs.idle S M a.obs = a.obs

/-- What the caller sees of the loop is the same. -/
structure SameCounts (s : Sim.St (World (Core C Sv A × H) K) (Obs.Visit Obs)) (t : Sim.St (World (Summit C Sv A × H) K) (Obs.Visit Obs)) : Prop where
  buf : s.buf.map (Option.map visitNoId) = t.buf.map (Option.map visitNoId)
  counter : s.counter = t.counter
  skipA : s.nskip = 0
  skipB : t.nskip = 0

/-- The loops at the same place. -/
structure LoopsAlike (S : Obs.Site) (M : Obs.Kin K Obs) (E : Env C Sv A) (eq : Sv → Sv → Prop) (s : Sim.St (World (Core C Sv A × H) K) (Obs.Visit Obs))
    (t : Sim.St (World (Summit C Sv A × H) K) (Obs.Visit Obs)) : Prop extends SameCounts s t where
  world : WorldsAlike S M E eq s.w t.w
  mjd : s.mjd = t.mjd
  last : s.endMjd = t.endMjd
  flushed : s.lastFlush = t.lastFlush

/-- The loops have ended at the same place. -/
structure EndsAlike (s : Sim.St (World (Core C Sv A × H) K) (Obs.Visit Obs)) (t : Sim.St (World (Summit C Sv A × H) K) (Obs.Visit Obs)) : Prop
    extends SameCounts s t where
  fineA : s.w.raised = false
  fineB : t.w.raised = false

/-- The wrapper has raised; the plain scheduler has raised, or had no visit. -/
def Parted (s : Sim.St (World (Core C Sv A × H) K) (Obs.Visit Obs)) (t : Sim.St (World (Summit C Sv A × H) K) (Obs.Visit Obs)) : Prop :=
  (s.w.raised = true ∨ 0 < s.nskip) ∧ t.w.raised = true

theorem LoopsAlike.ends {S : Obs.Site} {M : Obs.Kin K Obs} {s : Sim.St (World (Core C Sv A × H) K) (Obs.Visit Obs)} {t : Sim.St (World (Summit C Sv A × H) K) (Obs.Visit Obs)}
    (h : LoopsAlike S M E eq s t) : EndsAlike s t := ⟨h.toSameCounts, h.world.fineA, h.world.fineB⟩

/-- A telescope that is parked stays so when it is parked again or bands are put into it, and both keep the time of its last visit. -/
structure Parks {O : Type} (M : Obs.Kin K O) (mount : K → B → K) : Prop where
  again : ∀ k, M.park (M.park k) = M.park k
  time : ∀ k, M.lastMjd (M.park k) = M.lastMjd k
  bands : ∀ k b, M.park (mount (M.park k) b) = mount (M.park k) b
  bandsTime : ∀ k b, M.lastMjd (mount k b) = M.lastMjd k

theorem Parks.idle_idle {O : Type} {M : Obs.Kin K O} {mount : K → B → K} (h : Parks M mount) (S : Obs.Site) (s : Obs.St K) :
    Obs.idle S M (Obs.idle S M s) = Obs.idle S M s := by
  unfold Obs.idle
  by_cases hg : S.parkAfter < s.mjd - M.lastMjd s.kin
  · simp only [if_pos hg, h.time, h.again]
  · simp only [if_neg hg]

theorem Parks.idle_mount {O : Type} {M : Obs.Kin K O} {mount : K → B → K} (h : Parks M mount) (S : Obs.Site) (s : Obs.St K) (b : B) :
    Obs.idle S M { Obs.idle S M s with kin := mount (Obs.idle S M s).kin b } = { Obs.idle S M s with kin := mount (Obs.idle S M s).kin b } := by
  unfold Obs.idle
  by_cases hg : S.parkAfter < s.mjd - M.lastMjd s.kin
  · simp only [if_pos hg, h.time, h.bandsTime, h.bands]
  · simp only [if_neg hg, h.bandsTime]

/-- The telescope of the simulations is such a telescope. -/
theorem parks_telescope (T : Kinem.Cfg ℚ) (resolve lax : Bool) : Parks (Kinem.kin T resolve lax) mountTel := by
  refine ⟨fun _ => rfl, fun _ => rfl, fun k b => ?_, fun k b => ?_⟩
  · show Kinem.park T (mountTel (Kinem.park T k) b) = mountTel (Kinem.park T k) b
    unfold mountTel Kinem.mount
    cases b.getLast? <;> rfl
  · show (mountTel k b).lastMjd = k.lastMjd
    unfold mountTel Kinem.mount
    cases b.getLast? <;> rfl

/-- The passes of the two loops. -/
inductive PassesAlike (S : Obs.Site) (M : Obs.Kin K Obs) (E : Env C Sv A) (eq : Sv → Sv → Prop) :
    Sim.Pass (World (Core C Sv A × H) K) (Obs.Visit Obs) → Sim.Pass (World (Summit C Sv A × H) K) (Obs.Visit Obs) → Prop where
  | again {s t} (h : LoopsAlike S M E eq s t) : PassesAlike S M E eq (.again s) (.again t)
  | brk {s t} (h : EndsAlike s t) : PassesAlike S M E eq (.brk s) (.brk t)
  | gaveUp {s t} (h : EndsAlike s t) : PassesAlike S M E eq (.gaveUp s) (.gaveUp t)
  | indexError {s t} (h : EndsAlike s t) : PassesAlike S M E eq (.indexError s) (.indexError t)
  | apart {p q} (h : Parted p.st q.st) : PassesAlike S M E eq p q

section
variable (S : Obs.Site) (M : Obs.Kin K Obs) (fuel : ℕ) (conds : Obs.St K → C) (mount : K → B → K) (X : Rest H C B) (F : FillIn C)

/-- The simulation with the plain scheduler, and with the wrapper. -/
local notation "simP" => env S M fuel conds mount (coreSched E X)
local notation "simA" => env S M fuel conds mount (Summit.sched E F X)

theorem updateNow_alike (P : Plain E) (H' : Forgetful E.sv eq) (Q : ForgetfulQ E.q) {a : World (Core C Sv A × H) K} {b : World (Summit C Sv A × H) K}
    (h : WorldsAlike S M E eq a b) : WorldsAlike S M E eq (Sim.updateNow simP a) (Sim.updateNow simA b) := by
  refine ⟨congrArg (Obs.idle S M) h.obs, h.rest, h.fineA, h.fineB, ?_, ?_, ?_⟩
  · show Quiet E eq (a.sched.1.update E (conds a.obs)) (Summit.update E b.sched.1 (conds b.obs))
    rw [← h.obs]
    exact h.quiet.update P H' Q F _
  · intro hc
    have : (a.sched.1.update E (conds a.obs)).conditions = none := hc
    rw [(update_tiers E a.sched.1 _).2.1] at this
    cases this
  · intro hc
    have : (a.sched.1.update E (conds a.obs)).conditions = none := hc
    rw [(update_tiers E a.sched.1 _).2.1] at this
    cases this

theorem mountNow_first (hK : Parks M mount) {a : World (Core C Sv A × H) K} {b : World (Summit C Sv A × H) K}
    (h1 : a.obs = b.obs) (h2 : a.sched.2 = b.sched.2) (h3 : a.raised = false) (h4 : b.raised = false)
    (h5 : Quiet E eq a.sched.1 b.sched.1) (h6 : a.sched.1.conditions = none → a.sched.1.qm.active = []) :
    WorldsAlike S M E eq (Sim.mountNow simP a) (Sim.mountNow simA b) := by
  obtain ⟨oa, ⟨sa, ha⟩, ra⟩ := a
  obtain ⟨ob, ⟨sb, hb⟩, rb⟩ := b
  dsimp only at h1 h2
  subst h1 h2
  exact ⟨rfl, rfl, h3, h4, h5, h6, fun _ => hK.idle_mount S oa _⟩

theorem mountNow_alike (hK : Parks M mount) {a : World (Core C Sv A × H) K} {b : World (Summit C Sv A × H) K} (h : WorldsAlike S M E eq a b) :
    WorldsAlike S M E eq (Sim.mountNow simP a) (Sim.mountNow simA b) :=
  mountNow_first S M fuel conds mount X F hK h.obs h.rest h.fineA h.fineB h.quiet h.first

theorem refresh_alike (hK : Parks M mount) (P : Plain E) (H' : Forgetful E.sv eq) (Q : ForgetfulQ E.q) (htime : ∀ t, ∃ c, E.q.mjdOf c = t) (cfg : Sim.Cfg)
    {a : World (Core C Sv A × H) K} {b : World (Summit C Sv A × H) K} (h : WorldsAlike S M E eq a b) :
    WorldsAlike S M E eq (Sim.refresh simP cfg a) (Sim.refresh simA cfg b) ∧ (Sim.refresh simP cfg a).sched.1.conditions ≠ none := by
  have hu := updateNow_alike S M fuel conds mount X F P H' Q h
  have hcu : ∀ a : World (Core C Sv A × H) K, (Sim.updateNow simP a).sched.1.conditions = some (conds a.obs) := fun a => (update_tiers E a.sched.1 _).2.1
  cases hc : a.sched.1.conditions with
  | none =>
    have hpa := h.first hc
    -- the plain scheduler is given the conditions twice
    have hq : (Sim.updateNow simP a).sched.1.qm.nonePending = true := by
      show (a.sched.1.update E (conds a.obs)).qm.nonePending = true
      exact update_pending _ _ ((QM.nonePending_iff _ h.quiet.same.alignedP).2 hpa)
    have e1 : Sim.refresh simP cfg a = Sim.updateNow simP (Sim.updateNow simP a) := by
      unfold Sim.refresh
      have h1 : Sim.Env.hasConds simP a = false := by show a.sched.1.conditions.isSome = false; rw [hc]; rfl
      have h2 : (Sim.Env.check simP (Sim.updateNow simP a) (Sim.Env.clock simP (Sim.updateNow simP a))).2 = false := by
        show coreCheck E (Sim.updateNow simP a).sched.1 _ = false
        rw [coreCheck_ready P htime (hcu a) hu.quiet.same.alignedP hu.quiet.same.lastP, hq]
        rfl
      rw [h1]
      simp only [Bool.false_eq_true, if_false, h2, Bool.not_true, Bool.and_false]
      rfl
    have e2 : Sim.refresh simA cfg b = Sim.updateNow simA b := by
      unfold Sim.refresh
      have h1 : Sim.Env.hasConds simA b = true := rfl
      have h2 : (Sim.Env.check simA b (Sim.Env.clock simA b)).2 = false := by
        show Summit.check b.sched.1 _ = false
        have ha : b.sched.1.ahead.qm.active = [] := by
          have := h.quiet.queue
          rw [hpa] at this
          exact List.map_eq_nil_iff.1 this
        unfold Summit.check
        rw [(QM.nonePending_iff _ h.quiet.aligned).2 ha]
        rfl
      rw [h1]
      simp only [if_true, h2, Bool.false_eq_true, if_false, Bool.not_true, Bool.and_false]
      rfl
    rw [e1, e2]
    have hst : (Sim.updateNow simP a).obs = a.obs := h.still hc
    refine ⟨⟨(congrArg (Obs.idle S M) hst).trans hu.obs, hu.rest, hu.fineA, hu.fineB, ?_, ?_, ?_⟩, ?_⟩
    · exact hu.quiet.again H' ((hcu a).trans (congrArg some (congrArg conds hst.symm)))
    · intro hx; rw [hcu] at hx; cases hx
    · intro hx; rw [hcu] at hx; cases hx
    · rw [hcu]; exact Option.some_ne_none _
  | some c =>
    have hk : (Sim.Env.check simA b (Sim.Env.clock simA b)).2 = (Sim.Env.check simP a (Sim.Env.clock simP a)).2 := by
      show Summit.check b.sched.1 b.obs.mjd = coreCheck E a.sched.1 a.obs.mjd
      rw [h.quiet.check P htime hc, h.obs]
    have h1 : Sim.Env.hasConds simP a = true := by show a.sched.1.conditions.isSome = true; rw [hc]; rfl
    have h2 : Sim.Env.hasConds simA b = true := rfl
    have hne : a.sched.1.conditions ≠ none := by rw [hc]; exact Option.some_ne_none _
    have hne' : (Sim.updateNow simP a).sched.1.conditions ≠ none := by rw [hcu]; exact Option.some_ne_none _
    have ca : ∀ x, (Sim.Env.check simP a x).1 = a := fun _ => rfl
    have cb : ∀ x, (Sim.Env.check simA b x).1 = b := fun _ => rfl
    unfold Sim.refresh
    rw [h1, h2]
    simp only [if_true, hk, ca, cb]
    cases (Sim.Env.check simP a (Sim.Env.clock simP a)).2 <;> cases cfg.updateEvery <;>
      simp only [Bool.false_eq_true, if_false, if_true, Bool.not_true, Bool.not_false, Bool.and_false, Bool.and_true, Bool.and_self]
    · exact ⟨hu, hne'⟩
    · exact ⟨hu, hne'⟩
    · exact ⟨h, hne⟩
    · exact ⟨hu, hne'⟩

theorem endOfPass_ahead (hK : Parks M mount) (cfg : Sim.Cfg) (nn : Bool) {s : Sim.St (World (Core C Sv A × H) K) (Obs.Visit Obs)} {t : Sim.St (World (Summit C Sv A × H) K) (Obs.Visit Obs)}
    (h : LoopsAlike S M E eq s t) : PassesAlike S M E eq (Sim.endOfPass simP cfg nn s) (Sim.endOfPass simA cfg nn t) := by
  unfold Sim.endOfPass
  dsimp only
  have hw : WorldsAlike S M E eq (if nn then Sim.mountNow simP s.w else s.w) (if nn then Sim.mountNow simA t.w else t.w) := by
    cases nn
    · exact h.world
    · exact mountNow_alike S M fuel conds mount X F hK h.world
  have hl : LoopsAlike S M E eq { s with w := if nn then Sim.mountNow simP s.w else s.w, mjd := Sim.Env.clock simP (if nn then Sim.mountNow simP s.w else s.w) }
      { t with w := if nn then Sim.mountNow simA t.w else t.w, mjd := Sim.Env.clock simA (if nn then Sim.mountNow simA t.w else t.w) } :=
    ⟨⟨h.buf, h.counter, h.skipA, h.skipB⟩, hw, congrArg Obs.St.mjd hw.obs, h.last, h.flushed⟩
  cases cfg.visitLimit with
  | none => exact .again hl
  | some n =>
    dsimp only
    by_cases hc : (s.counter : ℤ) = n
    · rw [if_pos hc, if_pos (show (t.counter : ℤ) = n by rw [← h.counter]; exact hc)]
      exact .brk hl.ends
    · rw [if_neg hc, if_neg (show ¬ (t.counter : ℤ) = n by rw [← h.counter]; exact hc)]
      exact .again hl

theorem store_alike (cfg : Sim.Cfg) {x y : List (Option (Obs.Visit Obs))} (h : x.map (Option.map visitNoId) = y.map (Option.map visitNoId)) (n : ℕ)
    {v v' : Obs.Visit Obs} (hv : visitNoId v = visitNoId v') :
    (Sim.store cfg x n v = none ∧ Sim.store cfg y n v' = none) ∨
    ∃ x' y', Sim.store cfg x n v = some x' ∧ Sim.store cfg y n v' = some y' ∧ x'.map (Option.map visitNoId) = y'.map (Option.map visitNoId) := by
  have hl : x.length = y.length := by
    have := congrArg List.length h
    simpa using this
  unfold Sim.store
  dsimp only
  rw [hl, List.length_set, List.length_set, hl]
  by_cases h1 : n < y.length
  · rw [if_pos h1, if_pos h1]
    have hs : (x.set n (some v)).map (Option.map visitNoId) = (y.set n (some v')).map (Option.map visitNoId) := by
      rw [List.map_set, List.map_set, h, Option.map_some, Option.map_some, hv]
    by_cases h2 : n + 1 = y.length
    · rw [if_pos h2, if_pos h2]
      exact .inr ⟨_, _, rfl, rfl, by rw [List.map_append, List.map_append, hs]⟩
    · rw [if_neg h2, if_neg h2]
      exact .inr ⟨_, _, rfl, rfl, hs⟩
  · rw [if_neg h1, if_neg h1]
    exact .inl ⟨rfl, rfl⟩

theorem requestOf_plain {a : World (Core C Sv A × H) K} {p' : Core C Sv A} {x : Obs} {ev : List Ev} (m : ℚ)
    (h : a.sched.1.request E none false = .ok (p', some [x], ev)) :
    requestOf (coreSched (B := B) E X) a m = (⟨a.obs, (p', a.sched.2), a.raised⟩, some (asked x)) := by
  have h' : a.sched.1.request E (some m) false = .ok (p', some [x], ev) := h
  unfold requestOf coreSched
  dsimp only
  unfold coreRequest
  rw [h']
  rfl

theorem requestOf_ahead {b : World (Summit C Sv A × H) K} {w' : Summit C Sv A} {y : Obs} (m : ℚ) (h : Summit.request E F b.sched.1 none = some (w', y)) :
    requestOf (Summit.sched (B := B) E F X) b m = (⟨b.obs, (w', b.sched.2), b.raised⟩, some (asked y)) := by
  have h' : Summit.request E F b.sched.1 (some m) = some (w', y) := h
  unfold requestOf Summit.sched
  dsimp only
  rw [h']
  rfl

/-- What becomes of a visit in the observatory. -/
def outcome (s : Obs.St K) (o : Obs) : Obs :=
  match Obs.observe S M fuel s o with
  | .ok (_, some v, _) => told v
  | _ => o

theorem outcome_keeps (hM : IdBlind M) (s : Obs.St K) : (Turn.made (C := C) (outcome S M fuel s)).Keeps := by
  have key : ∀ o o', noId o = noId o' → (outcome S M fuel s o).targetId = o.targetId ∧ noId (outcome S M fuel s o) = noId (outcome S M fuel s o') := by
    intro o o' h
    unfold outcome
    rcases observe_blind hM S fuel s h with ⟨⟨e, h1⟩, ⟨e', h2⟩⟩ | ⟨s1, r, r', nn, h1, h2, ⟨rfl, rfl⟩ | ⟨v, v', rfl, rfl, h3, h4, h5⟩⟩
    · rw [h1, h2]; exact ⟨rfl, h⟩
    · rw [h1, h2]; exact ⟨rfl, h⟩
    · rw [h1, h2]; exact ⟨h4, told_blind h3⟩
  intro o
  exact ⟨(key o o rfl).1, fun o' h => (key o o' h).2⟩

theorem addOverhead_alike (hX : RestBlind X) (cfg : Sim.Cfg) (s : Obs.St K) (p : Core C Sv A) (w : Summit C Sv A) (h : H) {v v' : Obs.Visit Obs}
    (hv : visitNoId v = visitNoId v') :
    ∃ s' h', Sim.addOverhead simP cfg ⟨s, (p, h), false⟩ v = ⟨s', (p, h'), false⟩ ∧ Sim.addOverhead simA cfg ⟨s, (w, h), false⟩ v' = ⟨s', (w, h'), false⟩ := by
  unfold Sim.addOverhead
  by_cases hu : cfg.useOverhead = true
  · rw [if_pos hu, if_pos hu]
    refine ⟨_, _, rfl, ?_⟩
    show (⟨{ s with mjd := s.mjd + (X.overhead h v').2 / 86400 }, (w, (X.overhead h v').1), false⟩ : World (Summit C Sv A × H) K) = _
    rw [← hX.overhead h v v' hv]
    rfl
  · rw [if_neg hu, if_neg hu]
    exact ⟨s, h, rfl, rfl⟩

theorem pass_ahead (hK : Parks M mount) (P : Plain E) (H' : Forgetful E.sv eq) (Q : ForgetfulQ E.q) (htime : ∀ t, ∃ c, E.q.mjdOf c = t) (hM : IdBlind M) (hX : RestBlind X) (cfg : Sim.Cfg)
    {s : Sim.St (World (Core C Sv A × H) K) (Obs.Visit Obs)} {t : Sim.St (World (Summit C Sv A × H) K) (Obs.Visit Obs)} (h : LoopsAlike S M E eq s t) :
    PassesAlike S M E eq (Sim.pass simP cfg s) (Sim.pass simA cfg t) := by
  obtain ⟨hr, hne⟩ := refresh_alike S M fuel conds mount X F hK P H' Q htime cfg h.world
  unfold Sim.pass
  dsimp only
  generalize Sim.refresh simP cfg s.w = a at hr hne
  generalize Sim.refresh simA cfg t.w = b at hr
  obtain ⟨o, ⟨p, hh⟩, ra⟩ := a
  obtain ⟨o', ⟨w, hh'⟩, rb⟩ := b
  obtain ⟨e1, e2, e3, e4, hq, -, -⟩ := hr
  dsimp only at e1 e2 e3 e4 hq hne
  subst e1 e2 e3 e4
  rcases hq.request P H' Q F with ⟨p', w', k', x, y, x0, y0, rp, rk, ev, hp, hw, hn, -⟩ | ⟨hp, hw⟩
  · have r1 : Sim.Env.request simP (⟨o, (p, hh), false⟩ : World (Core C Sv A × H) K) (Sim.Env.clock simP (⟨o, (p, hh), false⟩ : World (Core C Sv A × H) K))
        = (⟨o, (p', hh), false⟩, some (asked x)) := requestOf_plain X o.mjd hp
    have r2 : Sim.Env.request simA (⟨o, (w, hh), false⟩ : World (Summit C Sv A × H) K) (Sim.Env.clock simA (⟨o, (w, hh), false⟩ : World (Summit C Sv A × H) K))
        = (⟨o, (w', hh), false⟩, some (asked y)) := requestOf_ahead X F o.mjd hw
    rw [r1, r2]
    dsimp only
    have o1 : Sim.Env.observe simP (⟨o, (p', hh), false⟩ : World (Core C Sv A × H) K) (asked x) = observeOf S M fuel ⟨o, (p', hh), false⟩ (asked x) := rfl
    have o2 : Sim.Env.observe simA (⟨o, (w', hh), false⟩ : World (Summit C Sv A × H) K) (asked y) = observeOf S M fuel ⟨o, (w', hh), false⟩ (asked y) := rfl
    have hcp : p'.conditions ≠ none := by rw [request_conditions hp]; exact hne
    rcases observe_blind hM S fuel o hn with ⟨⟨e, h1⟩, ⟨e', h2⟩⟩ | ⟨s1, r, r', nn, h1, h2, ⟨rfl, rfl⟩ | ⟨v, v', rfl, rfl, h3, -, -⟩⟩
    · have g1 : observeOf S M fuel (⟨o, (p', hh), false⟩ : World (Core C Sv A × H) K) (asked x) = (⟨o, (p', hh), true⟩, none, false) := by
        unfold observeOf; dsimp only [asked]; rw [h1]
      have g2 : observeOf S M fuel (⟨o, (w', hh), false⟩ : World (Summit C Sv A × H) K) (asked y) = (⟨o, (w', hh), true⟩, none, false) := by
        unfold observeOf; dsimp only [asked]; rw [h2]
      rw [o1, o2, g1, g2]
      refine .apart ⟨.inl ?_, ?_⟩
      · dsimp only
        unfold Sim.rejectedPass
        split_ifs
        · rfl
        · rw [Sim.endOfPass_st]; rfl
      · dsimp only
        unfold Sim.rejectedPass
        split_ifs
        · rfl
        · rw [Sim.endOfPass_st]; rfl
    · have g1 : observeOf S M fuel (⟨o, (p', hh), false⟩ : World (Core C Sv A × H) K) (asked x) = (⟨s1, (p', hh), false⟩, none, nn) := by
        unfold observeOf; dsimp only [asked]; rw [h1]
      have g2 : observeOf S M fuel (⟨o, (w', hh), false⟩ : World (Summit C Sv A × H) K) (asked y) = (⟨s1, (w', hh), false⟩, none, nn) := by
        unfold observeOf; dsimp only [asked]; rw [h2]
      rw [o1, o2, g1, g2]
      dsimp only
      unfold Sim.rejectedPass
      have k1 : Sim.Env.clock simP (⟨s1, (p', hh), false⟩ : World (Core C Sv A × H) K) = s1.mjd := rfl
      have k2 : Sim.Env.clock simA (⟨s1, (w', hh), false⟩ : World (Summit C Sv A × H) K) = s1.mjd := rfl
      dsimp only
      rw [k1, k2, ← h.flushed]
      by_cases hl : s1.mjd = s.lastFlush
      · rw [if_pos hl, if_pos hl]
        exact .gaveUp ⟨⟨h.buf, h.counter, h.skipA, h.skipB⟩, rfl, rfl⟩
      · rw [if_neg hl, if_neg hl]
        refine endOfPass_ahead S M fuel conds mount X F hK cfg nn ⟨⟨h.buf, h.counter, h.skipA, h.skipB⟩, ⟨rfl, rfl, rfl, rfl, ?_, ?_, ?_⟩, h.mjd, h.last, rfl⟩
        · show Quiet E eq p'.flush (Summit.flush w')
          rcases turn_alike P H' Q F hq .lost trivial with ⟨c1, -⟩ | ⟨p2, w2, l, l', c1, c2, -, c4⟩
          · unfold plainTurn at c1; rw [hp] at c1; cases c1
          · unfold plainTurn at c1; rw [hp] at c1
            unfold aheadTurn at c2; rw [hw] at c2
            cases c1; cases c2
            exact c4
        · intro hx
          exact absurd hx hcp
        · intro hx
          exact absurd hx hcp
    · have g1 : observeOf S M fuel (⟨o, (p', hh), false⟩ : World (Core C Sv A × H) K) (asked x) = (⟨s1, (p', hh), false⟩, some v, nn) := by
        unfold observeOf; dsimp only [asked]; rw [h1]
      have g2 : observeOf S M fuel (⟨o, (w', hh), false⟩ : World (Summit C Sv A × H) K) (asked y) = (⟨s1, (w', hh), false⟩, some v', nn) := by
        unfold observeOf; dsimp only [asked]; rw [h2]
      rw [o1, o2, g1, g2]
      dsimp only
      have hturn : Quiet E eq (p'.addObs E (told v)).1 (Summit.add E w' (told v')) := by
        have t1 : outcome S M fuel o x = told v := by unfold outcome; rw [h1]
        have t2 : outcome S M fuel o y = told v' := by unfold outcome; rw [h2]
        rcases turn_alike P H' Q F hq (.made (outcome S M fuel o)) (outcome_keeps S M fuel hM o) with ⟨c1, -⟩ | ⟨p2, w2, l, l', c1, c2, -, c4⟩
        · unfold plainTurn at c1; rw [hp] at c1; cases c1
        · unfold plainTurn at c1; rw [hp] at c1
          unfold aheadTurn at c2; rw [hw] at c2
          dsimp only at c1 c2
          rw [t1] at c1
          rw [t2] at c2
          cases c1; cases c2
          exact c4
      unfold Sim.completedPass
      dsimp only
      obtain ⟨s2, h2', a1, a2⟩ := addOverhead_alike S M fuel conds mount X F hX cfg s1 p' w' hh h3
      rw [a1, a2]
      have hb := store_alike cfg h.buf s.counter h3
      rw [← h.counter]
      rcases hb with ⟨b1, b2⟩ | ⟨x', y', b1, b2, b3⟩
      · rw [b1, b2]
        exact .indexError ⟨⟨h.buf, rfl, h.skipA, h.skipB⟩, rfl, rfl⟩
      · rw [b1, b2]
        refine endOfPass_ahead S M fuel conds mount X F hK cfg nn ⟨⟨b3, rfl, h.skipA, h.skipB⟩, ⟨rfl, ?_, rfl, rfl, hturn, ?_, ?_⟩, h.mjd, h.last, h.flushed⟩
        · exact hX.bandAdd _ _ _ h3
        · intro hx
          exact absurd hx hcp
        · intro hx
          exact absurd hx hcp
  · have r1 : (Sim.Env.request simP (⟨o, (p, hh), false⟩ : World (Core C Sv A × H) K) (Sim.Env.clock simP (⟨o, (p, hh), false⟩ : World (Core C Sv A × H) K))).2 = none := by
      show (requestOf (coreSched (B := B) E X) (⟨o, (p, hh), false⟩ : World (Core C Sv A × H) K) o.mjd).2 = none
      unfold requestOf coreSched
      dsimp only
      unfold coreRequest
      have hp' : ∀ s l ev, p.request E (some o.mjd) false ≠ .ok (s, some l, ev) := hp
      cases hx : p.request E (some o.mjd) false with
      | error e => rfl
      | ok z =>
        obtain ⟨z1, z2, z3⟩ := z
        cases z2 with
        | none => rfl
        | some l => exact absurd hx (hp' _ _ _)
    have r2 : Sim.Env.request simA (⟨o, (w, hh), false⟩ : World (Summit C Sv A × H) K) (Sim.Env.clock simA (⟨o, (w, hh), false⟩ : World (Summit C Sv A × H) K))
        = (⟨o, (w, hh), true⟩, none) := by
      show requestOf (Summit.sched (B := B) E F X) (⟨o, (w, hh), false⟩ : World (Summit C Sv A × H) K) o.mjd = _
      have hw' : Summit.request E F w (some o.mjd) = none := hw
      unfold requestOf Summit.sched
      dsimp only
      rw [hw']
      rfl
    rw [r1, r2]
    dsimp only
    refine .apart ⟨.inr ?_, ?_⟩
    · unfold Sim.skipPass
      dsimp only
      split_ifs <;> exact Nat.succ_pos _
    · unfold Sim.skipPass
      dsimp only
      split_ifs <;> rfl

end

/-! ### After an exception -/

section
variable {U O : Type} (S : Obs.Site) (M : Obs.Kin K O) (fuel : ℕ) (conds : Obs.St K → C) (mount : K → B → K) (D : Sched U O C B)

theorem refresh_raised (cfg : Sim.Cfg) {w : World U K} (h : w.raised = true) : (Sim.refresh (env S M fuel conds mount D) cfg w).raised = true :=
  Sim.refresh_keeps (P := fun w : World U K => w.raised = true) (fun _ h => h) (fun _ _ h => h) (fun _ _ h => h) w h

theorem endOfPass_raised (cfg : Sim.Cfg) (nn : Bool) {s : Sim.St (World U K) (Obs.Visit O)} (h : s.w.raised = true) :
    (Sim.endOfPass (env S M fuel conds mount D) cfg nn s).st.w.raised = true := by
  rw [Sim.endOfPass_st]
  dsimp only
  split_ifs
  · exact h
  · exact h

/-- What has been raised stays so, and the number of skips does not fall. -/
theorem pass_after (cfg : Sim.Cfg) (s : Sim.St (World U K) (Obs.Visit O)) :
    (s.w.raised = true → (Sim.pass (env S M fuel conds mount D) cfg s).st.w.raised = true) ∧ s.nskip ≤ (Sim.pass (env S M fuel conds mount D) cfg s).st.nskip := by
  have hreq : ∀ (w : World U K) x, w.raised = true → (requestOf D w x).1.raised = true := by
    intro w x h
    unfold requestOf
    cases D.request w.sched x with
    | none => rfl
    | some r => exact h
  have hobs : ∀ (w : World U K) v, w.raised = true → (observeOf S M fuel w v).1.raised = true := by
    intro w v h
    unfold observeOf
    cases Obs.observe S M fuel w.obs v.target with
    | error e => rfl
    | ok r => exact h
  have hover : ∀ (w : World U K) (v : Obs.Visit O), w.raised = true → (Sim.addOverhead (env S M fuel conds mount D) cfg w v).raised = true := by
    intro w v h
    unfold Sim.addOverhead
    split_ifs <;> exact h
  have hs := refresh_raised S M fuel conds mount D cfg (w := s.w)
  unfold Sim.pass
  dsimp only
  generalize Sim.refresh (env S M fuel conds mount D) cfg s.w = a at hs
  have hq := hreq a ((env S M fuel conds mount D).clock a)
  change a.raised = true → ((env S M fuel conds mount D).request a ((env S M fuel conds mount D).clock a)).1.raised = true at hq
  generalize (env S M fuel conds mount D).request a ((env S M fuel conds mount D).clock a) = b at hq
  obtain ⟨b, _ | v⟩ := b
  · dsimp only
    unfold Sim.skipPass
    dsimp only
    split_ifs <;> exact ⟨fun h => hq (hs h), Nat.le_succ _⟩
  · have ho := hobs b v
    change b.raised = true → ((env S M fuel conds mount D).observe b v).1.raised = true at ho
    dsimp only
    generalize (env S M fuel conds mount D).observe b v = c at ho
    obtain ⟨c, _ | v', nn⟩ := c
    · dsimp only
      unfold Sim.rejectedPass
      split_ifs
      · exact ⟨fun h => ho (hq (hs h)), le_rfl⟩
      · refine ⟨fun h => endOfPass_raised S M fuel conds mount D cfg nn (ho (hq (hs h))), ?_⟩
        rw [Sim.endOfPass_st]
    · dsimp only
      unfold Sim.completedPass
      dsimp only
      cases Sim.store cfg s.buf s.counter v' with
      | none => exact ⟨fun h => hover c v' (ho (hq (hs h))), le_rfl⟩
      | some buf =>
        refine ⟨fun h => endOfPass_raised S M fuel conds mount D cfg nn (hover c v' (ho (hq (hs h)))), ?_⟩
        rw [Sim.endOfPass_st]

theorem loop_after (cfg : Sim.Cfg) (n : ℕ) (P : Sim.St (World U K) (Obs.Visit O) → Prop)
    (hP : ∀ s, P s → P (Sim.pass (env S M fuel conds mount D) cfg s).st) (s : Sim.St (World U K) (Obs.Visit O)) (h : P s) :
    P (Sim.loop (env S M fuel conds mount D) cfg n s).st := by
  refine Sim.loop_inv (P := P) (Q := fun o => P o.st) ?_ ?_ ?_ ?_ (fun _ h _ => h) (fun _ h _ => h) n s h
  all_goals
    intro s s' h _ hp
    have := hP s h
    rw [hp] at this
    exact this

end

section
variable (S : Obs.Site) (M : Obs.Kin K Obs) (fuel : ℕ) (conds : Obs.St K → C) (mount : K → B → K) (X : Rest H C B) (F : FillIn C)

local notation "simP" => env S M fuel conds mount (coreSched E X)
local notation "simA" => env S M fuel conds mount (Summit.sched E F X)

theorem loop_parted (cfg : Sim.Cfg) (n m : ℕ) {s : Sim.St (World (Core C Sv A × H) K) (Obs.Visit Obs)} {t : Sim.St (World (Summit C Sv A × H) K) (Obs.Visit Obs)}
    (h : Parted s t) : Parted (Sim.loop simP cfg n s).st (Sim.loop simA cfg m t).st := by
  constructor
  · refine loop_after S M fuel conds mount _ cfg n (fun s => s.w.raised = true ∨ 0 < s.nskip) ?_ s h.1
    intro s hs
    have hp := pass_after S M fuel conds mount (coreSched E X) cfg s
    exact hs.imp hp.1 fun h => lt_of_lt_of_le h hp.2
  · exact loop_after S M fuel conds mount _ cfg m (fun s => s.w.raised = true) (fun s hs => (pass_after S M fuel conds mount _ cfg s).1 hs) t h.2

theorem loop_ahead (hK : Parks M mount) (P : Plain E) (H' : Forgetful E.sv eq) (Q : ForgetfulQ E.q) (htime : ∀ t, ∃ c, E.q.mjdOf c = t) (hM : IdBlind M) (hX : RestBlind X) (cfg : Sim.Cfg)
    (n : ℕ) : ∀ {s : Sim.St (World (Core C Sv A × H) K) (Obs.Visit Obs)} {t : Sim.St (World (Summit C Sv A × H) K) (Obs.Visit Obs)}, LoopsAlike S M E eq s t →
    EndsAlike (Sim.loop simP cfg n s).st (Sim.loop simA cfg n t).st ∨ Parted (Sim.loop simP cfg n s).st (Sim.loop simA cfg n t).st := by
  induction n with
  | zero =>
    intro s t h
    unfold Sim.loop
    left
    split_ifs <;> exact h.ends
  | succ n ih =>
    intro s t h
    unfold Sim.loop
    rw [← h.mjd, ← h.last]
    by_cases hm : s.mjd < s.endMjd
    · rw [if_pos hm, if_pos hm]
      have hp := pass_ahead S M fuel conds mount X F hK P H' Q htime hM hX cfg h
      generalize Sim.pass simP cfg s = a at hp
      generalize Sim.pass simA cfg t = b at hp
      cases hp with
      | again h => exact ih h
      | brk h => exact .inl h
      | gaveUp h => exact .inl h
      | indexError h => exact .inl h
      | apart h =>
        right
        obtain ⟨ha, hb⟩ := h
        refine ⟨?_, ?_⟩
        · cases a with
          | again s' => exact (loop_parted S M fuel conds mount X F cfg n n (t := b.st) ⟨ha, hb⟩).1
          | brk s' => exact ha
          | gaveUp s' => exact ha
          | indexError s' => exact ha
        · cases b with
          | again s' => exact (loop_parted S M fuel conds mount X F cfg n n (s := a.st) ⟨ha, hb⟩).2
          | brk s' => exact hb
          | gaveUp s' => exact hb
          | indexError s' => exact hb
    · rw [if_neg hm, if_neg hm]
      exact .inl h.ends

end

/-- C225: a simulation with the look-ahead wrapper around a new scheduler returns the visits that a simulation with the scheduler itself returns, the target ids aside.
The wrapper raises, and ends the simulation, exactly if the simulation with the scheduler itself raises or is ever without a visit to make.

Asked of the parts, as in C214: surveys and detailers remember nothing but the visits they are told of, detailers give one visit for one, the queue has no masks and
its visits do not expire (see `C225_expiry_violated`); and nothing in the observatory depends on target ids, and a parked telescope stays as it is when it is parked again. -/
theorem C225_ahead_partial (S : Obs.Site) (M : Obs.Kin K Obs) (hM : IdBlind M) (fuel : ℕ) (conds : Obs.St K → C) (mount : K → B → K) (hK : Parks M mount) (X : Rest H C B) (hX : RestBlind X)
    (E : Env C Sv A) (eq : Sv → Sv → Prop) (P : Plain E) (H' : Forgetful E.sv eq) (Q : ForgetfulQ E.q) (F : FillIn C) (htime : ∀ st, E.q.mjdOf (conds st) = st.mjd)
    (a : A) (tiers : List (List Sv)) (counter : Int) (flag : Bool) (filters : List (String × String)) (st : Obs.St K) (h : H) (cfg : Sim.Cfg) (n : ℕ) :
    let plain := (Sim.run (V := Obs.Visit Obs) (env S M fuel conds mount (coreSched E X)) cfg n ⟨st, (Core.init a tiers counter flag filters, h), false⟩).st
    let ahead := (Sim.run (V := Obs.Visit Obs) (env S M fuel conds mount (Summit.sched E F X)) cfg n ⟨st, (Summit.init (Core.init a tiers counter flag filters), h), false⟩).st
    (ahead.w.raised = true ↔ plain.w.raised = true ∨ 0 < plain.nskip)
    ∧ (ahead.w.raised = false → ahead.result.map (Option.map visitNoId) = plain.result.map (Option.map visitNoId)) := by
  intro plain ahead
  have htime' : ∀ t, ∃ c, E.q.mjdOf c = t := fun t => ⟨conds { st with mjd := t }, htime _⟩
  have hq : Quiet E eq (Core.init a tiers counter flag filters) (Summit.init (Core.init a tiers counter flag filters)) := by
    refine ⟨⟨rfl, rfl, rfl, ?_, ?_, List.nodup_nil, List.nodup_nil, rfl, tiersAs_refl H' _, rfl, rfl, rfl, rfl⟩, rfl, rfl, rfl,
      fun _ => rfl, ?_, rfl, rfl, rfl, rfl⟩
    · intro o ho; cases ho
    · intro o ho; cases ho
    · intro c hc; cases hc
  have key : EndsAlike plain ahead ∨ Parted plain ahead := by
    refine loop_ahead S M fuel conds mount X F hK P H' Q htime' hM hX cfg n ⟨⟨rfl, rfl, rfl, rfl⟩, ?_, ?_, ?_, rfl⟩
    · unfold Sim.start
      cases cfg.simStart with
      | none => exact mountNow_first S M fuel conds mount X F hK rfl rfl rfl rfl hq fun _ => rfl
      | some m => exact mountNow_first S M fuel conds mount X F hK rfl rfl rfl rfl hq fun _ => rfl
    · unfold Sim.start
      cases cfg.simStart <;> rfl
    · unfold Sim.start
      cases cfg.simStart <;> rfl
  rcases key with k | k
  · refine ⟨⟨fun hx => ?_, fun hx => ?_⟩, fun _ => ?_⟩
    · rw [k.fineB] at hx; cases hx
    · rw [k.fineA, k.skipA] at hx
      rcases hx with hx | hx
      · cases hx
      · exact absurd hx (Nat.lt_irrefl _)
    · unfold Sim.St.result
      rw [List.map_take, List.map_take, k.buf, k.counter]
  · refine ⟨⟨fun _ => k.1, fun _ => k.2⟩, fun hx => ?_⟩
    rw [k.2] at hx
    cases hx

/-! ### Small simulations -/

/-- No band scheduler; five seconds lost after every visit. -/
def aheadRest : Rest Unit ℚ Unit := ⟨fun _ _ => (), fun _ _ => ((), ()), fun _ _ => ((), 5)⟩

/-- The survey of `turnE`, with something to offer only until the time `until_`; with `short`, what it offers at the beginning is good for a
hundredth of a day only, and what it offers later for a day. -/
def untilE (short : Bool) (until_ : ℚ) : Env ℚ (ℕ × ℕ) Unit :=
  { turnE false 0 with
    sv := { (turnE false 0).sv with
      reward := fun s c => ([if c < until_ then .fin 1 else .ninf], s)
      gen := fun s c => (((turnE false 0).sv.gen s c).1.map fun o => { o with flushBy := if short then (if c < 1 / 50 then 1 / 100 else 1) else 0 }, (s.1 + 1, s.2)) } }

def aheadCfg : Sim.Cfg := { duration := 1 / 8, startSize := 2, appendSize := 2 }

/-- As `wholeKin`, with right ascension 1 the only one out of reach. -/
def untilKin : Obs.Kin ℚ Obs := { wholeKin with observe := fun _ o t => (t, if o.ra = 1 then none else some 60, 2000) }

/-- Right ascensions, target ids and times of the visits of a simulation, whether it raised and how often there was nothing to do. -/
def outline {U : Type} (s : Sim.St (World U ℚ) (Obs.Visit Obs)) : List (Option (ℚ × Int × ℚ)) × Bool × ℕ :=
  (s.result.map fun r => r.map fun v => (v.target.ra, v.target.targetId, slewStart v), s.w.raised, s.nskip)

/-- The simulation with the scheduler itself. -/
def plainSim (short : Bool) (until_ : ℚ) (n : ℕ) : Sim.St (World (Core ℚ (ℕ × ℕ) Unit × Unit) ℚ) (Obs.Visit Obs) :=
  (Sim.run (env toySite untilKin 20 (fun s => s.mjd) (fun k _ => k) (coreSched (untilE short until_) aheadRest)) aheadCfg n ⟨⟨0, 0, 40⟩, (turnS, ()), false⟩).st

/-- The simulation with the wrapper. -/
def aheadSim (short : Bool) (until_ : ℚ) (n : ℕ) : Sim.St (World (Summit ℚ (ℕ × ℕ) Unit × Unit) ℚ) (Obs.Visit Obs) :=
  (Sim.run (env toySite untilKin 20 (fun s => s.mjd) (fun k _ => k) (Summit.sched (untilE short until_) (fun _ _ => 0) aheadRest)) aheadCfg n
    ⟨⟨0, 0, 40⟩, (Summit.init turnS, ()), false⟩).st


theorem untilE_meets (until_ : ℚ) :
    Plain (untilE false until_) ∧ Forgetful (untilE false until_).sv (fun v v' => v.2 = v'.2) ∧ ForgetfulQ (untilE false until_).q ∧ IdBlind untilKin ∧ RestBlind aheadRest
      ∧ Parks untilKin (fun k (_ : Unit) => k) := by
  obtain ⟨hP, hF, hQ⟩ := turnE_meets
  refine ⟨⟨fun _ _ o => ⟨o, rfl, rfl, rfl⟩, fun _ _ => Nat.zero_le _, ?_⟩, ⟨hF.equiv, ?_, ?_, ?_, ?_, ?_, ?_⟩, ⟨fun _ _ _ => rfl, ?_, fun _ _ _ _ => rfl⟩, ⟨?_, ?_, ?_⟩, ⟨fun _ _ _ _ => rfl, fun _ _ _ _ => rfl⟩,
    ⟨fun _ => rfl, fun _ => rfl, fun _ _ => rfl, fun _ _ => rfl⟩⟩
  · intro sv c o ho c'
    obtain ⟨_, _, rfl⟩ := List.mem_map.1 ho
    exact Or.inr rfl
  · intro v v' c h; rfl
  · intro v c; rfl
  · intro v v' c h
    simp only [untilE, turnE, h]
    rfl
  · intro v c; rfl
  · intro v c; rfl
  · intro v v' o o' h _
    simp only [untilE, turnE, h]
  · intro a c o o' h
    exact congrArg (fun x => [x]) h
  · intro k t o o' h
    cases h
    rfl
  · intro k t o o' h
    exact congrArg some h
  · intro k o o' t h
    have : (noId o).ra = (noId o').ra := by rw [h]
    have : o.ra = o'.ra := this
    simp only [untilKin, this]

/-- Non-vacuity of C225: one visit cannot be made and the queue is emptied; the ids differ. -/
example : outline (plainSim false 10 20) = ([some (0, 0, 0), some (10, 2, 103 / 4320), some (11, 3, 103 / 2160), some (30, 4, 103 / 1440), some (31, 5, 103 / 1080), some (50, 6, 103 / 864)], false, 0) ∧
    outline (aheadSim false 10 20) = ([some (0, 0, 0), some (10, 1, 103 / 4320), some (11, 2, 103 / 2160), some (30, 3, 103 / 1440), some (31, 4, 103 / 1080), some (50, 5, 103 / 864)], false, 0) := by
  decide +kernel

/-- C225 fails when there is nothing to observe: the simulation with the scheduler itself steps into the future, the one with the wrapper raises. -/
theorem C225_idle_violated : ∃ until_,
    ((outline (plainSim false until_ 20)).2.1 = false ∧ 0 < (plainSim false until_ 20).nskip) ∧ (outline (aheadSim false until_ 20)).2.1 = true :=
  ⟨1 / 20, by decide +kernel⟩

/-- C225 fails for visits that expire: the rest of a new block, asked for when the old block has expired, is forgotten by the wrapper. -/
theorem C225_expiry_violated :
    (aheadSim true 10 20).w.raised = false ∧ (plainSim true 10 20).w.raised = false ∧
    (outline (aheadSim true 10 20)).1.map (Option.map Prod.fst) ≠ (outline (plainSim true 10 20)).1.map (Option.map Prod.fst) := by
  decide +kernel

end Verif
