import Verif.Lemmas.CoreTrim
import Verif.Model.ScriptedSim
import Verif.Props.Whole

/-!
Properties C251 and C252: what does not change a simulation: surveys that are never feasible, and the size of rewards beside their order.
-/

namespace Verif

open Whole Core XReal

section
variable {C Sv T A H K B : Type}

/-- The scheduler without the surveys of the second kind and without the tiers that had no other. -/
def withoutIdle (w : World (Core C (Sv ⊕ T) A × H) K) : World (Core C Sv A × H) K :=
  { obs := w.obs, raised := w.raised
    sched := ({ qm := w.sched.1.qm, tiers := (w.sched.1.tiers.map (List.filterMap Sum.getLeft?)).filter fun t => !t.isEmpty, counter := w.sched.1.counter,
                surveyIndex := (none, none), conditions := w.sched.1.conditions, scheduled := w.sched.1.scheduled, flushForNewToo := w.sched.1.flushForNewToo,
                tooIds := w.sched.1.tooIds, bandToFilter := w.sched.1.bandToFilter }, w.sched.2) }

theorem idle_trimmed (E : Env C Sv A) (idle : SurveyOps C T) (P : C → Prop) (I : T → Prop)
    (hidle : ∀ s c, I s → P c → ∀ r ∈ (idle.reward s c).1, ltB .ninf r = false) (hquiet : ∀ s, I s → idle.scheduled s = none)
    (hreward : ∀ s c, I s → P c → I (idle.reward s c).2) (hadd : ∀ s o, I s → I (idle.addObs s o)) (hupdate : ∀ s c, I s → P c → I (idle.update s c)) :
    Trimmed ({ q := E.q, sv := Script.mixed E.sv idle, toos := E.toos } : Env C (Sv ⊕ T) A) E Sum.getLeft? (fun _ r => r) P
      (fun s => ∀ t, s = .inr t → I t) where
  q := rfl
  toos := rfl
  grows _ := ⟨rfl, rfl, fun _ _ => rfl⟩
  reward := by rintro (s | s) c - - <;> rfl
  value := by rintro (s | s) v c - - ⟨⟩; rfl
  idle := by
    rintro (s | s) c hi hp h
    · cases h
    · rintro ⟨r, hr, hf⟩
      rw [hidle s c (hi s rfl) hp r hr] at hf
      cases hf
  gen := by rintro (s | s) v c - - ⟨⟩; rfl
  rows := by rintro (s | s) v c - - ⟨⟩; rfl
  addObs := by rintro (s | s) o - <;> rfl
  update := by rintro (s | s) c - - <;> rfl
  scheduled := by
    rintro (s | s) hi
    · rfl
    · exact hquiet s (hi s rfl)
  stayReward := by
    rintro (s | s) c hi hp t ht
    · cases ht
    · cases ht
      exact hreward s c (hi s rfl) hp
  stayGen := by
    rintro (s | s) v c - - ⟨⟩ t ht
    cases ht
  stayAdd := by
    rintro (s | s) o hi t ht
    · cases ht
    · cases ht
      exact hadd s o (hi s rfl)
  stayUpdate := by
    rintro (s | s) c hi hp t ht
    · cases ht
    · cases ht
      exact hupdate s c (hi s rfl) hp

/-- C251, surveys that are not feasible in the conditions of a simulation: when all conditions are as `P` says, surveys in a state as `I` says have no reward above minus
infinity then, announce no visits and stay in such a state, they do not change a simulation. With them and without them it ends in the same way, at the same time, with
the same visits; the observatory and all other surveys are left in the same state. There must be another survey, and no tier may be empty (`C251_empty_violated`). -/
theorem C251_meanwhile (S : Obs.Site) (M : Obs.Kin K Obs) (fuel : ℕ) (conds : Obs.St K → C) (mount : K → B → K) (X : Rest H C B) (cfg : Sim.Cfg) (n : ℕ)
    (E : Env C Sv A) (idle : SurveyOps C T) (P : C → Prop) (I : T → Prop) (hconds : ∀ o, P (conds o))
    (hidle : ∀ s c, I s → P c → ∀ r ∈ (idle.reward s c).1, ltB .ninf r = false) (hquiet : ∀ s, I s → idle.scheduled s = none)
    (hreward : ∀ s c, I s → P c → I (idle.reward s c).2) (hadd : ∀ s o, I s → I (idle.addObs s o)) (hupdate : ∀ s c, I s → P c → I (idle.update s c))
    (w : World (Core C (Sv ⊕ T) A × H) K) (hold : ∀ c, w.sched.1.conditions = some c → P c) (hI : ∀ t ∈ w.sched.1.tiers, ∀ s, Sum.inr s ∈ t → I s)
    (hfull : ∀ t ∈ w.sched.1.tiers, t ≠ []) (hsome : ∃ t ∈ w.sched.1.tiers, ∃ s, Sum.inl s ∈ t) :
    let more := Sim.run (V := Obs.Visit Obs) (env S M fuel conds mount (coreSched { q := E.q, sv := Script.mixed E.sv idle, toos := E.toos } X)) cfg n w
    let less := Sim.run (V := Obs.Visit Obs) (env S M fuel conds mount (coreSched E X)) cfg n (withoutIdle w)
    less.kind = more.kind ∧ less.st.result = more.st.result ∧ less.st.mjd = more.st.mjd ∧ less.st.w.obs = more.st.w.obs ∧ less.st.w.raised = more.st.w.raised
      ∧ less.st.w.sched.1.tiers = (more.st.w.sched.1.tiers.map (List.filterMap Sum.getLeft?)).filter fun t => !t.isEmpty := by
  dsimp only
  have hw : LeftWorld (K := K) (H := H) Sum.getLeft? P (fun s => ∀ t, s = .inr t → I t) w (withoutIdle w) := by
    refine ⟨rfl, ⟨rfl, rfl, rfl, rfl, rfl, rfl, rfl, rfl, hfull, ?_, ?_, hold⟩, rfl, rfl⟩
    · obtain ⟨t, ht, s, hs⟩ := hsome
      intro e
      have hmem : t.filterMap Sum.getLeft? ∈ (w.sched.1.tiers.map (List.filterMap Sum.getLeft?)).filter fun t => !t.isEmpty := by
        refine List.mem_filter.2 ⟨List.mem_map_of_mem ht, ?_⟩
        have : s ∈ t.filterMap Sum.getLeft? := List.mem_filterMap.2 ⟨_, hs, rfl⟩
        cases hl : t.filterMap Sum.getLeft? with
        | nil => rw [hl] at this; cases this
        | cons a l => rfl
      rw [show (w.sched.1.tiers.map (List.filterMap Sum.getLeft?)).filter (fun t => !t.isEmpty) = [] from e] at hmem
      cases hmem
    · rintro t ht v hv s rfl
      exact hI t ht s hv
  obtain ⟨h1, h2, h3, h4⟩ := Sim.run_relate (left_relate (idle_trimmed E idle P I hidle hquiet hreward hadd hupdate) S M fuel conds hconds mount X) cfg n hw
  exact ⟨h1.symm, h2.symm, h3.symm, h4.obs.symm, h4.raised.symm, h4.core.tiers⟩

/-- C251: surveys whose rewards are never above minus infinity, and that announce no visits, do not change a simulation. With them and without them it ends in the
same way, at the same time, with the same visits; the observatory and all other surveys are left in the same state. There must be another survey, and no tier may be
empty (`C251_empty_violated`). -/
theorem C251_idle (S : Obs.Site) (M : Obs.Kin K Obs) (fuel : ℕ) (conds : Obs.St K → C) (mount : K → B → K) (X : Rest H C B) (cfg : Sim.Cfg) (n : ℕ)
    (E : Env C Sv A) (idle : SurveyOps C T) (hidle : ∀ s c, ∀ r ∈ (idle.reward s c).1, ltB .ninf r = false) (hquiet : ∀ s, idle.scheduled s = none)
    (w : World (Core C (Sv ⊕ T) A × H) K) (hfull : ∀ t ∈ w.sched.1.tiers, t ≠ []) (hsome : ∃ t ∈ w.sched.1.tiers, ∃ s, Sum.inl s ∈ t) :
    let more := Sim.run (V := Obs.Visit Obs) (env S M fuel conds mount (coreSched { q := E.q, sv := Script.mixed E.sv idle, toos := E.toos } X)) cfg n w
    let less := Sim.run (V := Obs.Visit Obs) (env S M fuel conds mount (coreSched E X)) cfg n (withoutIdle w)
    less.kind = more.kind ∧ less.st.result = more.st.result ∧ less.st.mjd = more.st.mjd ∧ less.st.w.obs = more.st.w.obs ∧ less.st.w.raised = more.st.w.raised
      ∧ less.st.w.sched.1.tiers = (more.st.w.sched.1.tiers.map (List.filterMap Sum.getLeft?)).filter fun t => !t.isEmpty :=
  C251_meanwhile S M fuel conds mount X cfg n E idle (fun _ => True) (fun _ => True) (fun _ => trivial) (fun s c _ _ => hidle s c) (fun s _ => hquiet s)
    (fun _ _ _ _ => trivial) (fun _ _ _ => trivial) (fun _ _ _ _ => trivial) w (fun _ _ => trivial) (fun _ _ _ _ => trivial) hfull hsome

end

/-! ### The size of rewards -/

section
variable {C Sv A H K B : Type}

theorem Grows.nanmax {g : XReal → XReal} (h : Grows g) (l : List XReal) : nanmax (l.map g) = (nanmax l).map g := by
  cases hm : XReal.nanmax l with
  | none => rw [nanmax_none hm]; rfl
  | some m =>
    cases hm2 : XReal.nanmax (l.map g) with
    | none =>
      have := nanmax_none hm2
      rw [List.map_eq_nil_iff] at this
      rw [this] at hm
      cases hm
    | some m2 =>
      have hne : l.map g ≠ [] := by
        intro e
        rw [e] at hm2
        cases hm2
      have hnan : ∀ x, g x = .nan → x = .nan := by
        intro x hx
        by_contra hn
        by_cases h1 : x = .ninf
        · rw [h1, h.ninf] at hx; cases hx
        · have h2 : ltB .ninf x = true := by cases x <;> simp_all [ltB]
          rw [← h.order, h.ninf, hx] at h2
          cases h2
      have hmax : IsMax (l.map g) (g m) := by
        rcases nanmax_max hm with ⟨e, h0⟩ | ⟨h1, h2, h3⟩
        · left
          refine ⟨by rw [e, h.nan], ?_⟩
          intro x hx
          obtain ⟨y, hy, rfl⟩ := List.mem_map.1 hx
          rw [h0 y hy, h.nan]
        · right
          refine ⟨fun e => h1 (hnan m e), List.mem_map_of_mem h2, ?_⟩
          intro x hx
          obtain ⟨y, hy, rfl⟩ := List.mem_map.1 hx
          by_cases hyn : y = .nan
          · left; rw [hyn, h.nan]
          · exact .inr (h.le hyn h1 ((h3 y hy).resolve_left hyn))
      rw [(nanmax_max hm2).unique hmax hne]
      rfl

theorem Grows.scalar {g : XReal → XReal} (h : Grows g) (l : List XReal) : scalarReward (l.map g) = g (scalarReward l) := by
  have hnan : ∀ x, (g x).isNan = x.isNan := by
    intro x
    by_cases hx : x = .nan
    · rw [hx, h.nan]
    · by_cases h1 : x = .ninf
      · rw [h1, h.ninf]
      · have h2 : ltB .ninf x = true := by cases x <;> simp_all [ltB]
        rw [← h.order, h.ninf] at h2
        have h3 : x.isNan = false := by cases x <;> simp_all [isNan]
        rw [h3]
        cases hg : g x <;> simp_all [ltB, isNan]
  unfold scalarReward
  have hall : (l.map g).all isNan = l.all isNan := by
    rw [List.all_map]
    congr 1
    funext x
    exact hnan x
  rw [hall, h.nanmax]
  split_ifs
  · rw [h.nan]
  · cases XReal.nanmax l with
    | none => exact h.nan.symm
    | some m => rfl

/-- C252: only the order of rewards matters to a simulation. When the rewards of all surveys are changed by one rule, which may depend on the conditions and keeps the
order of rewards, nan and minus infinity, the simulation ends in the same way, at the same time, with the same visits, and leaves observatory and surveys in the same
state. -/
theorem C252_order (S : Obs.Site) (M : Obs.Kin K Obs) (fuel : ℕ) (conds : Obs.St K → C) (mount : K → B → K) (X : Rest H C B) (cfg : Sim.Cfg) (n : ℕ)
    (E : Env C Sv A) (g : C → XReal → XReal) (hnan : ∀ c, g c .nan = .nan) (hinf : ∀ c, g c .ninf = .ninf) (horder : ∀ c a b, ltB (g c a) (g c b) = ltB a b)
    (w : World (Core C Sv A × H) K) (hfull : ∀ t ∈ w.sched.1.tiers, t ≠ []) (hsome : w.sched.1.tiers ≠ []) :
    let one := Sim.run (V := Obs.Visit Obs) (env S M fuel conds mount (coreSched E X)) cfg n w
    let two := Sim.run (V := Obs.Visit Obs) (env S M fuel conds mount
      (coreSched { E with sv := { E.sv with reward := fun s c => ((E.sv.reward s c).1.map (g c), (E.sv.reward s c).2) } } X)) cfg n w
    two.kind = one.kind ∧ two.st.result = one.st.result ∧ two.st.mjd = one.st.mjd ∧ two.st.w.obs = one.st.w.obs ∧ two.st.w.raised = one.st.w.raised
      ∧ two.st.w.sched.1.tiers = one.st.w.sched.1.tiers := by
  dsimp only
  have hT : Trimmed E { E with sv := { E.sv with reward := fun s c => ((E.sv.reward s c).1.map (g c), (E.sv.reward s c).2) } } some g (fun _ => True) (fun _ => True) :=
    { q := rfl, toos := rfl, grows := fun c => ⟨hnan c, hinf c, horder c⟩, reward := fun _ _ _ _ => rfl
      value := by
        rintro s v c - - ⟨⟩
        exact Grows.scalar ⟨hnan c, hinf c, horder c⟩ _
      idle := by rintro s c - - ⟨⟩
      gen := by rintro s v c - - ⟨⟩; rfl
      rows := by rintro s v c - - ⟨⟩; rfl
      addObs := fun _ _ _ => rfl, update := fun _ _ _ _ => rfl, scheduled := fun _ _ => rfl, stayReward := fun _ _ _ _ => trivial
      stayGen := fun _ _ _ _ _ _ => trivial, stayAdd := fun _ _ _ => trivial, stayUpdate := fun _ _ _ _ => trivial }
  have hall : ∀ ts : List (List Sv), (∀ t ∈ ts, t ≠ []) → trim some ts = ts := by
    intro ts h
    unfold trim
    have : ts.map (List.filterMap some) = ts := by
      conv_rhs => rw [← List.map_id ts]
      exact List.map_congr_left fun t _ => List.filterMap_some
    rw [this, List.filter_eq_self]
    intro t ht
    simpa using h t ht
  have hw : LeftWorld (K := K) (H := H) some (fun _ => True) (fun _ => True) w w :=
    ⟨rfl, ⟨rfl, (hall _ hfull).symm, rfl, rfl, rfl, rfl, rfl, rfl, hfull, hsome, fun _ _ _ _ => trivial, fun _ _ => trivial⟩, rfl, rfl⟩
  obtain ⟨h1, h2, h3, h4⟩ := Sim.run_relate (left_relate hT S M fuel conds (fun _ => trivial) mount X) cfg n hw
  refine ⟨h1.symm, h2.symm, h3.symm, h4.obs.symm, h4.raised.symm, ?_⟩
  rw [h4.core.tiers, hall _ h4.core.full]

end

/-! ### A small simulation with surveys that are never feasible -/

/-- Surveys that are never feasible. -/
def idleOps : SurveyOps ToyC ToySv := { toyE.sv with reward := fun s _ => ([.nan, .ninf], s), scheduled := fun _ => none }

def idleStart : World (Core ToyC (ToySv ⊕ ToySv) Unit × Unit) ℚ :=
  ⟨⟨0, 0, 40⟩, (Core.init () [[.inr wholeSurvey], [.inr ⟨[], [], none⟩, .inl wholeSurvey]] 5 true [], ()), false⟩

/-- The assumptions of C251 are met. -/
example : (∀ s c, ∀ r ∈ (idleOps.reward s c).1, ltB .ninf r = false) ∧ (∀ s, idleOps.scheduled s = none) ∧ (∀ t ∈ idleStart.sched.1.tiers, t ≠ [])
    ∧ ∃ t ∈ idleStart.sched.1.tiers, ∃ s, Sum.inl s ∈ t := by
  refine ⟨?_, fun _ => rfl, ?_, [.inr ⟨[], [], none⟩, .inl wholeSurvey], by simp [idleStart, Core.init], wholeSurvey, by simp⟩
  · intro s c r hr
    simp only [idleOps, List.mem_cons, List.not_mem_nil, or_false] at hr
    rcases hr with rfl | rfl <;> rfl
  · intro t ht
    simp only [idleStart, Core.init, List.mem_cons, List.not_mem_nil, or_false] at ht
    rcases ht with rfl | rfl <;> simp

/-- Visits of a simulation, by target ids and begins of slews, and whether the scheduler raised. -/
def idleOut {S : Type} (o : Sim.Out (World S ℚ) (Obs.Visit Obs)) : List (Option (Int × ℚ)) × Bool :=
  (o.st.result.map fun r => r.map fun v => (v.target.targetId, slewStart v), o.st.w.raised)

/-- The simulation with the surveys that are never feasible, and without them and the tier that had no other. -/
example :
    idleOut (Sim.run (V := Obs.Visit Obs) (env toySite wholeKin 20 (fun s => ⟨s.mjd, none⟩) (fun k _ => k)
        (coreSched { q := toyE.q, sv := Script.mixed toyE.sv idleOps, toos := toyE.toos } wholeRest)) { duration := 1 / 20, startSize := 2, appendSize := 2 } 20 idleStart)
      = ([some (5, 0), some (6, 103 / 4320), some (7, 103 / 2160)], false)
    ∧ idleOut (Sim.run (V := Obs.Visit Obs) wholeEnv { duration := 1 / 20, startSize := 2, appendSize := 2 } 20 (withoutIdle idleStart))
      = ([some (5, 0), some (6, 103 / 4320), some (7, 103 / 2160)], false) := by
  decide +kernel

/-- C251 is violated when the survey is only taken out of its tier: a tier without surveys makes the scheduler raise, so there are no visits. -/
theorem C251_empty_violated :
    idleOut (Sim.run (V := Obs.Visit Obs) wholeEnv { duration := 1 / 20, startSize := 2, appendSize := 2 } 20
      ⟨⟨0, 0, 40⟩, (Core.init () [[], [wholeSurvey]] 5 true [], ()), false⟩) = ([], true) := by
  decide +kernel

/-! ### A small simulation with other rewards -/

/-- Rewards doubled and made larger by one. -/
def twicePlus : XReal → XReal
  | .fin a => .fin (2 * a + 1)
  | x => x

/-- The assumptions of C252 are met by doubling rewards and adding one. -/
example : twicePlus .nan = .nan ∧ twicePlus .ninf = .ninf ∧ ∀ a b, ltB (twicePlus a) (twicePlus b) = ltB a b := by
  refine ⟨rfl, rfl, ?_⟩
  intro a b
  cases a <;> cases b <;> simp [twicePlus, ltB]

/-- Two surveys of one tier with different rewards. -/
def orderStart : World (Core ToyC ToySv Unit × Unit) ℚ :=
  ⟨⟨0, 0, 40⟩, (Core.init () [[⟨[.fin (-3)], [{ targetId := 0, band := "y" }], none⟩, ⟨[.fin (-1), .nan], [{ targetId := 0, band := "g", ra := 1 }], none⟩]] 5 true [], ()), false⟩

/-- Bands of visits of a simulation. -/
def orderOut (g : XReal → XReal) : List (Option String) × Bool :=
  let o := Sim.run (V := Obs.Visit Obs) (env toySite wholeKin 20 (fun s => ⟨s.mjd, none⟩) (fun k _ => k)
    (coreSched { toyE with sv := { toyE.sv with reward := fun s c => ((toyE.sv.reward s c).1.map g, (toyE.sv.reward s c).2) } } wholeRest))
    { duration := 1 / 20, startSize := 2, appendSize := 2 } 20 orderStart
  (o.st.result.map fun r => r.map fun v => v.target.band, o.st.w.raised)

/-- The same visits with the rewards changed, and others when their order is not kept. -/
example : orderOut id = ([some "g", some "g", some "g"], false) ∧ orderOut twicePlus = orderOut id
    ∧ orderOut (fun r => match r with | .fin a => .fin (a * a) | x => x) = ([some "y", some "y", some "y"], false) := by
  decide +kernel

end Verif
