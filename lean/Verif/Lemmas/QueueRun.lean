import Verif.Props.WholeOrder

/-!
Invariants of the scheduler and of the visits it was told of, through a whole simulation.
-/

namespace Verif

open Whole Core

section
variable {C B Sv A H K : Type}

/-- `I` holds of the scheduler and the visits it was told of, `N` of a visit on its way. -/
structure QueueKeeps (E : Env C Sv A) (M : Obs.Kin K Obs) (I : Core C Sv A → List Obs → Prop) (N : Core C Sv A → List Obs → Obs → Prop) : Prop where
  update : ∀ s done c, I s done → I (s.update E c) done
  flush : ∀ s done, I s done → I s.flush done
  request : ∀ s s' done x r, I s done → coreRequest E s x = some (s', r) → I s' done ∧ ∀ o ∈ r, N s' done o
  prepare : ∀ s done k t o o', N s done o → M.prepare k t o = some o' → N s done o'
  add : ∀ s done (v : Obs.Visit Obs), I s done → N s done v.target → I (s.addObs E (told v)).1 (done ++ [v.target])

variable {E : Env C Sv A} {M : Obs.Kin K Obs} {I : Core C Sv A → List Obs → Prop} {N : Core C Sv A → List Obs → Obs → Prop}

def QueueSim (I : Core C Sv A → List Obs → Prop) (p : World (Core C Sv A × H) K × List (Sim.Ev (Obs.Visit Obs) C B)) : Prop :=
  I p.1.sched.1 ((Sim.toldOf p.2).map Obs.Visit.target)

def QueueNext (N : Core C Sv A → List Obs → Obs → Prop) (v : Obs.Visit Obs) (p : World (Core C Sv A × H) K × List (Sim.Ev (Obs.Visit Obs) C B)) : Prop :=
  N p.1.sched.1 ((Sim.toldOf p.2).map Obs.Visit.target) v.target

theorem queue_keeps (S : Obs.Site) (hn : Obs.Nights S.nights) (hd : Down.Ordered S.downs) (hM : Obs.NonNeg M) (fuel : ℕ)
    (conds : Obs.St K → C) (mount : K → B → K) (hI : QueueKeeps E M I N) (X : Rest H C B) (cfg : Sim.Cfg) :
    Sim.Keeps (env S M fuel conds mount (coreSched E X)).recorded cfg (QueueSim I) (QueueSim I)
      (fun v p => QueueSim I p ∧ QueueNext N v p) (fun v p => QueueSim I p ∧ QueueNext N v p) := by
  have hsame : ∀ (w q : World (Core C Sv A × H) K × List (Sim.Ev (Obs.Visit Obs) C B)) e, QueueSim I w → q.2 = w.2 ++ [e] → Sim.toldOf [e] = [] →
      q.1.sched.1 = w.1.sched.1 → QueueSim I q := by
    intro w q e h h1 h2 h3
    unfold QueueSim at *
    rw [h3, h1, told_one _ _ h2]
    exact h
  have hnext : ∀ (v v' : Obs.Visit Obs) (w q : World (Core C Sv A × H) K × List (Sim.Ev (Obs.Visit Obs) C B)) e,
      N w.1.sched.1 ((Sim.toldOf w.2).map Obs.Visit.target) v'.target → q.2 = w.2 ++ [e] → Sim.toldOf [e] = [] →
      q.1.sched.1 = w.1.sched.1 → QueueNext N v' q := by
    intro v v' w q e h h1 h2 h3
    unfold QueueNext
    rw [h3, h1, told_one _ _ h2]
    exact h
  have hconds : ∀ w, QueueSim I w → QueueSim I ((env S M fuel conds mount (coreSched E X)).recorded.conds w).1 := fun w h =>
    hsame w _ _ h rfl rfl rfl
  have hcheck : ∀ w x, QueueSim I w → QueueSim I ((env S M fuel conds mount (coreSched E X)).recorded.check w x).1 := fun w x h =>
    hsame w _ _ h rfl rfl rfl
  have hupdate : ∀ w c, QueueSim I w → QueueSim I ((env S M fuel conds mount (coreSched E X)).recorded.update w c) := by
    intro w c h
    show I (w.1.sched.1.update E c) ((Sim.toldOf (w.2 ++ [_])).map _)
    rw [told_one _ _ rfl]
    exact hI.update _ _ c h
  have hreq : ∀ (w : World (Core C Sv A × H) K × List (Sim.Ev (Obs.Visit Obs) C B)) x, QueueSim I w →
      QueueSim I ((env S M fuel conds mount (coreSched E X)).recorded.request w x).1
      ∧ ∀ v ∈ ((env S M fuel conds mount (coreSched E X)).recorded.request w x).2, QueueNext N v ((env S M fuel conds mount (coreSched E X)).recorded.request w x).1 := by
    intro w x h
    show QueueSim I ((requestOf (coreSched E X) w.1 x).1, w.2 ++ [.request w.1.obs.mjd x (requestOf (coreSched E X) w.1 x).2])
      ∧ ∀ v ∈ (requestOf (coreSched E X) w.1 x).2, QueueNext N v ((requestOf (coreSched E X) w.1 x).1, w.2 ++ [.request w.1.obs.mjd x (requestOf (coreSched E X) w.1 x).2])
    have hr : (coreSched E X).request w.1.sched x = (coreRequest E w.1.sched.1 x).map fun r => ((r.1, w.1.sched.2), r.2) := rfl
    unfold requestOf
    rw [hr]
    cases hc : coreRequest E w.1.sched.1 x with
    | none => exact ⟨hsame w _ _ h rfl rfl rfl, by rintro v ⟨⟩⟩
    | some z =>
      obtain ⟨s', r⟩ := z
      obtain ⟨ha, ho⟩ := hI.request _ _ _ _ _ h hc
      refine ⟨?_, ?_⟩
      · show I s' ((Sim.toldOf (w.2 ++ [_])).map _)
        rw [told_one _ _ rfl]
        exact ha
      · intro v hv
        have hv : v ∈ r.map asked := hv
        obtain ⟨o, hor, rfl⟩ := Option.mem_map.1 hv
        unfold QueueNext
        dsimp only
        rw [told_one _ _ rfl]
        exact ho o hor
  have hobs : ∀ (w : World (Core C Sv A × H) K × List (Sim.Ev (Obs.Visit Obs) C B)) v, QueueSim I w → QueueNext N v w →
      QueueSim I ((env S M fuel conds mount (coreSched E X)).recorded.observe w v).1
      ∧ ∀ v' ∈ ((env S M fuel conds mount (coreSched E X)).recorded.observe w v).2.1, QueueNext N v' ((env S M fuel conds mount (coreSched E X)).recorded.observe w v).1 := by
    intro w v h hv
    show QueueSim I ((observeOf S M fuel w.1 v).1, w.2 ++ [.observe w.1.obs.mjd v (observeOf S M fuel w.1 v).1.obs.mjd
      (observeOf S M fuel w.1 v).2.1 (observeOf S M fuel w.1 v).2.2]) ∧ ∀ v' ∈ (observeOf S M fuel w.1 v).2.1, QueueNext N v' ((observeOf S M fuel w.1 v).1, w.2 ++ [.observe
      w.1.obs.mjd v (observeOf S M fuel w.1 v).1.obs.mjd (observeOf S M fuel w.1 v).2.1 (observeOf S M fuel w.1 v).2.2])
    unfold observeOf
    cases hob : Obs.observe S M fuel w.1.obs v.target with
    | error e => exact ⟨hsame w _ _ h rfl rfl rfl, by rintro v ⟨⟩⟩
    | ok r =>
      obtain ⟨s', r, nn⟩ := r
      refine ⟨hsame w _ _ h rfl rfl rfl, ?_⟩
      intro v' hv'
      have hv' : r = some v' := hv'
      subst hv'
      obtain ⟨-, -, -, -, -, -, -, -, k, hk⟩ := observe_some hn hd hM hob
      exact hnext v v' w _ _ (hI.prepare _ _ _ _ _ _ hv hk) rfl rfl rfl
  refine ⟨hconds, hcheck, hupdate, fun w x h _ => hsame w _ _ h rfl rfl rfl, fun w v h => hsame w _ _ h rfl rfl rfl, ?_,
    fun w c h => hsame w _ _ h rfl rfl rfl, fun w b h => hsame w _ _ h rfl rfl rfl, fun w h => Sim.refresh_keeps hconds hcheck hupdate w h,
    ?_, ?_, ?_, ?_, ?_, ?_, ?_⟩
  · intro w h
    show I w.1.sched.1.flush ((Sim.toldOf (w.2 ++ [_])).map _)
    rw [told_one _ _ rfl]
    exact hI.flush _ _ h
  · intro w u h hr
    have := (hreq w ((env S M fuel conds mount (coreSched E X)).recorded.clock w) h).1
    rw [hr] at this
    exact this
  · intro w u v h hr
    have hq := hreq w ((env S M fuel conds mount (coreSched E X)).recorded.clock w) h
    rw [hr] at hq
    exact ⟨hq.1, hq.2 v rfl⟩
  · intro w v x nn h ho
    have := (hobs w v h.1 h.2).1
    rw [ho] at this
    exact this
  · intro w v x v' nn h ho
    have := hobs w v h.1 h.2
    rw [ho] at this
    exact ⟨this.1, this.2 v' rfl⟩
  · intro w v h
    exact ⟨hsame w _ _ h.1 rfl rfl rfl, hnext v v w _ _ h.2 rfl rfl rfl⟩
  · intro w v x h _
    exact ⟨hsame w _ _ h.1 rfl rfl rfl, hnext v v w _ _ h.2 rfl rfl rfl⟩
  · intro w v h
    have ht : Sim.toldOf ((env S M fuel conds mount (coreSched E X)).recorded.add w v).2 = Sim.toldOf w.2 ++ [v] := by
      show Sim.toldOf (w.2 ++ [.add w.1.obs.mjd v]) = _
      rw [Sim.toldOf_append]
      rfl
    unfold QueueSim
    rw [ht, List.map_append]
    exact hI.add _ _ v h.1 h.2

/-- At the end of a simulation the invariant holds of the scheduler and the visits returned. -/
theorem run_queue (S : Obs.Site) (hn : Obs.Nights S.nights) (hd : Down.Ordered S.downs) (hM : Obs.NonNeg M) (fuel : ℕ)
    (conds : Obs.St K → C) (mount : K → B → K) (hI : QueueKeeps E M I N) (X : Rest H C B) (hX : ∀ h v, 0 ≤ (X.overhead h v).2)
    (cfg : Sim.Cfg) (hstep : 0 ≤ cfg.stepNone) (h1 : 0 < cfg.startSize) (h2 : 0 < cfg.appendSize) (n : ℕ)
    (w : World (Core C Sv A × H) K) (h0 : I w.sched.1 []) :
    ∃ (s : Core C Sv A) (vs : List (Obs.Visit Obs)), (Sim.run (V := Obs.Visit Obs) (env S M fuel conds mount (coreSched E X)) cfg n w).st.result = vs.map some
      ∧ I s (vs.map Obs.Visit.target) := by
  have Kc := whole_contract S hn hd M hM fuel conds mount (coreSched E X) (fun u v => hX _ _)
  obtain ⟨hres, -, ht⟩ := recorded_result (env S M fuel conds mount (coreSched E X)) cfg h1 h2 n w
  have key : QueueSim I (Sim.run (V := Obs.Visit Obs) (env S M fuel conds mount (coreSched E X)).recorded cfg n (w, [])).st.w :=
    Sim.run_keeps (Sim.recorded_contract Kc) hstep (queue_keeps S hn hd hM fuel conds mount hI X cfg) n (w, []) (fun _ => h0) (fun _ _ => h0)
  unfold QueueSim at key
  rw [ht] at key
  exact ⟨_, _, hres, key⟩

end

end Verif
