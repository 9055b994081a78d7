import Verif.Props.Whole
import Verif.Props.CoreSurveys

/-!
Property C200: what the surveys of a scheduler hear in a whole simulation.
-/

namespace Verif

open Whole

section
variable {C B Sv A H K : Type}

/-- The row of a visit that was made: what was asked for with the time at which it was made, and with a band, if it had none, that is the filter without
the digits and underlines at its end. -/
def madeRow (v : Obs.Visit Obs) : Obs :=
  { v.target with mjd := v.mjd, band := if v.target.band = "" then rstrip v.target.filter else v.target.band }

theorem backfill_told (v : Obs.Visit Obs) : backfillBand (told v) = madeRow v := by
  unfold backfillBand told madeRow
  dsimp only
  split <;> rfl

/-- The visits that the surveys, tier by tier, have heard of. -/
def heardBy {E : Env C Sv A} (R : Recorder E) (s : Core C Sv A) : List (List (List Obs)) := s.tiers.map fun t => t.map R.seen

theorem heardBy_records {E : Env C Sv A} (R : Recorder E) (s : Core C Sv A) : heardBy R s = (records R s).map fun t => t.map Prod.fst := by
  unfold heardBy records
  simp [Function.comp_def]

theorem heardBy_step {E : Env C Sv A} (R : Recorder E) {s s' : Core C Sv A} {op : Core.Op C} {out : Option (List Obs)} {ev : List Ev}
    (h : s.step E op = .ok (s', out, ev)) : heardBy R s' = (heardBy R s).map fun t => t.map fun r => r ++ toldVisits op := by
  rw [heardBy_records, heardBy_records, step_records R h]
  simp [Function.comp_def]

/-- The surveys have heard, after `base`, of the visits told. -/
def HeardTold {E : Env C Sv A} (R : Recorder E) (base : List (List (List Obs))) (p : World (Core C Sv A × H) K × List (Sim.Ev (Obs.Visit Obs) C B)) : Prop :=
  heardBy R p.1.sched.1 = base.map fun t => t.map fun r => r ++ (Sim.toldOf p.2).map madeRow

theorem HeardTold.same {E : Env C Sv A} {R : Recorder E} {base : List (List (List Obs))} {p q : World (Core C Sv A × H) K × List (Sim.Ev (Obs.Visit Obs) C B)}
    (h : HeardTold R base p) (ht : Sim.toldOf q.2 = Sim.toldOf p.2) (hs : heardBy R q.1.sched.1 = heardBy R p.1.sched.1) : HeardTold R base q := by
  unfold HeardTold
  rw [hs, ht]
  exact h

theorem heard_keeps (S : Obs.Site) (M : Obs.Kin K Obs) (fuel : ℕ) (conds : Obs.St K → C) (mount : K → B → K) (E : Env C Sv A) (R : Recorder E)
    (X : Rest H C B) (cfg : Sim.Cfg) (base : List (List (List Obs))) :
    Sim.Keeps (env S M fuel conds mount (coreSched E X)).recorded cfg (HeardTold R base) (HeardTold R base)
      (fun _ => HeardTold R base) (fun _ => HeardTold R base) := by
  have hsame : ∀ (w q : World (Core C Sv A × H) K × List (Sim.Ev (Obs.Visit Obs) C B)) e, HeardTold R base w → q.2 = w.2 ++ [e] → Sim.toldOf [e] = [] →
      q.1.sched.1 = w.1.sched.1 → HeardTold R base q := fun w q e h h1 h2 h3 => h.same (by rw [h1, told_one _ _ h2]) (by rw [h3])
  have hnil : ∀ {s s' : Core C Sv A} {op : Core.Op C} {out : Option (List Obs)} {ev : List Ev}, s.step E op = .ok (s', out, ev) →
      toldVisits op = [] → heardBy R s' = heardBy R s := by
    intro s s' op out ev h ht
    rw [heardBy_step R h, ht]
    simp
  have hconds : ∀ w, HeardTold R base w → HeardTold R base ((env S M fuel conds mount (coreSched E X)).recorded.conds w).1 := fun w h => hsame w _ _ h rfl rfl rfl
  have hcheck : ∀ w x, HeardTold R base w → HeardTold R base ((env S M fuel conds mount (coreSched E X)).recorded.check w x).1 :=
    fun w x h => hsame w _ _ h rfl rfl rfl
  have hupdate : ∀ w c, HeardTold R base w → HeardTold R base ((env S M fuel conds mount (coreSched E X)).recorded.update w c) := fun w c h =>
    h.same (told_one _ _ rfl) (hnil (op := .update c) rfl rfl)
  have hreq : ∀ (w : World (Core C Sv A × H) K × List (Sim.Ev (Obs.Visit Obs) C B)) x, HeardTold R base w →
      HeardTold R base ((env S M fuel conds mount (coreSched E X)).recorded.request w x).1 := by
    intro w x h
    show HeardTold R base ((requestOf (coreSched E X) w.1 x).1, w.2 ++ [.request w.1.obs.mjd x (requestOf (coreSched E X) w.1 x).2])
    refine h.same (told_one _ _ rfl) ?_
    have hr : (coreSched E X).request w.1.sched x = (coreRequest E w.1.sched.1 x).map fun r => ((r.1, w.1.sched.2), r.2) := rfl
    dsimp only
    unfold requestOf
    rw [hr]
    unfold coreRequest
    cases hc : w.1.sched.1.request E (some x) false with
    | error e => rfl
    | ok r =>
      obtain ⟨s', l, ev⟩ := r
      exact hnil (op := .request (some x) false) hc rfl
  have hobs : ∀ (w : World (Core C Sv A × H) K × List (Sim.Ev (Obs.Visit Obs) C B)) v, HeardTold R base w →
      HeardTold R base ((env S M fuel conds mount (coreSched E X)).recorded.observe w v).1 := by
    intro w v h
    show HeardTold R base ((observeOf S M fuel w.1 v).1, w.2 ++ [.observe w.1.obs.mjd v (observeOf S M fuel w.1 v).1.obs.mjd
      (observeOf S M fuel w.1 v).2.1 (observeOf S M fuel w.1 v).2.2])
    refine h.same (told_one _ _ rfl) ?_
    dsimp only
    unfold observeOf
    split <;> rfl
  refine ⟨hconds, hcheck, hupdate, fun w x h _ => hsame w _ _ h rfl rfl rfl, fun w v h => hsame w _ _ h rfl rfl rfl,
    fun w h => h.same (told_one _ _ rfl) (hnil (op := .flush) rfl rfl),
    fun w c h => hsame w _ _ h rfl rfl rfl, fun w b h => hsame w _ _ h rfl rfl rfl, fun w h => Sim.refresh_keeps hconds hcheck hupdate w h,
    ?_, ?_, ?_, ?_, fun w v h => hsame w _ _ h rfl rfl rfl, fun w v x h _ => hsame w _ _ h rfl rfl rfl, ?_⟩
  · intro w u h hr
    have := hreq w ((env S M fuel conds mount (coreSched E X)).recorded.clock w) h
    rw [hr] at this
    exact this
  · intro w u v h hr
    have := hreq w ((env S M fuel conds mount (coreSched E X)).recorded.clock w) h
    rw [hr] at this
    exact this
  · intro w v x nn h ho
    have := hobs w v h
    rw [ho] at this
    exact this
  · intro w v x v' nn h ho
    have := hobs w v h
    rw [ho] at this
    exact this
  · intro w v h
    have ht : Sim.toldOf ((env S M fuel conds mount (coreSched E X)).recorded.add w v).2 = Sim.toldOf w.2 ++ [v] := by
      show Sim.toldOf (w.2 ++ [.add w.1.obs.mjd v]) = _
      rw [Sim.toldOf_append]
      rfl
    have hs : w.1.sched.1.step E (.add (told v)) = .ok (((env S M fuel conds mount (coreSched E X)).recorded.add w v).1.sched.1, none, [.reported (backfillBand (told v)).targetId]) := rfl
    unfold HeardTold
    rw [heardBy_step R hs, ht, show toldVisits (.add (told v) : Core.Op C) = [madeRow v] from by rw [← backfill_told]; rfl]
    unfold HeardTold at h
    rw [h]
    simp [Function.comp_def]

/-- C200: in a simulation with the core scheduler every survey, in every tier, hears of exactly the visits that the simulation returns: each once, in their order, with the
time at which it was made; and of nothing else, whatever was refused, flushed or rejected on the way. -/
theorem C200_heard (S : Obs.Site) (hn : Obs.Nights S.nights) (hd : Down.Ordered S.downs) (M : Obs.Kin K Obs) (hM : Obs.NonNeg M) (fuel : ℕ)
    (conds : Obs.St K → C) (mount : K → B → K) (E : Env C Sv A) (R : Recorder E) (X : Rest H C B) (hX : ∀ h v, 0 ≤ (X.overhead h v).2)
    (cfg : Sim.Cfg) (hstep : 0 ≤ cfg.stepNone) (h1 : 0 < cfg.startSize) (h2 : 0 < cfg.appendSize) (n : ℕ) (w : World (Core C Sv A × H) K) :
    let s := (Sim.run (V := Obs.Visit Obs) (env S M fuel conds mount (coreSched E X)) cfg n w).st
    ∃ vs : List (Obs.Visit Obs), s.result = vs.map some ∧
      (s.w.sched.1.tiers.map fun t => t.map R.seen) = w.sched.1.tiers.map fun t => t.map fun sv => R.seen sv ++ vs.map madeRow := by
  intro s
  have Kc := whole_contract S hn hd M hM fuel conds mount (coreSched E X) (fun u v => hX _ _)
  obtain ⟨hres, hw, ht⟩ := recorded_result (env S M fuel conds mount (coreSched E X)) cfg h1 h2 n w
  have key : HeardTold R (heardBy R w.sched.1) (Sim.run (V := Obs.Visit Obs) (env S M fuel conds mount (coreSched E X)).recorded cfg n (w, [])).st.w := by
    have h0 : ∀ p : World (Core C Sv A × H) K × List (Sim.Ev (Obs.Visit Obs) C B), p.1.sched.1 = w.sched.1 → Sim.toldOf p.2 = [] →
        HeardTold R (heardBy R w.sched.1) p := by
      intro p hp hq
      unfold HeardTold
      rw [hp, hq]
      simp
    refine Sim.run_keeps (Sim.recorded_contract Kc) hstep (heard_keeps S M fuel conds mount E R X cfg _) n (w, []) ?_ ?_
    · intro _
      exact h0 _ rfl rfl
    · intro m _
      exact h0 _ rfl rfl
  refine ⟨_, hres, ?_⟩
  unfold HeardTold at key
  rw [ht, ← hw] at key
  unfold heardBy at key
  rw [List.map_map] at key
  simpa [Function.comp_def] using key

end

/-- In this simulation both surveys hear of both visits made. -/
example : ((Sim.run (V := Obs.Visit Obs) (env toySite wholeKin 20 (fun s => (⟨s.mjd, none⟩ : ToyC)) (fun k _ => k) (coreSched logEnv wholeRest))
      { duration := 1 / 25, startSize := 2, appendSize := 2 } 20
      ⟨⟨0, 0, 40⟩, (Core.init () [[([], []), ([], [])]] 5 true [], ()), false⟩).st.w.sched.1.tiers.map fun t => t.map fun sv => sv.1.map fun o => (o.targetId, o.band, o.mjd))
    = [[[(5, "r", 1 / 1440), (6, "r", 53 / 2160)], [(5, "r", 1 / 1440), (6, "r", 53 / 2160)]]] := by
  decide +kernel

/-- A scheduler with a tier that has no surveys raises at its first request, which the world shows. -/
example : wholeOut (Sim.run wholeEnv { duration := 1 / 20, startSize := 2, appendSize := 2 } 20 { wholeStart with sched := (Core.init () [[]] 5 true [], ()) })
      = ([], true) := by
  decide +kernel

end Verif
