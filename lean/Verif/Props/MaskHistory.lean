import Verif.Props.WholeFollow

/-!
Property C59: the masks and detailers of the queue manager know all visits, over histories of calls and in whole simulations.
-/

namespace Verif

open Whole Core

section
variable {C B Sv A H K F : Type}

/-- A part of what the basis functions and detailers of the queue manager keep that changes only when they hear of visits, and then in the way of `hear`. -/
structure MaskFollower (E : Env C Sv A) (F : Type) where
  look : A → F
  hear : F → Obs → F
  detail_keeps : ∀ a c l, look (E.q.detail a c l).2 = look a
  addObs_hears : ∀ a o, look (E.q.addObs a o) = hear (look a) o
  addArr_hears : ∀ a l, look (E.q.addArr a l) = l.foldl hear (look a)

/-- The visits reported by a call, arrays in the order of time. -/
def reportedBy : Op C → List Obs
  | .add o => [backfillBand o]
  | .addArr l => (l.map backfillBand).insertionSort (fun a b => a.mjd ≤ b.mjd)
  | _ => []

/-- The call does not report several visits at once to an empty queue. -/
def HeardByMasks (s : Core C Sv A) : Op C → Prop
  | .addArr l => l.length = 1 ∨ s.qm.desired ≠ []
  | _ => True

theorem fillQueue_aux {E : Env C Sv A} {s s' : Core C Sv A} {ev : List Ev} (h : s.fillQueue E = .ok (s', ev)) : s'.qm.aux = s.qm.aux := by
  unfold fillQueue at h
  split at h
  · cases h
  · split at h
    · cases h
    · simp only at h
      split at h
      · cases h
      · split at h
        · cases h; rfl
        · split at h
          · split at h
            · cases h
            · split at h
              · cases h
              · split at h
                · cases h
                · cases h; rfl
          · cases h

theorem qrequest_aux {E : Env C Sv A} (R : MaskFollower E F) (q : QM A) (c : C) (w : Bool) : R.look (q.request E.q c w).2.aux = R.look q.aux := by
  unfold QM.request
  dsimp only
  split_ifs
  · exact R.detail_keeps _ _ _
  · rfl
  · exact R.detail_keeps _ _ _
  · rfl
  · exact R.detail_keeps _ _ _
  · rfl

theorem request_aux {E : Env C Sv A} (R : MaskFollower E F) {s s' : Core C Sv A} {m : Option ℚ} {w : Bool} {out : Option (List Obs)} {ev : List Ev}
    (h : s.step E (.request m w) = .ok (s', out, ev)) : R.look s'.qm.aux = R.look s.qm.aux := by
  obtain ⟨c, s1, ev1, _, hfirst, hrest⟩ := request_cases (m := m) h
  have h1 : s1.qm.aux = s.qm.aux := by
    rcases hfirst with ⟨_, hf⟩ | ⟨_, rfl, _⟩
    · exact fillQueue_aux hf
    · rfl
  rcases hrest with ⟨_, rfl, _, _⟩ | ⟨_, _, rfl, _, _⟩ | ⟨_, _, s3, ev2, hf, rfl, _, _⟩
  · rw [h1]
  · rw [← h1]; exact qrequest_aux R _ _ _
  · have h3 := fillQueue_aux hf
    have h2 : R.look s3.qm.aux = R.look s1.qm.aux := by
      rw [h3]; exact qrequest_aux R s1.qm c w
    rw [← h1, ← h2]; exact qrequest_aux R _ _ _

theorem update_aux {E : Env C Sv A} (s : Core C Sv A) (c : C) : (s.update E c).qm.aux = s.qm.aux := by
  show (s.tooStep E c).qm.aux = _
  unfold tooStep
  split
  · split
    · rfl
    · dsimp only; split <;> rfl
  · rfl

theorem addObs_aux {E : Env C Sv A} (R : MaskFollower E F) (s : Core C Sv A) (o : Obs) : R.look (s.addObs E o).1.qm.aux = R.hear (R.look s.qm.aux) (backfillBand o) := by
  show R.look (s.qm.addObs E.q (backfillBand o)).aux = _
  unfold QM.addObs
  dsimp only
  rw [R.addObs_hears]
  split_ifs <;> rfl

theorem step_aux {E : Env C Sv A} (R : MaskFollower E F) {s s' : Core C Sv A} {op : Op C} {out : Option (List Obs)} {ev : List Ev} (hop : HeardByMasks s op)
    (h : s.step E op = .ok (s', out, ev)) : R.look s'.qm.aux = (reportedBy op).foldl R.hear (R.look s.qm.aux) := by
  cases op with
  | request m w => exact request_aux R h
  | add o => cases h; exact addObs_aux R s o
  | addArr l =>
    unfold Core.step at h
    dsimp only at h
    split at h
    · cases h
    · rename_i s1 ev1 ha
      cases h
      match l, ha with
      | [o], ha => cases ha; exact addObs_aux R s o
      | [], ha => simp [Core.addArr] at ha
      | o1 :: o2 :: l, ha =>
        unfold Core.addArr at ha
        dsimp only at ha
        unfold reportedBy
        split at ha
        · cases ha
        · cases ha
          rename_i o os hl
          dsimp only
          have hl : (((o1 :: o2 :: l).map backfillBand).insertionSort fun a b => a.mjd ≤ b.mjd) = o :: os := hl
          rw [hl]
          rcases hop with hop | hop
          · simp at hop
          · unfold QM.addArr
            rw [if_pos (List.length_pos_iff.mpr hop)]
            exact R.addArr_hears _ _
  | flush => cases h; rfl
  | append l => cases h; rfl
  | mark o => cases h; rfl
  | update c => cases h; rw [update_aux]; rfl
  | setCounter n => cases h; rfl

/-- C59, over histories: whatever is called, the masks and detailers of the queue have heard of exactly the visits reported, one after the other, arrays in the order
of time. Missing: arrays of several visits that are reported while the queue is empty. -/
theorem C59_history_partial (E : Env C Sv A) (R : MaskFollower E F) (ops : List (Op C)) (s s' : Core C Sv A) (out : List Obs) (ev : List Ev)
    (hq : ∀ pre op post s1 o1 e1, ops = pre ++ op :: post → s.run E pre = .ok (s1, o1, e1) → HeardByMasks s1 op)
    (h : s.run E ops = .ok (s', out, ev)) : R.look s'.qm.aux = (ops.flatMap reportedBy).foldl R.hear (R.look s.qm.aux) := by
  induction ops generalizing s out ev with
  | nil => cases h; rfl
  | cons op ops ih =>
    rw [Core.run] at h
    split at h
    · cases h
    · rename_i s1 o1 e1 h1
      split at h
      · cases h
      · rename_i s2 o2 e2 h2
        cases h
        have hop := hq [] op ops s [] [] rfl rfl
        rw [List.flatMap_cons, List.foldl_append, ← step_aux R hop h1]
        refine ih s1 _ _ ?_ h2
        intro pre op' post s3 o3 e3 he hr
        refine hq (op :: pre) op' post s3 (o1.getD [] ++ o3) (e1 ++ e3) (by rw [he]; rfl) ?_
        rw [Core.run, h1]
        dsimp only
        rw [hr]

/-- What the queue knows is what the visits told make of `base`. -/
def MasksTold {E : Env C Sv A} (R : MaskFollower E F) (base : F) (p : World (Core C Sv A × H) K × List (Sim.Ev (Obs.Visit Obs) C B)) : Prop :=
  R.look p.1.sched.1.qm.aux = ((Sim.toldOf p.2).map madeRow).foldl R.hear base

theorem MasksTold.same {E : Env C Sv A} {R : MaskFollower E F} {base : F} {p q : World (Core C Sv A × H) K × List (Sim.Ev (Obs.Visit Obs) C B)}
    (h : MasksTold R base p) (ht : Sim.toldOf q.2 = Sim.toldOf p.2) (hs : R.look q.1.sched.1.qm.aux = R.look p.1.sched.1.qm.aux) : MasksTold R base q := by
  unfold MasksTold
  rw [hs, ht]
  exact h

theorem masks_keeps (S : Obs.Site) (M : Obs.Kin K Obs) (fuel : ℕ) (conds : Obs.St K → C) (mount : K → B → K) (E : Env C Sv A) (R : MaskFollower E F)
    (X : Rest H C B) (cfg : Sim.Cfg) (base : F) :
    Sim.Keeps (env S M fuel conds mount (coreSched E X)).recorded cfg (MasksTold R base) (MasksTold R base)
      (fun _ => MasksTold R base) (fun _ => MasksTold R base) := by
  have hsame : ∀ (w q : World (Core C Sv A × H) K × List (Sim.Ev (Obs.Visit Obs) C B)) e, MasksTold R base w → q.2 = w.2 ++ [e] → Sim.toldOf [e] = [] →
      q.1.sched.1 = w.1.sched.1 → MasksTold R base q := fun w q e h h1 h2 h3 => h.same (by rw [h1, told_one _ _ h2]) (by rw [h3])
  have hconds : ∀ w, MasksTold R base w → MasksTold R base ((env S M fuel conds mount (coreSched E X)).recorded.conds w).1 := fun w h => hsame w _ _ h rfl rfl rfl
  have hcheck : ∀ w x, MasksTold R base w → MasksTold R base ((env S M fuel conds mount (coreSched E X)).recorded.check w x).1 :=
    fun w x h => hsame w _ _ h rfl rfl rfl
  have hupdate : ∀ w c, MasksTold R base w → MasksTold R base ((env S M fuel conds mount (coreSched E X)).recorded.update w c) := fun w c h =>
    h.same (told_one _ _ rfl) (congrArg R.look (update_aux w.1.sched.1 c))
  have hreq : ∀ (w : World (Core C Sv A × H) K × List (Sim.Ev (Obs.Visit Obs) C B)) x, MasksTold R base w →
      MasksTold R base ((env S M fuel conds mount (coreSched E X)).recorded.request w x).1 := by
    intro w x h
    show MasksTold R base ((requestOf (coreSched E X) w.1 x).1, w.2 ++ [.request w.1.obs.mjd x (requestOf (coreSched E X) w.1 x).2])
    refine h.same (told_one _ _ rfl) ?_
    have hr : (coreSched E X).request w.1.sched x = (coreRequest E w.1.sched.1 x).map fun r => ((r.1, w.1.sched.2), r.2) := rfl
    dsimp only
    unfold requestOf
    rw [hr]
    unfold coreRequest
    cases hc : w.1.sched.1.request E (some x) false with
    | error e => rfl
    | ok r =>
      obtain ⟨s', l, ev⟩ := r
      exact request_aux R (m := some x) (w := false) hc
  have hobs : ∀ (w : World (Core C Sv A × H) K × List (Sim.Ev (Obs.Visit Obs) C B)) v, MasksTold R base w →
      MasksTold R base ((env S M fuel conds mount (coreSched E X)).recorded.observe w v).1 := by
    intro w v h
    show MasksTold R base ((observeOf S M fuel w.1 v).1, w.2 ++ [.observe w.1.obs.mjd v (observeOf S M fuel w.1 v).1.obs.mjd
      (observeOf S M fuel w.1 v).2.1 (observeOf S M fuel w.1 v).2.2])
    refine h.same (told_one _ _ rfl) ?_
    dsimp only
    unfold observeOf
    split <;> rfl
  refine ⟨hconds, hcheck, hupdate, fun w x h _ => hsame w _ _ h rfl rfl rfl, fun w v h => hsame w _ _ h rfl rfl rfl,
    fun w h => h.same (told_one _ _ rfl) rfl,
    fun w c h => hsame w _ _ h rfl rfl rfl, fun w b h => hsame w _ _ h rfl rfl rfl, fun w h => Sim.refresh_keeps hconds hcheck hupdate w h,
    ?_, ?_, ?_, ?_, fun w v h => hsame w _ _ h rfl rfl rfl, fun w v x h _ => hsame w _ _ h rfl rfl rfl, ?_⟩
  · intro w u h hr
    have := hreq w ((env S M fuel conds mount (coreSched E X)).recorded.clock w) h
    rw [hr] at this
    exact this
  · intro w u v h hr
    have := hreq w ((env S M fuel conds mount (coreSched E X)).recorded.clock w) h
    rw [hr] at this
    exact this
  · intro w v x nn h ho
    have := hobs w v h
    rw [ho] at this
    exact this
  · intro w v x v' nn h ho
    have := hobs w v h
    rw [ho] at this
    exact this
  · intro w v h
    have ht : Sim.toldOf ((env S M fuel conds mount (coreSched E X)).recorded.add w v).2 = Sim.toldOf w.2 ++ [v] := by
      show Sim.toldOf (w.2 ++ [.add w.1.obs.mjd v]) = _
      rw [Sim.toldOf_append]
      rfl
    have hs : ((env S M fuel conds mount (coreSched E X)).recorded.add w v).1.sched.1 = (w.1.sched.1.addObs E (told v)).1 := rfl
    unfold MasksTold
    rw [hs, addObs_aux, ht, backfill_told]
    unfold MasksTold at h
    rw [h]
    simp

/-- C59, in simulations: at the end of a simulation the masks and detailers of the queue hold what the visits returned, one after the other, make of what they held at the
start. Simulations report visits one by one, so nothing is missed. -/
theorem C59_simulation (S : Obs.Site) (hn : Obs.Nights S.nights) (hd : Down.Ordered S.downs) (M : Obs.Kin K Obs) (hM : Obs.NonNeg M) (fuel : ℕ)
    (conds : Obs.St K → C) (mount : K → B → K) (E : Env C Sv A) (R : MaskFollower E F) (X : Rest H C B) (hX : ∀ h v, 0 ≤ (X.overhead h v).2)
    (cfg : Sim.Cfg) (hstep : 0 ≤ cfg.stepNone) (h1 : 0 < cfg.startSize) (h2 : 0 < cfg.appendSize) (n : ℕ) (w : World (Core C Sv A × H) K) :
    let s := (Sim.run (V := Obs.Visit Obs) (env S M fuel conds mount (coreSched E X)) cfg n w).st
    ∃ vs : List (Obs.Visit Obs), s.result = vs.map some ∧ R.look s.w.sched.1.qm.aux = (vs.map madeRow).foldl R.hear (R.look w.sched.1.qm.aux) := by
  intro s
  have Kc := whole_contract S hn hd M hM fuel conds mount (coreSched E X) (fun u v => hX _ _)
  obtain ⟨hres, hw, ht⟩ := recorded_result (env S M fuel conds mount (coreSched E X)) cfg h1 h2 n w
  have key : MasksTold R (R.look w.sched.1.qm.aux) (Sim.run (V := Obs.Visit Obs) (env S M fuel conds mount (coreSched E X)).recorded cfg n (w, [])).st.w := by
    have h0 : ∀ p : World (Core C Sv A × H) K × List (Sim.Ev (Obs.Visit Obs) C B), p.1.sched.1 = w.sched.1 → Sim.toldOf p.2 = [] →
        MasksTold R (R.look w.sched.1.qm.aux) p := by
      intro p hp hq
      unfold MasksTold
      rw [hp, hq]
      rfl
    refine Sim.run_keeps (Sim.recorded_contract Kc) hstep (masks_keeps S M fuel conds mount E R X cfg _) n (w, []) ?_ ?_
    · intro _
      exact h0 _ rfl rfl
    · intro m _
      exact h0 _ rfl rfl
  refine ⟨_, hres, ?_⟩
  unfold MasksTold at key
  rw [ht, ← hw] at key
  exact key

end

/-! ### Examples -/

/-- A queue that keeps the identifiers of the visits it has heard of. -/
def maskEnv : Env ToyC ToySv (List Int) where
  q := { mjdOf := ToyC.mjd, reward := fun _ _ => [.fin 0], hpid := fun _ _ _ => 0, detail := fun a _ l => (l, a),
         addObs := fun a o => a ++ [o.targetId], addArr := fun a l => a ++ l.map Obs.targetId }
  sv := toyE.sv
  toos := ToyC.toos

def maskFollower : MaskFollower maskEnv (List Int) where
  look := id
  hear a o := a ++ [o.targetId]
  detail_keeps _ _ _ := rfl
  addObs_hears _ _ := rfl
  addArr_hears a l := by
    show a ++ l.map Obs.targetId = _
    show _ = l.foldl _ a
    induction l generalizing a with
    | nil => simp
    | cons o l ih => rw [List.foldl_cons, ← ih]; simp

/-- A history with an array that is reported while a visit is in the queue: its visits are heard of in the order of time. -/
def maskOps : List (Op ToyC) := [.append [{ targetId := 7 }], .add { targetId := 7, mjd := 3 }, .addArr [{ targetId := 9, mjd := 5 }, { targetId := 8, mjd := 4 }], .flush, .add { targetId := 2, mjd := 6 }]

example : (match (Core.init [] [] 0 true [] : Core ToyC ToySv (List Int)).run maskEnv maskOps with | .ok r => r.1.qm.aux | .error _ => []) = [7, 8, 9, 2]
    ∧ (maskOps.flatMap reportedBy).map Obs.targetId = [7, 8, 9, 2] := by decide +kernel

end Verif
