import Verif.Lemmas.SimRename
import Verif.Model.Whole
import Verif.Props.WholeRestart

/-!
Property C258: the number from which visits are numbered does not change a simulation.
-/

namespace Verif

open Whole

/-- A visit with a number larger by `k`. -/
def Obs.plus (k : ℤ) (o : Obs) : Obs := { o with targetId := o.targetId + k }

/-- A queue with such visits. -/
def QM.plus {A : Type} (k : ℤ) (q : QM A) : QM A := { q with desired := q.desired.map (Obs.plus k) }

/-- A scheduler that numbers its visits from a number larger by `k`. -/
def Core.plus {C Sv A : Type} (k : ℤ) (s : Core C Sv A) : Core C Sv A := { s with qm := s.qm.plus k, counter := s.counter + k }

/-- A completed visit with a number larger by `k`. -/
def visitPlus (k : ℤ) (v : Obs.Visit Obs) : Obs.Visit Obs := { v with target := v.target.plus k }

section
variable {C B Sv A H K : Type}

/-- Surveys, masks and detailers that do not read the numbers of visits. -/
structure NumberBlind (E : Env C Sv A) : Prop where
  sv : ∀ s o k, E.sv.addObs s (o.plus k) = E.sv.addObs s o
  q : ∀ a o k, E.q.addObs a (o.plus k) = E.q.addObs a o
  detail : ∀ a c l k, E.q.detail a c (l.map (Obs.plus k)) = ((E.q.detail a c l).1.map (Obs.plus k), (E.q.detail a c l).2)

/-- A telescope that does not read them. -/
structure KinBlind (M : Obs.Kin K Obs) : Prop where
  observe : ∀ s o x k, M.observe s (o.plus k) x = M.observe s o x
  prepare : ∀ s x o k, M.prepare s x (o.plus k) = (M.prepare s x o).map (Obs.plus k)

/-- A band scheduler and unexpected overheads that do not read them. -/
structure RestNumberBlind (X : Rest H C B) : Prop where
  bandAdd : ∀ h v k, X.bandAdd h (visitPlus k v) = X.bandAdd h v
  overhead : ∀ h v k, X.overhead h (visitPlus k v) = X.overhead h v

variable {E : Env C Sv A}

theorem tagIds_plus (k : ℤ) (l : List Obs) : ∀ n, tagIds (n + k) l = (tagIds n l).map (Obs.plus k) := by
  induction l with
  | nil => intro n; rfl
  | cons o os ih =>
    intro n
    unfold tagIds
    rw [List.map_cons, ← ih (n + 1), show n + k + 1 = n + 1 + k by omega]
    rfl

theorem fillFilters_plus (k : ℤ) (d : List (String × String)) (l : List Obs) :
    fillFilters d (l.map (Obs.plus k)) = (fillFilters d l).map (List.map (Obs.plus k)) := by
  induction l with
  | nil => rfl
  | cons o os ih =>
    rw [List.map_cons]
    unfold fillFilters
    rw [ih]
    have h : fillFilter d (o.plus k) = (fillFilter d o).map (Obs.plus k) := by
      unfold fillFilter
      show (if o.filter = "" ∧ d.length > 0 then _ else _) = _
      split_ifs
      · show (match d.lookup o.band with | some f => _ | none => _) = _
        cases d.lookup o.band <;> rfl
      · rfl
    rw [h]
    cases fillFilter d o with
    | error e => rfl
    | ok o' => cases fillFilters d os <;> rfl

theorem fillQueue_plus (k : ℤ) (s : Core C Sv A) :
    ∃ ev' : List Ev → List Ev, (s.plus k).fillQueue E = (s.fillQueue E).map fun r => (r.1.plus k, ev' r.2) := by
  obtain ⟨qm, tiers, counter, ix, conditions, sched, flushToo, ids, dict⟩ := s
  refine ⟨fun ev => ev.map fun e => match e with | .assigned i => .assigned (i + k) | .reported i => .reported (i + k), ?_⟩
  unfold Core.fillQueue Core.plus
  cases conditions with
  | none => rfl
  | some c =>
    dsimp only
    cases tierLoop E.sv c 0 tiers with
    | error e => rfl
    | ok r =>
      obtain ⟨rs, brk, tiers'⟩ := r
      dsimp only
      cases XReal.nanmax rs with
      | none => rfl
      | some m =>
        dsimp only
        by_cases hm : m = .ninf ∨ m = .nan
        · rw [if_pos hm, if_pos hm]; rfl
        · rw [if_neg hm, if_neg hm]
          cases brk with
          | none => rfl
          | some i0 =>
            cases bestIndex (rs.map fixNan) with
            | none => rfl
            | some i1 =>
              dsimp only
              cases tiers'[i0]? with
              | none => rfl
              | some tier =>
                dsimp only
                cases tier[i1]? with
                | none => rfl
                | some sv =>
                  dsimp only
                  rw [tagIds_plus, fillFilters_plus]
                  cases fillFilters dict (tagIds counter (E.sv.gen sv c).1) with
                  | error e => rfl
                  | ok filled =>
                    simp only [Except.map, QM.setQueue, QM.plus, List.length_map, List.map_map]
                    congr 2
                    simp only [Core.mk.injEq, true_and, and_true]
                    omega

theorem findValid_plus (k : ℤ) (q : QM A) (Q : QEnv C A) (c : C) (x : ℚ) : (q.plus k).findValid Q c x = q.findValid Q c x := by
  have hv : QM.mjdVerdict (q.desired.map (Obs.plus k)) x = QM.mjdVerdict q.desired x := by
    unfold QM.mjdVerdict
    rw [List.map_map, List.zipWith_map_right]
    rfl
  unfold QM.findValid
  dsimp only [QM.plus]
  rw [hv, List.length_map]
  split_ifs
  · apply List.filter_congr
    intro i _
    rw [List.getElem?_map]
    cases q.desired[i]? <;> rfl
  · rfl

theorem qrequest_plus (h : NumberBlind E) (k : ℤ) (q : QM A) (c : C) (whole : Bool) :
    (q.plus k).request E.q c whole = ((q.request E.q c whole).1.map (Obs.plus k), (q.request E.q c whole).2.plus k) := by
  unfold QM.request
  rw [findValid_plus]
  dsimp only
  generalize (if whole then q.findValid E.q c (E.q.mjdOf c) else _) = indx
  have hr : (indx.filterMap fun i => (q.plus k).desired[i]?) = (indx.filterMap fun i => q.desired[i]?).map (Obs.plus k) := by
    rw [List.map_filterMap]
    apply List.filterMap_congr
    intro i _
    show (q.desired.map (Obs.plus k))[i]? = _
    rw [List.getElem?_map]
  rw [hr, List.length_map]
  split_ifs
  · have hd := h.detail q.aux c (indx.filterMap fun i => q.desired[i]?) k
    have h1 : (E.q.detail q.aux c ((indx.filterMap fun i => q.desired[i]?).map (Obs.plus k))).1 = _ := congrArg Prod.fst hd
    have h2 : (E.q.detail q.aux c ((indx.filterMap fun i => q.desired[i]?).map (Obs.plus k))).2 = _ := congrArg Prod.snd hd
    exact Prod.ext h1 (congrArg (QM.mk (q.desired.map (Obs.plus k)) q.need) h2)
  · rfl

theorem core_request_plus (h : NumberBlind E) (k : ℤ) (s : Core C Sv A) (x : Option ℚ) (whole : Bool) :
    ((s.plus k).request E x whole).map (fun r => (r.1, r.2.1)) = (s.request E x whole).map fun r => (r.1.plus k, r.2.1.map (List.map (Obs.plus k))) := by
  unfold Core.request
  show Except.map _ (match s.conditions with | none => _ | some c => _) = _
  cases s.conditions with
  | none => rfl
  | some c =>
    dsimp only
    have hfirst : ∃ ev' : List Ev → List Ev, (if (s.plus k).qm.nonePending then (s.plus k).fillQueue E else .ok (s.plus k, []))
        = (if s.qm.nonePending then s.fillQueue E else .ok (s, [])).map fun r => (r.1.plus k, ev' r.2) := by
      show ∃ ev' : List Ev → List Ev, (if s.qm.nonePending then _ else _) = _
      split_ifs
      · exact fillQueue_plus k s
      · exact ⟨id, rfl⟩
    obtain ⟨ev', hfirst⟩ := hfirst
    rw [hfirst]
    generalize (if s.qm.nonePending then s.fillQueue E else .ok (s, [])) = first
    cases first with
    | error e => rfl
    | ok r =>
      obtain ⟨s1, ev1⟩ := r
      dsimp only [Except.map]
      show Except.map _ (if s1.qm.nonePending then _ else _) = _
      by_cases hp : s1.qm.nonePending = true
      · rw [if_pos hp, if_pos hp]; rfl
      · rw [if_neg hp, if_neg hp]
        have hq : (s1.plus k).qm.request E.q c whole = _ := qrequest_plus h k s1.qm c whole
        rw [hq]
        dsimp only
        rw [List.length_map]
        by_cases hl : (s1.qm.request E.q c whole).1.length = 0
        · rw [if_pos hl, if_pos hl]
          obtain ⟨ev2, hf⟩ := fillQueue_plus (E := E) k { s1 with qm := (s1.qm.request E.q c whole).2.flush }
          have hf' : ({ s1.plus k with qm := ((s1.qm.request E.q c whole).2.plus k).flush } : Core C Sv A).fillQueue E = _ := hf
          rw [hf']
          cases ({ s1 with qm := (s1.qm.request E.q c whole).2.flush } : Core C Sv A).fillQueue E with
          | error e => rfl
          | ok r =>
            obtain ⟨s3, ev3⟩ := r
            dsimp only [Except.map]
            have hq3 : (s3.plus k).qm.request E.q c whole = _ := qrequest_plus h k s3.qm c whole
            rw [hq3]
            dsimp only
            rw [List.length_map]
            by_cases hl' : (s3.qm.request E.q c whole).1.length = 0
            · rw [if_pos hl', if_pos hl']; rfl
            · rw [if_neg hl', if_neg hl']
              simp only [Option.map_some, List.map_map]
              rfl
        · rw [if_neg hl, if_neg hl]
          simp only [Option.map_some, List.map_map]
          rfl

theorem backfill_plus (k : ℤ) (o : Obs) : backfillBand (o.plus k) = (backfillBand o).plus k := by
  unfold backfillBand
  show (if o.band = "" then _ else _) = _
  split_ifs <;> rfl

theorem clearWhere_plus (k i : ℤ) (l : List Obs) : ∀ bs, QM.clearWhere (fun d => decide (d.targetId = i + k)) (l.map (Obs.plus k)) bs
    = QM.clearWhere (fun d => decide (d.targetId = i)) l bs := by
  induction l with
  | nil => intro bs; rfl
  | cons o os ih =>
    intro bs
    cases bs with
    | nil => rfl
    | cons b bs =>
      rw [List.map_cons]
      unfold QM.clearWhere
      rw [ih]
      have : decide ((o.plus k).targetId = i + k) = decide (o.targetId = i) := by
        apply decide_eq_decide.2
        show o.targetId + k = i + k ↔ _
        omega
      rw [this]

theorem core_addObs_plus (h : NumberBlind E) (k : ℤ) (s : Core C Sv A) (o : Obs) : ((s.plus k).addObs E (o.plus k)).1 = (s.addObs E o).1.plus k := by
  unfold Core.addObs
  rw [backfill_plus]
  generalize backfillBand o = o
  have hq : (s.qm.plus k).addObs E.q (o.plus k) = (s.qm.addObs E.q o).plus k := by
    unfold QM.addObs
    have hlen : (s.qm.plus k).desired.length = s.qm.desired.length := List.length_map _
    rw [hlen]
    dsimp only
    split_ifs
    · unfold QM.mark QM.plus
      dsimp only
      rw [h.q]
      simp only [QM.mk.injEq, true_and, and_true]
      exact clearWhere_plus k o.targetId s.qm.desired s.qm.need
    · unfold QM.plus
      dsimp only
      rw [h.q]
  have hb : Core.bump (s.counter + k) (o.targetId + k) = Core.bump s.counter o.targetId + k := by
    unfold Core.bump
    split_ifs <;> omega
  show Core.mk ((s.qm.plus k).addObs E.q (o.plus k)) (s.tiers.map fun t => t.map fun v => E.sv.addObs v (o.plus k)) (Core.bump (s.counter + k) (o.targetId + k)) _ _ _ _ _ _ = _
  rw [hq, hb]
  simp only [h.sv]
  rfl

theorem core_update_plus (k : ℤ) (s : Core C Sv A) (c : C) : (s.plus k).update E c = (s.update E c).plus k := by
  have htoo : (s.plus k).tooStep E c = (s.tooStep E c).plus k := by
    unfold Core.tooStep
    show (if s.flushForNewToo then _ else _) = _
    split_ifs
    · cases E.toos c with
      | none => rfl
      | some ts =>
        dsimp only
        show (if (ts.filter fun t => !s.tooIds.contains t.1).any (fun t => t.2) then _ else _) = _
        split_ifs <;> rfl
    · rfl
  unfold Core.update
  rw [htoo]
  rfl

/-- The world of a simulation with larger numbers of visits. -/
def worldPlus (k : ℤ) (w : World (Core C Sv A × H) K) : World (Core C Sv A × H) K := ⟨w.obs, (w.sched.1.plus k, w.sched.2), w.raised⟩

theorem whole_plus (h : NumberBlind E) (S : Obs.Site) {M : Obs.Kin K Obs} (hM : KinBlind M) (fuel : ℕ) (conds : Obs.St K → C) (mount : K → B → K) {X : Rest H C B}
    (hX : RestNumberBlind X) (k : ℤ) :
    Sim.Rename (env S M fuel conds mount (coreSched E X)) (env S M fuel conds mount (coreSched E X)) (worldPlus k) (visitPlus k) where
  clock _ := rfl
  set _ _ := rfl
  conds _ := rfl
  hasConds _ := rfl
  check w x := by
    show (_, coreCheck E (w.sched.1.plus k) x) = (_, coreCheck E w.sched.1 x)
    unfold coreCheck QM.checkQueueMjdOnly
    show (_, match w.sched.1.conditions with | none => false | some c => decide (((w.sched.1.qm.plus k).findValid E.q c x).length > 0)) = _
    simp only [findValid_plus]
    rfl
  update w c := by
    show World.mk _ ((w.sched.1.plus k).update E c, _) _ = _
    rw [core_update_plus]
    rfl
  request w x := by
    show requestOf (coreSched E X) (worldPlus k w) x = (worldPlus k (requestOf (coreSched E X) w x).1, (requestOf (coreSched E X) w x).2.map (visitPlus k))
    have h1 : (coreSched E X).request (worldPlus k w).sched x = (coreRequest E (w.sched.1.plus k) x).map fun r => ((r.1, w.sched.2), r.2) := rfl
    have h2 : (coreSched E X).request w.sched x = (coreRequest E w.sched.1 x).map fun r => ((r.1, w.sched.2), r.2) := rfl
    unfold requestOf
    rw [h1, h2]
    have hr : coreRequest E (w.sched.1.plus k) x = (coreRequest E w.sched.1 x).map fun r => (r.1.plus k, r.2.map (Obs.plus k)) := by
      have hc := core_request_plus h k w.sched.1 (some x) false
      unfold coreRequest
      cases h1 : (w.sched.1.plus k).request E (some x) false with
      | error e =>
        cases h2 : w.sched.1.request E (some x) false with
        | error e' => rfl
        | ok r => rw [h1, h2] at hc; cases hc
      | ok r =>
        cases h2 : w.sched.1.request E (some x) false with
        | error e' => rw [h1, h2] at hc; cases hc
        | ok r' =>
          obtain ⟨a, l, ev⟩ := r
          obtain ⟨a', l', ev'⟩ := r'
          rw [h1, h2] at hc
          simp only [Except.map, Except.ok.injEq, Prod.mk.injEq] at hc
          obtain ⟨rfl, rfl⟩ := hc
          dsimp only [Option.map_some]
          cases l' with
          | none => rfl
          | some l' => cases l' <;> rfl
    rw [hr]
    cases coreRequest E w.sched.1 x with
    | none => rfl
    | some r =>
      obtain ⟨a, _ | o⟩ := r <;> rfl
  observe w v := by
    show observeOf S M fuel (worldPlus k w) (visitPlus k v) = (worldPlus k (observeOf S M fuel w v).1, (observeOf S M fuel w v).2.1.map (visitPlus k), (observeOf S M fuel w v).2.2)
    have ho : Obs.observe S M fuel w.obs (v.target.plus k) = (Obs.observe S M fuel w.obs v.target).map fun r => (r.1, r.2.1.map (visitPlus k), r.2.2) := by
      unfold Obs.observe
      rw [hM.prepare]
      cases M.prepare w.obs.kin w.obs.mjd v.target with
      | none => rfl
      | some o =>
        dsimp only [Option.map_some]
        rw [hM.observe]
        generalize M.observe (if S.parkAfter < w.obs.mjd - M.lastMjd w.obs.kin then M.park w.obs.kin else w.obs.kin) o w.obs.mjd = r
        obtain ⟨a, _ | slew, t⟩ := r
        · rfl
        · dsimp only
          rcases Obs.checkMjd S fuel (w.obs.mjd + (slew + t) / 24 / 3600) with e | ⟨_ | _, new⟩ <;> rfl
    unfold observeOf
    rw [show Obs.observe S M fuel (worldPlus k w).obs (visitPlus k v).target = _ from ho]
    cases Obs.observe S M fuel w.obs v.target with
    | error e => rfl
    | ok r => rfl
  overhead w v := by
    show (World.mk _ (w.sched.1.plus k, (X.overhead w.sched.2 (visitPlus k v)).1) _, (X.overhead w.sched.2 (visitPlus k v)).2) = _
    rw [hX.overhead]
    rfl
  add w v := by
    show World.mk _ (((w.sched.1.plus k).addObs E (told (visitPlus k v))).1, _) _ = _
    rw [show told (visitPlus k v) = (told v).plus k from rfl, core_addObs_plus h]
    rfl
  bandAdd w v := by
    show World.mk _ (w.sched.1.plus k, X.bandAdd w.sched.2 (visitPlus k v)) _ = _
    rw [hX.bandAdd]
    rfl
  flush _ := rfl
  bands _ _ := rfl
  mount _ _ := rfl

/-- C258: a simulation whose scheduler numbers its visits from a number that is larger by `k` (in a run that may already have visits in its queue, with numbers larger by `k`) ends
in the same way, at the same time, with the same visits, each with a number larger by `k`; the observatory and all surveys are in the same state. This is
for surveys, masks, detailers and telescopes that do not read the number of a visit. -/
theorem C258_numbers (h : NumberBlind E) (S : Obs.Site) {M : Obs.Kin K Obs} (hM : KinBlind M) (fuel : ℕ) (conds : Obs.St K → C) (mount : K → B → K) {X : Rest H C B}
    (hX : RestNumberBlind X) (k : ℤ) (cfg : Sim.Cfg) (n : ℕ) (w : World (Core C Sv A × H) K) :
    let a := Sim.run (V := Obs.Visit Obs) (env S M fuel conds mount (coreSched E X)) cfg n w
    let b := Sim.run (V := Obs.Visit Obs) (env S M fuel conds mount (coreSched E X)) cfg n
      { w with sched := ({ w.sched.1 with counter := w.sched.1.counter + k, qm := { w.sched.1.qm with desired := w.sched.1.qm.desired.map fun o => { o with targetId := o.targetId + k } } }, w.sched.2) }
    b.kind = a.kind ∧ b.st.mjd = a.st.mjd
      ∧ b.st.result = a.st.result.map (Option.map fun v => { v with target := { v.target with targetId := v.target.targetId + k } })
      ∧ b.st.w.obs = a.st.w.obs ∧ b.st.w.raised = a.st.w.raised ∧ b.st.w.sched.1.tiers = a.st.w.sched.1.tiers ∧ b.st.w.sched.2 = a.st.w.sched.2
      ∧ b.st.w.sched.1.counter = a.st.w.sched.1.counter + k := by
  intro a b
  have e : b = a.rename (worldPlus k) (visitPlus k) := Sim.run_rename (V := Obs.Visit Obs) (whole_plus h S hM fuel conds mount hX k) cfg n w
  rw [e, Sim.rename_kind, Sim.rename_st, Sim.rename_result]
  exact ⟨rfl, rfl, rfl, rfl, rfl, rfl, rfl, rfl⟩

end

/-- The surveys that count meet the conditions. -/
theorem count_blind : NumberBlind countEnv := ⟨fun _ _ _ => rfl, fun _ _ _ => rfl, fun _ _ _ _ => rfl⟩

theorem wholeKin_blind : KinBlind wholeKin := ⟨fun _ _ _ _ => rfl, fun _ _ _ _ => rfl⟩

theorem wholeRest_blind : RestNumberBlind wholeRest := ⟨fun _ _ _ => rfl, fun _ _ _ => rfl⟩

/-- Two visits numbered from 5 and from 105. -/
example : (let f (k : ℤ) := ((Sim.run (V := Obs.Visit Obs) (env toySite wholeKin 20 (fun s => (⟨s.mjd, none⟩ : ToyC)) (fun k _ => k) (coreSched countEnv wholeRest))
      { duration := 1 / 25, startSize := 2, appendSize := 2 } 20
      ⟨⟨0, 0, 40⟩, (Core.init () [[Feat.NObsCount.init, Feat.NObsCount.init]] k true [], ()), false⟩).st.result.filterMap id).map fun v => (v.mjd, v.target.targetId)
    (f 5, f 105)) = ([(1 / 1440, 5), (53 / 2160, 6)], [(1 / 1440, 105), (53 / 2160, 106)]) := by
  decide +kernel

end Verif
