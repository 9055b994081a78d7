import Verif.Model.Whole
import Verif.Spec.SimRunner
import Verif.Lemmas.SimProject

/-!
Surveys whose states have another representation: if the calls of the surveys agree, so do the scheduler and whole simulations. With this the surveys of a simulation may
be confined to the states that their calls can reach.
-/

namespace Verif

/-- Simulations that agree on the common part agree on it with every call written down. -/
theorem Sim.Project.recorded {W W' V C B : Type} {E' : Sim.Env W' V C B} {E : Sim.Env W V C B} {π : W' → W} (P : Sim.Project E' E π) :
    Sim.Project E'.recorded E.recorded (fun p => (π p.1, p.2)) := by
  constructor <;> intros <;>
    simp only [Sim.Env.recorded, P.clock, P.set, P.conds, P.hasConds, P.check, P.update, P.request, P.observe, P.overhead, P.add, P.bandAdd, P.flush, P.bands, P.mount]

variable {C Sv Sv' A : Type}

/-- The surveys of `E'` behave as those of `E`, seen through `f`. -/
structure SameSurveys (E' : Env C Sv' A) (E : Env C Sv A) (f : Sv' → Sv) : Prop where
  q : E'.q = E.q
  toos : E'.toos = E.toos
  reward : ∀ s c, E.sv.reward (f s) c = ((E'.sv.reward s c).1, f (E'.sv.reward s c).2)
  gen : ∀ s c, E.sv.gen (f s) c = ((E'.sv.gen s c).1, f (E'.sv.gen s c).2)
  addObs : ∀ s o, E.sv.addObs (f s) o = f (E'.sv.addObs s o)
  update : ∀ s c, E.sv.update (f s) c = f (E'.sv.update s c)
  scheduled : ∀ s, E.sv.scheduled (f s) = E'.sv.scheduled s

/-- The scheduler with its surveys seen through `f`. -/
def Core.seen (f : Sv' → Sv) (s : Core C Sv' A) : Core C Sv A :=
  { qm := s.qm, tiers := s.tiers.map (List.map f), counter := s.counter, surveyIndex := s.surveyIndex, conditions := s.conditions, scheduled := s.scheduled,
    flushForNewToo := s.flushForNewToo, tooIds := s.tooIds, bandToFilter := s.bandToFilter }

variable {E' : Env C Sv' A} {E : Env C Sv A} {f : Sv' → Sv}

theorem evalTier_seen (h : SameSurveys E' E f) (c : C) (tier : List Sv') :
    evalTier E.sv c (tier.map f) = ((evalTier E'.sv c tier).1, (evalTier E'.sv c tier).2.map f) := by
  unfold evalTier
  simp only [List.map_map, Prod.mk.injEq]
  constructor <;> exact List.map_congr_left fun s _ => by simp only [Function.comp_apply, h.reward]

theorem tierLoop_seen (h : SameSurveys E' E f) (c : C) (tiers : List (List Sv')) : ∀ n,
    tierLoop E.sv c n (tiers.map (List.map f)) = (tierLoop E'.sv c n tiers).map fun r => (r.1, r.2.1, r.2.2.map (List.map f)) := by
  induction tiers with
  | nil => intro n; rfl
  | cons tier rest ih =>
    intro n
    rw [List.map_cons]
    unfold tierLoop
    rw [evalTier_seen h]
    dsimp only
    cases XReal.nanmax (evalTier E'.sv c tier).1 with
    | none => rfl
    | some m =>
      dsimp only
      by_cases hm : XReal.ltB .ninf m = true
      · rw [if_pos hm, if_pos hm]; rfl
      · rw [if_neg hm, if_neg hm, ih]
        cases tierLoop E'.sv c (n + 1) rest with
        | error e => rfl
        | ok r =>
          obtain ⟨rs, ix, rest'⟩ := r
          cases rest <;> rfl

theorem fillQueue_seen (h : SameSurveys E' E f) (s : Core C Sv' A) :
    (s.seen f).fillQueue E = (s.fillQueue E').map fun r => (r.1.seen f, r.2) := by
  obtain ⟨qm, tiers, counter, ix, conditions, sched, flushToo, ids, dict⟩ := s
  unfold Core.fillQueue Core.seen
  cases conditions with
  | none => rfl
  | some c =>
    dsimp only
    rw [tierLoop_seen h c tiers 0]
    cases tierLoop E'.sv c 0 tiers with
    | error e => rfl
    | ok r =>
      obtain ⟨rs, brk, tiers'⟩ := r
      simp only [Except.map]
      cases XReal.nanmax rs with
      | none => rfl
      | some m =>
        dsimp only
        by_cases hm : m = .ninf ∨ m = .nan
        · rw [if_pos hm, if_pos hm]; rfl
        · rw [if_neg hm, if_neg hm]
          cases brk with
          | none => rfl
          | some i0 =>
            cases bestIndex (rs.map fixNan) with
            | none => rfl
            | some i1 =>
              dsimp only
              rw [List.getElem?_map]
              cases tiers'[i0]? with
              | none => rfl
              | some tier =>
                simp only [Option.map_some]
                rw [List.getElem?_map]
                cases tier[i1]? with
                | none => rfl
                | some sv =>
                  simp only [Option.map_some]
                  show (match fillFilters dict (tagIds counter (E.sv.gen (f sv) c).1) with
                    | .error e => Except.error e
                    | .ok filled => Except.ok ((⟨qm.setQueue filled, (tiers'.map (List.map f)).set i0 ((tier.map f).set i1 (E.sv.gen (f sv) c).2),
                        counter + ((E.sv.gen (f sv) c).1.length : ℤ), (some i0, some i1), some c, sched, flushToo, ids, dict⟩ : Core C Sv A),
                        filled.map fun o : Obs => Ev.assigned o.targetId)) = _
                  rw [h.gen]
                  dsimp only
                  cases fillFilters dict (tagIds counter (E'.sv.gen sv c).1) with
                  | error e => rfl
                  | ok filled =>
                    simp only [List.map_set]

theorem core_request_seen (h : SameSurveys E' E f) (s : Core C Sv' A) (x : Option ℚ) (whole : Bool) :
    (s.seen f).request E x whole = (s.request E' x whole).map fun r => (r.1.seen f, r.2) := by
  unfold Core.request
  show (match s.conditions with | none => _ | some c => _) = _
  cases s.conditions with
  | none => rfl
  | some c =>
    dsimp only
    have hfirst : (if (s.seen f).qm.nonePending then (s.seen f).fillQueue E else .ok (s.seen f, []))
        = (if s.qm.nonePending then s.fillQueue E' else .ok (s, [])).map fun r => (r.1.seen f, r.2) := by
      show (if s.qm.nonePending then _ else _) = _
      split_ifs
      · exact fillQueue_seen h s
      · rfl
    rw [hfirst]
    generalize (if s.qm.nonePending then s.fillQueue E' else .ok (s, [])) = first
    cases first with
    | error e => rfl
    | ok r =>
      obtain ⟨s1, ev1⟩ := r
      simp only [Except.map]
      show (if s1.qm.nonePending then _ else _) = _
      by_cases hp : s1.qm.nonePending = true
      · rw [if_pos hp, if_pos hp]
      · rw [if_neg hp, if_neg hp]
        show (if (s1.qm.request E.q c whole).1.length = 0 then _ else _) = _
        rw [h.q]
        by_cases hl : (s1.qm.request E.q c whole).1.length = 0
        · rw [if_pos hl, if_pos hl]
          have hf := fillQueue_seen h { s1 with qm := (s1.qm.request E.q c whole).2.flush }
          have hf' : ({ s1.seen f with qm := (s1.qm.request E.q c whole).2.flush } : Core C Sv A).fillQueue E = _ := hf
          rw [show (s1.seen f).qm = s1.qm from rfl, hf']
          cases ({ s1 with qm := (s1.qm.request E.q c whole).2.flush } : Core C Sv' A).fillQueue E' with
          | error e => rfl
          | ok r =>
            obtain ⟨s3, ev2⟩ := r
            simp only [Except.map]
            show (if (s3.qm.request E.q c whole).1.length = 0 then _ else _) = _
            by_cases hl' : (s3.qm.request E.q c whole).1.length = 0
            · rw [if_pos hl', if_pos hl']; rfl
            · rw [if_neg hl', if_neg hl']; rfl
        · rw [if_neg hl, if_neg hl]
          rfl

theorem flush_seen (s : Core C Sv' A) : (s.seen f).flush = s.flush.seen f := rfl

theorem core_addObs_seen (h : SameSurveys E' E f) (s : Core C Sv' A) (o : Obs) : (s.seen f).addObs E o = ((s.addObs E' o).1.seen f, (s.addObs E' o).2) := by
  unfold Core.addObs Core.seen
  simp only [List.map_map, h.q, Prod.mk.injEq, and_true, Core.mk.injEq, true_and]
  exact List.map_congr_left fun t _ => by
    simp only [Function.comp_apply, List.map_map]
    exact List.map_congr_left fun v _ => h.addObs v _

theorem core_update_seen (h : SameSurveys E' E f) (s : Core C Sv' A) (c : C) : (s.seen f).update E c = (s.update E' c).seen f := by
  have htoo : (s.seen f).tooStep E c = (s.tooStep E' c).seen f := by
    unfold Core.tooStep
    rw [h.toos]
    show (if s.flushForNewToo then _ else _) = _
    split_ifs
    · cases E.toos c with
      | none => rfl
      | some ts =>
        dsimp only
        show (if (ts.filter fun t => !s.tooIds.contains t.1).any (fun t => t.2) then _ else _) = _
        split_ifs <;> rfl
    · rfl
  have htiers : ((s.tooStep E' c).seen f).tiers.map (List.map fun v => E.sv.update v c)
      = ((s.tooStep E' c).tiers.map (List.map fun v => E'.sv.update v c)).map (List.map f) := by
    show ((s.tooStep E' c).tiers.map (List.map f)).map _ = _
    simp only [List.map_map]
    exact List.map_congr_left fun t _ => by
      simp only [Function.comp_apply, List.map_map]
      exact List.map_congr_left fun v _ => h.update v _
  have hsched : ∀ (tiers : List (List Sv')) (now : ℚ), Core.gatherScheduled E (tiers.map (List.map f)) now = Core.gatherScheduled E' tiers now := by
    intro tiers now
    unfold Core.gatherScheduled
    have : (tiers.map (List.map f)).flatten.filterMap (fun v => E.sv.scheduled v) = tiers.flatten.filterMap fun v => E'.sv.scheduled v := by
      rw [← List.map_flatten, List.filterMap_map]
      exact List.filterMap_congr fun v _ => h.scheduled v
    rw [this]
  unfold Core.update
  dsimp only
  rw [htoo]
  have e : (fun t : List Sv => t.map fun v => E.sv.update v c) = List.map fun v => E.sv.update v c := rfl
  rw [e, htiers, hsched, h.q]
  rfl

section
open Whole
variable {H K B : Type}

/-- The world of a simulation with the surveys seen through `f`. -/
def seenWorld (f : Sv' → Sv) (w : World (Core C Sv' A × H) K) : World (Core C Sv A × H) K := ⟨w.obs, (w.sched.1.seen f, w.sched.2), w.raised⟩

theorem whole_seen (h : SameSurveys E' E f) (S : Obs.Site) (M : Obs.Kin K Obs) (fuel : ℕ) (conds : Obs.St K → C) (mount : K → B → K) (X : Rest H C B) :
    Sim.Project (env S M fuel conds mount (coreSched E' X)) (env S M fuel conds mount (coreSched E X)) (seenWorld f) where
  clock _ := rfl
  set _ _ := rfl
  conds _ := rfl
  hasConds _ := rfl
  check w x := by
    show (_, coreCheck E (w.sched.1.seen f) x) = (_, coreCheck E' w.sched.1 x)
    unfold coreCheck
    rw [h.q]
    rfl
  update w := by
    show (⟨Obs.idle S M w.obs, ((w.sched.1.seen f).update E (conds w.obs), w.sched.2), w.raised⟩ : World (Core C Sv A × H) K)
      = ⟨Obs.idle S M w.obs, ((w.sched.1.update E' (conds w.obs)).seen f, w.sched.2), w.raised⟩
    rw [core_update_seen h]
  request w x := by
    show requestOf (coreSched E X) (seenWorld f w) x = (seenWorld f (requestOf (coreSched E' X) w x).1, (requestOf (coreSched E' X) w x).2)
    unfold requestOf
    have hr : (coreSched E X).request (seenWorld f w).sched x = ((coreSched E' X).request w.sched x).map fun r => ((r.1.1.seen f, r.1.2), r.2) := by
      show (coreRequest E (w.sched.1.seen f) x).map _ = ((coreRequest E' w.sched.1 x).map _).map _
      unfold coreRequest
      rw [core_request_seen h]
      cases w.sched.1.request E' (some x) false <;> rfl
    rw [hr]
    cases (coreSched E' X).request w.sched x <;> rfl
  observe w v := by
    show observeOf S M fuel (seenWorld f w) v = (seenWorld f (observeOf S M fuel w v).1, (observeOf S M fuel w v).2)
    unfold observeOf
    rw [show (seenWorld f w).obs = w.obs from rfl]
    cases Obs.observe S M fuel w.obs v.target <;> rfl
  overhead _ _ := rfl
  add w v := by
    show (⟨w.obs, (((w.sched.1.seen f).addObs E (told v)).1, w.sched.2), w.raised⟩ : World (Core C Sv A × H) K)
      = ⟨w.obs, ((w.sched.1.addObs E' (told v)).1.seen f, w.sched.2), w.raised⟩
    rw [core_addObs_seen h]
  bandAdd _ _ := rfl
  flush _ := rfl
  bands _ _ := rfl
  mount _ _ := rfl

end

/-! ### States that can be reached -/

/-- A property of surveys that all calls of the scheduler keep. -/
structure Stable (E : Env C Sv A) (I : Sv → Prop) : Prop where
  reward : ∀ s c, I s → I (E.sv.reward s c).2
  gen : ∀ s c, I s → I (E.sv.gen s c).2
  addObs : ∀ s o, I s → I (E.sv.addObs s o)
  addArr : ∀ s l, I s → I (E.sv.addArr s l)
  update : ∀ s c, I s → I (E.sv.update s c)

/-- The surveys with that property only. -/
def Env.only (E : Env C Sv A) {I : Sv → Prop} (h : Stable E I) : Env C { s // I s } A where
  q := E.q
  toos := E.toos
  sv := { reward := fun s c => ((E.sv.reward s.1 c).1, ⟨(E.sv.reward s.1 c).2, h.reward _ _ s.2⟩)
          gen := fun s c => ((E.sv.gen s.1 c).1, ⟨(E.sv.gen s.1 c).2, h.gen _ _ s.2⟩)
          addObs := fun s o => ⟨E.sv.addObs s.1 o, h.addObs _ _ s.2⟩
          addArr := fun s l => ⟨E.sv.addArr s.1 l, h.addArr _ _ s.2⟩
          update := fun s c => ⟨E.sv.update s.1 c, h.update _ _ s.2⟩
          scheduled := fun s => E.sv.scheduled s.1 }

theorem only_same (E : Env C Sv A) {I : Sv → Prop} (h : Stable E I) : SameSurveys (E.only h) E Subtype.val :=
  ⟨rfl, rfl, fun _ _ => rfl, fun _ _ => rfl, fun _ _ => rfl, fun _ _ => rfl, fun _ => rfl⟩

/-- A scheduler all of whose surveys have the property is one of those with such surveys only. -/
theorem seen_of_all {I : Sv → Prop} (s : Core C Sv A) (h : ∀ tier ∈ s.tiers, ∀ v ∈ tier, I v) : ∃ s' : Core C { s // I s } A, s'.seen Subtype.val = s := by
  have htier : ∀ t : List Sv, (∀ v ∈ t, I v) → ∃ t' : List { s // I s }, t'.map Subtype.val = t := fun t ht => ⟨t.attachWith I ht, List.attachWith_map_subtype_val ht⟩
  have htiers : ∀ ts : List (List Sv), (∀ t ∈ ts, ∀ v ∈ t, I v) → ∃ ts' : List (List { s // I s }), ts'.map (List.map Subtype.val) = ts := by
    intro ts
    induction ts with
    | nil => exact fun _ => ⟨[], rfl⟩
    | cons t ts ih =>
      intro hts
      obtain ⟨t', ht'⟩ := htier t (hts t List.mem_cons_self)
      obtain ⟨ts', hts'⟩ := ih fun t ht => hts t (List.mem_cons_of_mem _ ht)
      exact ⟨t' :: ts', by rw [List.map_cons, ht', hts']⟩
  obtain ⟨ts, hts⟩ := htiers s.tiers h
  exact ⟨⟨s.qm, ts, s.counter, s.surveyIndex, s.conditions, s.scheduled, s.flushForNewToo, s.tooIds, s.bandToFilter⟩, by unfold Core.seen; rw [hts]⟩

section
open Whole
variable {H K B : Type}

/-- A simulation of surveys with the property is one of such surveys only. -/
theorem sim_only (E : Env C Sv A) {I : Sv → Prop} (h : Stable E I) (S : Obs.Site) (M : Obs.Kin K Obs) (fuel : ℕ) (conds : Obs.St K → C) (mount : K → B → K)
    (X : Rest H C B) (cfg : Sim.Cfg) (n : ℕ) (w : World (Core C Sv A × H) K) (hw : ∀ tier ∈ w.sched.1.tiers, ∀ v ∈ tier, I v) :
    ∃ w' : World (Core C { s // I s } A × H) K, seenWorld Subtype.val w' = w
      ∧ (Sim.run (V := Obs.Visit Obs) (env S M fuel conds mount (coreSched E X)) cfg n w)
        = (Sim.run (V := Obs.Visit Obs) (env S M fuel conds mount (coreSched (E.only h) X)) cfg n w').map (seenWorld Subtype.val)
      ∧ (Sim.run (V := Obs.Visit Obs) (env S M fuel conds mount (coreSched E X)).recorded cfg n (w, []))
        = (Sim.run (V := Obs.Visit Obs) (env S M fuel conds mount (coreSched (E.only h) X)).recorded cfg n (w', [])).map fun p => (seenWorld Subtype.val p.1, p.2) := by
  obtain ⟨s', hs'⟩ := seen_of_all w.sched.1 hw
  have e : seenWorld Subtype.val ⟨w.obs, (s', w.sched.2), w.raised⟩ = w := by
    unfold seenWorld
    rw [hs']
  refine ⟨⟨w.obs, (s', w.sched.2), w.raised⟩, e, ?_, ?_⟩
  · rw [← Sim.run_project (whole_seen (only_same E h) S M fuel conds mount X), e]
  · rw [← Sim.run_project (whole_seen (only_same E h) S M fuel conds mount X).recorded, e]

end

end Verif
