import Verif.Lemmas.CoreHom
import Verif.Lemmas.SimRelate
import Verif.Props.WholeRestart

/-!
Property C257: a simulation goes on with a scheduler restarted from its visits as with the old one after its queue was flushed.
-/

namespace Verif

open Whole Core

section
variable {C B Sv A H K F : Type}

/-- Surveys whose rewards, visits and announced times depend on a part of their state that changes only by hearing of visits. -/
structure Determined (E : Env C Sv A) (F : Type) extends Batcher E F where
  value : F → C → List XReal
  rows : F → C → List Obs
  times : F → Option (List ℚ)
  value_eq : ∀ s c, (E.sv.reward s c).1 = value (look s) c
  rows_eq : ∀ s c, (E.sv.gen s c).1 = rows (look s) c
  times_eq : ∀ s, E.sv.scheduled s = times (look s)

/-- The surveys reduced to that part. -/
def Determined.env {E : Env C Sv A} (D : Determined E F) : Env C F A where
  q := E.q
  toos := E.toos
  sv := { reward := fun f c => (D.value f c, f), gen := fun f c => (D.rows f c, f), addObs := D.hear, addArr := D.batch, update := fun f _ => f, scheduled := D.times }

theorem Determined.same {E : Env C Sv A} (D : Determined E F) : SameSurveys E D.env D.look where
  q := rfl
  toos := rfl
  reward s c := Prod.ext (D.value_eq s c).symm (D.reward_keeps s c).symm
  gen s c := Prod.ext (D.rows_eq s c).symm (D.gen_keeps s c).symm
  addObs s o := (D.addObs_hears s o).symm
  update s c := (D.update_keeps s c).symm
  scheduled s := (D.times_eq s).symm

/-- A queue without memory: its masks and detailers keep nothing of visits. -/
structure NoMemory (q : QEnv C A) : Prop where
  addObs : ∀ a o, q.addObs a o = a
  detail : ∀ a c l, (q.detail a c l).2 = a

/-- What a scheduler that does not flush for alerts never changes. -/
structure SameSettings (s r : Core C Sv A) : Prop where
  aux : s.qm.aux = r.qm.aux
  flushToo : s.flushForNewToo = r.flushForNewToo
  ids : s.tooIds = r.tooIds
  dict : s.bandToFilter = r.bandToFilter

variable {E : Env C Sv A} {s s' r : Core C Sv A}

theorem fillQueue_settings {ev : List Ev} (h : s.fillQueue E = .ok (s', ev)) : SameSettings s' s := by
  unfold fillQueue at h
  split at h
  · cases h
  · split at h
    · cases h
    · simp only at h
      split at h
      · cases h
      · split at h
        · cases h; exact ⟨rfl, rfl, rfl, rfl⟩
        · split at h
          · split at h
            · cases h
            · split at h
              · cases h
              · split at h
                · cases h
                · cases h; exact ⟨rfl, rfl, rfl, rfl⟩
          · cases h

theorem SameSettings.trans {u : Core C Sv A} (h : SameSettings s r) (h2 : SameSettings r u) : SameSettings s u :=
  ⟨h.aux.trans h2.aux, h.flushToo.trans h2.flushToo, h.ids.trans h2.ids, h.dict.trans h2.dict⟩

theorem request_forgets (hq : NoMemory E.q) (q : QM A) (c : C) (whole : Bool) : (q.request E.q c whole).2.aux = q.aux := by
  unfold QM.request
  dsimp only
  split_ifs <;> first | exact hq.detail _ _ _ | rfl

theorem request_settings (hq : NoMemory E.q) {x : Option ℚ} {whole : Bool} {out : Option (List Obs)} {ev : List Ev}
    (h : s.request E x whole = .ok (s', out, ev)) : SameSettings s' s := by
  obtain ⟨c, s1, ev1, _, hfirst, hrest⟩ := request_cases h
  have h1 : SameSettings s1 s := by
    rcases hfirst with ⟨_, hf⟩ | ⟨_, rfl, _⟩
    · exact fillQueue_settings hf
    · exact ⟨rfl, rfl, rfl, rfl⟩
  rcases hrest with ⟨_, rfl, _, _⟩ | ⟨_, _, rfl, _, _⟩ | ⟨_, _, s3, ev2, hf, rfl, _, _⟩
  · exact h1
  · exact SameSettings.trans ⟨request_forgets hq _ _ _, rfl, rfl, rfl⟩ h1
  · have h3 : SameSettings s3 s1 := SameSettings.trans (fillQueue_settings hf) ⟨request_forgets hq _ _ _, rfl, rfl, rfl⟩
    exact SameSettings.trans ⟨request_forgets hq _ _ _, rfl, rfl, rfl⟩ (h3.trans h1)

theorem update_settings (hs : s.flushForNewToo = false) (c : C) : SameSettings (s.update E c) s := by
  have h : s.tooStep E c = s := by
    unfold tooStep
    rw [hs]
    rfl
  unfold Core.update
  rw [h]
  exact ⟨rfl, rfl, rfl, rfl⟩

theorem addObs_settings (hq : NoMemory E.q) (o : Obs) : SameSettings (s.addObs E o).1 s := by
  refine ⟨?_, rfl, rfl, rfl⟩
  show (s.qm.addObs E.q _).aux = _
  unfold QM.addObs
  dsimp only
  rw [hq.addObs]
  split_ifs <;> rfl

theorem settings_kept (S : Obs.Site) (M : Obs.Kin K Obs) (fuel : ℕ) (conds : Obs.St K → C) (mount : K → B → K) (hq : NoMemory E.q) (X : Rest H C B) (cfg : Sim.Cfg)
    (hr : r.flushForNewToo = false) :
    Sim.Keeps (env S M fuel conds mount (coreSched E X)) cfg (fun w => SameSettings w.sched.1 r) (fun w => SameSettings w.sched.1 r)
      (fun _ w => SameSettings w.sched.1 r) (fun _ w => SameSettings w.sched.1 r) := by
  have hconds : ∀ w : World (Core C Sv A × H) K, SameSettings w.sched.1 r → SameSettings ((env S M fuel conds mount (coreSched E X)).conds w).1.sched.1 r := fun w h => h
  have hcheck : ∀ (w : World (Core C Sv A × H) K) x, SameSettings w.sched.1 r → SameSettings ((env S M fuel conds mount (coreSched E X)).check w x).1.sched.1 r :=
    fun w x h => h
  have hupdate : ∀ (w : World (Core C Sv A × H) K) c, SameSettings w.sched.1 r → SameSettings ((env S M fuel conds mount (coreSched E X)).update w c).sched.1 r :=
    fun w c h => (update_settings (h.flushToo.trans hr) c).trans h
  have hreq : ∀ (w : World (Core C Sv A × H) K) x, SameSettings w.sched.1 r → SameSettings ((env S M fuel conds mount (coreSched E X)).request w x).1.sched.1 r := by
    intro w x h
    show SameSettings (requestOf (coreSched E X) w x).1.sched.1 r
    have hr : (coreSched E X).request w.sched x = (coreRequest E w.sched.1 x).map fun r => ((r.1, w.sched.2), r.2) := rfl
    unfold requestOf
    rw [hr]
    unfold coreRequest
    cases hc : w.sched.1.request E (some x) false with
    | error e => exact h
    | ok p =>
      obtain ⟨s', l, ev⟩ := p
      exact (request_settings hq hc).trans h
  have hobs : ∀ (w : World (Core C Sv A × H) K) v, SameSettings w.sched.1 r → SameSettings ((env S M fuel conds mount (coreSched E X)).observe w v).1.sched.1 r := by
    intro w v h
    show SameSettings (observeOf S M fuel w v).1.sched.1 r
    unfold observeOf
    split <;> exact h
  refine ⟨hconds, hcheck, hupdate, fun w x h _ => h, fun w v h => h, fun w h => ⟨h.aux, h.flushToo, h.ids, h.dict⟩, fun w c h => h, fun w b h => h,
    fun w h => Sim.refresh_keeps hconds hcheck hupdate w h, ?_, ?_, ?_, ?_, fun w v h => h, fun w v x h _ => h, fun w v h => (addObs_settings hq _).trans h⟩
  · intro w u h hr
    have := hreq w ((env S M fuel conds mount (coreSched E X)).clock w) h
    rw [hr] at this
    exact this
  · intro w u v h hr
    have := hreq w ((env S M fuel conds mount (coreSched E X)).clock w) h
    rw [hr] at this
    exact this
  · intro w v x nn h ho
    have := hobs w v h
    rw [ho] at this
    exact this
  · intro w v x v' nn h ho
    have := hobs w v h
    rw [ho] at this
    exact this

/-- A scheduler with an empty queue that is told of a table of visits. -/
theorem addArr_settings (D : Determined E F) (hq : NoMemory E.q) (hr : r.qm.desired = []) (hn : r.qm.need = []) {vs : List (Obs.Visit Obs)} (hne : vs ≠ [])
    (ho : vs.Pairwise fun a b => a.mjd ≤ b.mjd) (hd : (vs.map Obs.Visit.mjd).Nodup) {tab : List Obs} (hp : tab.Perm (vs.map told))
    (hbatch : ∀ t ∈ r.tiers, ∀ sv ∈ t, D.batch (D.look sv) (vs.map madeRow) = (vs.map madeRow).foldl D.hear (D.look sv)) :
    ∃ r' ev, r.addArr E tab = .ok (r', ev) ∧ SameSettings r' r ∧ r'.qm.desired = [] ∧ r'.qm.need = [] ∧ r'.surveyIndex = r.surveyIndex
      ∧ lookAll D.toFollower r' = r.tiers.map fun t => t.map fun sv => (vs.map madeRow).foldl D.hear (D.look sv) := by
  have hs := table_sorted ho hd hp
  have hlen : tab.length = vs.length := by rw [hp.length_eq, List.length_map]
  have hpos : 0 < vs.length := List.length_pos_iff.2 hne
  have hq0 : ¬ r.qm.desired.length > 0 := by rw [hr]; simp
  rcases tab with _ | ⟨o, _ | ⟨o', tab⟩⟩
  · simp at hlen; omega
  · refine ⟨(r.addObs E o).1, (r.addObs E o).2, rfl, addObs_settings hq o, ?_, ?_, rfl, ?_⟩
    · show (r.qm.addObs E.q _).desired = []
      unfold QM.addObs
      rw [if_neg hq0]
      exact hr
    · show (r.qm.addObs E.q _).need = []
      unfold QM.addObs
      rw [if_neg hq0]
      exact hn
    · rw [addObs_look]
      have : vs.map madeRow = [backfillBand o] := by rw [← hs]; rfl
      rw [this]
      unfold lookAll
      rw [List.map_map]
      apply List.map_congr_left
      intro t ht
      simp only [Function.comp, List.map_map]
      rfl
  · unfold Core.addArr
    dsimp only
    rw [hs]
    cases hv : vs.map madeRow with
    | nil => rw [List.map_eq_nil_iff] at hv; exact absurd hv hne
    | cons a l =>
      refine ⟨_, _, rfl, ⟨?_, rfl, rfl, rfl⟩, ?_, ?_, rfl, ?_⟩
      · show (r.qm.addArr E.q _).aux = _
        unfold QM.addArr
        rw [if_neg hq0]
      · show (r.qm.addArr E.q _).desired = _
        unfold QM.addArr
        rw [if_neg hq0]
        exact hr
      · show (r.qm.addArr E.q _).need = _
        unfold QM.addArr
        rw [if_neg hq0]
        exact hn
      · unfold lookAll
        dsimp only
        rw [List.map_map]
        apply List.map_congr_left
        intro t ht
        simp only [Function.comp, List.map_map]
        apply List.map_congr_left
        intro sv hsv
        simp only [Function.comp, D.addArr_hears, ← hv, hbatch t ht sv hsv]

/-- C257: after any simulation, let a scheduler be made anew with the same surveys and settings and told of the visits, in a table of any order. A simulation that goes on with it, once it
has conditions, ends in the same way, at the same time, with the same visits as one that goes on with the old scheduler after its queue was flushed. This is for surveys
whose rewards, visits and announced times depend only on what they keep of the visits they heard of, and for which the table of these visits, put in the order of time, is the same as
one visit after the other; the queue has no memory, alerts do not flush it, visits are numbered on from the same number (`set_target_id_counter`) and were made at different times. -/
theorem C257_resume_partial (S : Obs.Site) (hn : Obs.Nights S.nights) (hd : Down.Ordered S.downs) (M : Obs.Kin K Obs) (hM : Obs.NonNeg M) (fuel : ℕ)
    (conds : Obs.St K → C) (mount : K → B → K) (D : Determined E F) (hq : NoMemory E.q) (X : Rest H C B) (hX : ∀ h v, 0 ≤ (X.overhead h v).2)
    (cfg : Sim.Cfg) (hstep : 0 ≤ cfg.stepNone) (h1 : 0 < cfg.startSize) (h2 : 0 < cfg.appendSize) (n : ℕ) (w : World (Core C Sv A × H) K)
    (htoo : w.sched.1.flushForNewToo = false) (r : Core C Sv A) (hset : SameSettings r w.sched.1) (hr : r.qm.desired = []) (hneed : r.qm.need = []) (hidx : r.surveyIndex = (none, none))
    (hsame : (r.tiers.map fun t => t.map D.look) = w.sched.1.tiers.map fun t => t.map D.look) :
    let s := (Sim.run (V := Obs.Visit Obs) (env S M fuel conds mount (coreSched E X)) cfg n w).st
    ∃ vs : List (Obs.Visit Obs), s.result = vs.map some ∧ (vs ≠ [] → (vs.map Obs.Visit.mjd).Nodup →
      (∀ t ∈ r.tiers, ∀ sv ∈ t, D.batch (D.look sv) (vs.map madeRow) = (vs.map madeRow).foldl D.hear (D.look sv)) → ∀ tab : List Obs, tab.Perm (vs.map told) →
      ∃ r' ev, r.addArr E tab = .ok (r', ev) ∧ (∀ (c : C) (cfg2 : Sim.Cfg) (m : ℕ),
        let old := Sim.run (V := Obs.Visit Obs) (env S M fuel conds mount (coreSched E X)) cfg2 m { s.w with sched := (s.w.sched.1.flush.update E c, s.w.sched.2) }
        let new := Sim.run (V := Obs.Visit Obs) (env S M fuel conds mount (coreSched E X)) cfg2 m { s.w with sched := (Core.update E { r' with counter := s.w.sched.1.counter } c, s.w.sched.2) }
        new.kind = old.kind ∧ new.st.result = old.st.result ∧ new.st.mjd = old.st.mjd ∧ new.st.w.obs = old.st.w.obs ∧ new.st.w.raised = old.st.w.raised)) := by
  intro s
  obtain ⟨vs, hres, ht⟩ := C206_followed S hn hd M hM fuel conds mount E D.toFollower X hX cfg hstep h1 h2 n w
  obtain ⟨vs', hres', hp, -, he⟩ := C183_visits S hn hd M hM fuel conds mount (coreSched E X) (fun u v => hX _ _) cfg hstep h1 h2 n w
  have hvv : vs' = vs := List.map_injective_iff.2 (Option.some_injective _) (hres'.symm.trans hres)
  subst hvv
  have ho : vs'.Pairwise fun a b => a.mjd ≤ b.mjd := by
    refine (List.Pairwise.and_mem.1 hp).imp ?_
    rintro a b ⟨ha, hb, hab⟩
    obtain ⟨-, -, -, -, -, -, ha2⟩ := he a ha
    obtain ⟨-, -, -, -, -, hb1, -⟩ := he b hb
    linarith
  have hkept : SameSettings s.w.sched.1 w.sched.1 := by
    have Kc := whole_contract S hn hd M hM fuel conds mount (coreSched E X) (fun u v => hX _ _)
    refine Sim.run_keeps Kc hstep (settings_kept (r := w.sched.1) S M fuel conds mount hq X cfg htoo) n w ?_ ?_
    · intro _
      exact ⟨rfl, rfl, rfl, rfl⟩
    · intro m _
      exact ⟨rfl, rfl, rfl, rfl⟩
  refine ⟨vs', hres, fun hne hnd hbatch tab hperm => ?_⟩
  obtain ⟨r', ev, hok, hset', hr', hneed', hidx', hlook⟩ := addArr_settings D hq hr hneed hne ho hnd hperm hbatch
  refine ⟨r', ev, hok, fun c cfg2 m => ?_⟩
  have htiers : (r'.tiers.map fun t => t.map D.look) = s.w.sched.1.tiers.map fun t => t.map D.look := by
    have e1 : (r'.tiers.map fun t => t.map D.look) = (r.tiers.map fun t => t.map D.look).map fun t => t.map fun f => (vs'.map madeRow).foldl D.hear f := by
      rw [List.map_map]
      exact hlook.trans (List.map_congr_left fun t _ => by simp [Function.comp_def])
    have e2 : (s.w.sched.1.tiers.map fun t => t.map D.look) = (w.sched.1.tiers.map fun t => t.map D.look).map fun t => t.map fun f => (vs'.map madeRow).foldl D.hear f := by
      rw [List.map_map]
      exact ht.trans (List.map_congr_left fun t _ => by simp [Function.comp_def])
    rw [e1, e2, hsame]
  have hset2 : SameSettings r' s.w.sched.1 := by
    have h3 := hset'.trans hset
    exact ⟨h3.aux.trans hkept.aux.symm, h3.flushToo.trans hkept.flushToo.symm, h3.ids.trans hkept.ids.symm, h3.dict.trans hkept.dict.symm⟩
  have hupd : (Core.update E { r' with counter := s.w.sched.1.counter } c).seen D.look = (s.w.sched.1.flush.update E c).seen D.look := by
    rw [← core_update_seen D.same, ← core_update_seen D.same]
    have hfl : s.w.sched.1.flushForNewToo = false := hkept.flushToo.trans htoo
    unfold Core.update Core.tooStep Core.seen Core.flush QM.flush
    dsimp only
    have haux := hset2.aux
    have hqm : r'.qm = ⟨[], [], s.w.sched.1.qm.aux⟩ := by
      cases hx : r'.qm with
      | mk d nd a =>
        rw [hx] at hr' hneed' haux
        cases hr'
        cases hneed'
        cases haux
        rfl
    rw [hset2.flushToo, hfl]
    simp only [Bool.false_eq_true, if_false]
    rw [htiers, hqm, hset2.ids, hset2.dict, hidx', hidx]
  have P := whole_seen D.same S M fuel conds mount X
  intro old new
  have hw : seenWorld D.look { s.w with sched := (Core.update E { r' with counter := s.w.sched.1.counter } c, s.w.sched.2) } = seenWorld D.look { s.w with sched := (s.w.sched.1.flush.update E c, s.w.sched.2) } := by
    unfold seenWorld
    dsimp only
    rw [hupd]
  have e1 := Sim.run_project (V := Obs.Visit Obs) P cfg2 m { s.w with sched := (Core.update E { r' with counter := s.w.sched.1.counter } c, s.w.sched.2) }
  have e2 := Sim.run_project (V := Obs.Visit Obs) P cfg2 m { s.w with sched := (s.w.sched.1.flush.update E c, s.w.sched.2) }
  rw [hw] at e1
  have e : new.map (seenWorld D.look) = old.map (seenWorld D.look) := e1.symm.trans e2
  have hk : ∀ o : Sim.Out (World (Core C Sv A × H) K) (Obs.Visit Obs), (o.map (seenWorld D.look)).kind = o.kind := by
    intro o
    cases o <;> rfl
  have hst : ∀ o : Sim.Out (World (Core C Sv A × H) K) (Obs.Visit Obs), (o.map (seenWorld D.look)).st = o.st.map (seenWorld D.look) := by
    intro o
    cases o <;> rfl
  have hse : new.st.map (seenWorld D.look) = old.st.map (seenWorld D.look) := by rw [← hst, ← hst, e]
  refine ⟨by rw [← hk, ← hk, e], ?_, ?_, ?_, ?_⟩
  · exact congrArg (fun x => x.result) hse
  · exact congrArg (fun x => x.mjd) hse
  · exact congrArg (fun x => x.w.obs) hse
  · exact congrArg (fun x => x.w.raised) hse

/-- C257 for surveys that depend on their count of visits, for bands of one letter. -/
theorem C257_count_partial (S : Obs.Site) (hn : Obs.Nights S.nights) (hd : Down.Ordered S.downs) (M : Obs.Kin K Obs) (hM : Obs.NonNeg M) (fuel : ℕ)
    (conds : Obs.St K → C) (mount : K → B → K) (D : Determined E Feat.NObsCount) (hq : NoMemory E.q) (X : Rest H C B) (hX : ∀ h v, 0 ≤ (X.overhead h v).2)
    (cfg : Sim.Cfg) (hstep : 0 ≤ cfg.stepNone) (h1 : 0 < cfg.startSize) (h2 : 0 < cfg.appendSize) (n : ℕ) (w : World (Core C Sv A × H) K)
    (conv : Obs → Feat.Vis) (hconv : ReadsVisit S conv) (c : Feat.NObsCount.Cfg)
    (hone : ∀ f o, D.hear f o = Feat.NObsCount.one c f (conv o)) (hbatch : ∀ f l, D.batch f l = Feat.NObsCount.bulk c f (l.map conv))
    (htoo : w.sched.1.flushForNewToo = false) (r : Core C Sv A) (hset : SameSettings r w.sched.1) (hr : r.qm.desired = []) (hneed : r.qm.need = [])
    (hidx : r.surveyIndex = (none, none)) (hshape : r.tiers.map List.length = w.sched.1.tiers.map List.length)
    (h0 : ∀ t ∈ w.sched.1.tiers ++ r.tiers, ∀ sv ∈ t, D.look sv = Feat.NObsCount.init) :
    let s := (Sim.run (V := Obs.Visit Obs) (env S M fuel conds mount (coreSched E X)) cfg n w).st
    ∃ vs : List (Obs.Visit Obs), s.result = vs.map some ∧ (vs ≠ [] → (vs.map Obs.Visit.mjd).Nodup → (∀ b ∈ c.band, Feat.OneLetter b) → (∀ v ∈ vs, Feat.OneLetter (madeRow v).band) →
      ∀ tab : List Obs, tab.Perm (vs.map told) → ∃ r' ev, r.addArr E tab = .ok (r', ev) ∧ (∀ (c : C) (cfg2 : Sim.Cfg) (m : ℕ),
        let old := Sim.run (V := Obs.Visit Obs) (env S M fuel conds mount (coreSched E X)) cfg2 m { s.w with sched := (s.w.sched.1.flush.update E c, s.w.sched.2) }
        let new := Sim.run (V := Obs.Visit Obs) (env S M fuel conds mount (coreSched E X)) cfg2 m { s.w with sched := (Core.update E { r' with counter := s.w.sched.1.counter } c, s.w.sched.2) }
        new.kind = old.kind ∧ new.st.result = old.st.result ∧ new.st.mjd = old.st.mjd ∧ new.st.w.obs = old.st.w.obs ∧ new.st.w.raised = old.st.w.raised)) := by
  intro s
  have hconst : ∀ (T : List (List Sv)), (∀ t ∈ T, ∀ sv ∈ t, D.look sv = Feat.NObsCount.init) →
      (T.map fun t => t.map D.look) = (T.map List.length).map fun k => List.replicate k Feat.NObsCount.init := by
    intro T hT
    rw [List.map_map]
    apply List.map_congr_left
    intro t ht
    rw [Function.comp, List.map_congr_left (hT t ht)]
    simp
  have hsame : (r.tiers.map fun t => t.map D.look) = w.sched.1.tiers.map fun t => t.map D.look := by
    rw [hconst _ fun t ht => h0 t (List.mem_append_right _ ht), hconst _ fun t ht => h0 t (List.mem_append_left _ ht), hshape]
  obtain ⟨vs, hres, hall⟩ := C257_resume_partial S hn hd M hM fuel conds mount D hq X hX cfg hstep h1 h2 n w htoo r hset hr hneed hidx hsame
  obtain ⟨vs', hres', hc, -⟩ := restart_each S hn hd M hM fuel conds mount E D.toBatcher X hX cfg hstep h1 h2 n w conv hconv (Feat.NObsCount.one c) hone (Feat.NObsCount.init) r hshape h0
  have hvv : vs' = vs := List.map_injective_iff.2 (Option.some_injective _) (hres'.symm.trans hres)
  subst hvv
  refine ⟨vs', hres, fun hne hnd hb1 hb2 => hall hne hnd ?_⟩
  intro t ht sv hsv
  have hlet : Feat.Letters c.band (vs'.map fun v => conv (madeRow v)) := by
    refine ⟨hb1, ?_⟩
    intro v hv
    obtain ⟨u, hu, rfl⟩ := List.mem_map.1 hv
    rw [(hconv _).2.2.1]
    exact hb2 u hu
  rw [h0 t (List.mem_append_right _ ht) sv hsv, hbatch, List.map_map, show D.hear = fun f o => Feat.NObsCount.one c f (conv o) from by funext f o; exact hone f o, foldl_conv, List.map_map]
  have := C33_count_partial c [] (vs'.map fun v => conv (madeRow v)) hc hlet (by simp)
  rw [List.foldl_nil, List.nil_append] at this
  exact this

end

/-- Surveys that only count meet what C257 asks for. -/
def countDetermined : Determined countEnv Feat.NObsCount where
  toBatcher := countBatcher
  value f _ := [.fin f.count]
  rows _ _ := [{ targetId := 0, band := "r" }]
  times _ := none
  value_eq _ _ := rfl
  rows_eq _ _ := rfl
  times_eq _ := rfl

theorem count_noMemory : NoMemory countEnv.q := ⟨fun _ _ => rfl, fun _ _ _ => rfl⟩

/-- The same surveys with a queue that remembers visits: after two visits it masks the whole sky. -/
def rememberEnv : Env ToyC Feat.NObsCount ℕ where
  q := { mjdOf := ToyC.mjd, reward := fun n _ => if n < 2 then [.fin 0, .fin 0] else [.ninf, .ninf], hpid := fun _ _ _ => 0,
         detail := fun a _ l => (l, a), addObs := fun a _ => a + 1, addArr := fun a l => a + l.length }
  sv := countEnv.sv
  toos := ToyC.toos

/-- A simulation in two parts: the number of visits of the first part and of the second with the old scheduler, flushed, and with a new one that was told of the visits, and
the times of the visits in the second parts. -/
def resumeShow {A : Type} (E : Env ToyC Feat.NObsCount A) (a : A) : ℕ × List ℚ × List ℚ :=
  let e := env toySite wholeKin 20 (fun s => (⟨s.mjd, none⟩ : ToyC)) (fun k _ => k) (coreSched E wholeRest)
  let cfg : Sim.Cfg := { duration := 1 / 25, startSize := 2, appendSize := 2 }
  let r : Core ToyC Feat.NObsCount A := Core.init a [[Feat.NObsCount.init, Feat.NObsCount.init]] 5 false []
  let s := (Sim.run (V := Obs.Visit Obs) e cfg 20 ⟨⟨0, 0, 40⟩, (r, ()), false⟩).st
  let c : ToyC := ⟨s.mjd, none⟩
  let old := Sim.run (V := Obs.Visit Obs) e cfg 20 { s.w with sched := (s.w.sched.1.flush.update E c, ()) }
  let new := match r.addArr E ((s.result.filterMap id).reverse.map told) with
    | .ok (r', _) => (Sim.run (V := Obs.Visit Obs) e cfg 20 { s.w with sched := (Core.update E { r' with counter := s.w.sched.1.counter } c, ()) }).st.result
    | .error _ => []
  (s.result.length, (old.st.result.filterMap id).map Obs.Visit.mjd, (new.filterMap id).map Obs.Visit.mjd)

/-- Two visits are made, and two more with either scheduler, at the same times. -/
example : resumeShow countEnv () = (2, [209 / 4320, 13 / 180], [209 / 4320, 13 / 180]) := by decide +kernel

/-- A table with visits in the order of time is for these surveys the same as one visit after the other. -/
example : countDetermined.batch Feat.NObsCount.init [{ targetId := 1, band := "r" }, { targetId := 2, band := "r" }]
    = [({ targetId := 1, band := "r" } : Obs), { targetId := 2, band := "r" }].foldl countDetermined.hear Feat.NObsCount.init := by decide +kernel

/-- C257 is violated with a queue that remembers: an empty queue does not tell its masks of a table (queue_manager.py 80-91), so the restarted scheduler goes on
where the old one makes no visit. -/
theorem C257_queue_violated : resumeShow rememberEnv 0 = (2, [], [209 / 4320, 13 / 180]) := by decide +kernel

end Verif
