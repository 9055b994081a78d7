import Verif.Props.Whole
import Verif.Model.SimRewards
import Verif.Lemmas.SimProject

/-!
Property C210: tables of rewards kept during a simulation.
-/

namespace Verif

open Whole Core

section
variable {C B Sv A H K : Type}

/-- The world without the kept tables. -/
def dropKept (w : World ((Core C Sv A × H) × Rwd.Kept) K) : World (Core C Sv A × H) K := ⟨w.obs, w.sched.1, w.raised⟩

theorem coreRequest_conditions {E : Env C Sv A} {s s' : Core C Sv A} {x : ℚ} {r : Option Obs} (h : coreRequest E s x = some (s', r)) :
    ∃ c, s.conditions = some c := by
  unfold coreRequest at h
  cases hr : s.request E (some x) false with
  | error e => rw [hr] at h; cases h
  | ok p =>
    obtain ⟨s1, l, ev⟩ := p
    obtain ⟨c, _, _, hc, _⟩ := request_cases hr
    exact ⟨c, hc⟩

theorem rwd_request_none {E : Env C Sv A} {X : Rest H C B} {keep : Bool} {tick : ℕ → ℤ} {u : (Core C Sv A × H) × Rwd.Kept} {x : ℚ}
    (h : coreRequest E u.1.1 x = none) : Rwd.request E X keep tick u x = none := by
  have : (coreSched E X).request u.1 x = none := by
    show (coreRequest E u.1.1 x).map _ = none
    rw [h]; rfl
  unfold Rwd.request
  rw [this]

theorem rwd_request_some {E : Env C Sv A} {X : Rest H C B} {keep : Bool} {tick : ℕ → ℤ} {u : (Core C Sv A × H) × Rwd.Kept} {x : ℚ} {s' : Core C Sv A}
    {r : Option Obs} {c : C} (h : coreRequest E u.1.1 x = some (s', r)) (hc : u.1.1.conditions = some c) :
    Rwd.request E X keep tick u x
      = some (((s', u.1.2), Rwd.look keep tick { u.2 with fills := u.2.fills ++ Rwd.fillsOf E u.1.1 c }), r) := by
  have : (coreSched E X).request u.1 x = some ((s', u.1.2), r) := by
    show (coreRequest E u.1.1 x).map _ = _
    rw [h]; rfl
  unfold Rwd.request
  rw [this, hc]

theorem rwd_project (S : Obs.Site) (M : Obs.Kin K Obs) (fuel : ℕ) (conds : Obs.St K → C) (mount : K → B → K) (E : Env C Sv A) (X : Rest H C B) (keep : Bool)
    (tick : ℕ → ℤ) :
    Sim.Project (env S M fuel conds mount (Rwd.sched E X keep tick)) (env S M fuel conds mount (coreSched E X)) dropKept := by
  refine ⟨fun _ => rfl, fun _ _ => rfl, fun _ => rfl, fun _ => rfl, fun _ _ => rfl, fun _ => rfl, ?_, ?_, fun _ _ => rfl, fun _ _ => rfl, fun _ _ => rfl,
    fun _ => rfl, fun _ _ => rfl, fun _ _ => rfl⟩
  · intro w x
    show requestOf (coreSched E X) (dropKept w) x = (dropKept (requestOf (Rwd.sched E X keep tick) w x).1, (requestOf (Rwd.sched E X keep tick) w x).2)
    unfold requestOf
    have h1 : (coreSched E X).request (dropKept w).sched x = (coreRequest E w.sched.1.1 x).map fun r => ((r.1, w.sched.1.2), r.2) := rfl
    have h2 : (Rwd.sched E X keep tick).request w.sched x = Rwd.request E X keep tick w.sched x := rfl
    rw [h1, h2]
    cases h : coreRequest E w.sched.1.1 x with
    | none => rw [rwd_request_none h]; rfl
    | some p =>
      obtain ⟨s', r⟩ := p
      obtain ⟨c, hc⟩ := coreRequest_conditions h
      rw [rwd_request_some h hc]
      rfl
  · intro w v
    show observeOf S M fuel (dropKept w) v = (dropKept (observeOf S M fuel w v).1, (observeOf S M fuel w v).2)
    unfold observeOf
    have e : (dropKept w).obs = w.obs := rfl
    rw [e]
    cases Obs.observe S M fuel w.obs v.target with
    | error e => rfl
    | ok p => rfl

/-- C210: keeping tables of rewards changes nothing in a simulation: the same visits are returned, and it ends in the same way. -/
theorem C210_same (S : Obs.Site) (M : Obs.Kin K Obs) (fuel : ℕ) (conds : Obs.St K → C) (mount : K → B → K) (E : Env C Sv A) (X : Rest H C B) (keep : Bool)
    (tick : ℕ → ℤ) (cfg : Sim.Cfg) (n : ℕ) (w : World ((Core C Sv A × H) × Rwd.Kept) K) :
    (Sim.run (V := Obs.Visit Obs) (env S M fuel conds mount (coreSched E X)) cfg n (dropKept w)).summary
      = (Sim.run (V := Obs.Visit Obs) (env S M fuel conds mount (Rwd.sched E X keep tick)) cfg n w).summary := by
  rw [Sim.run_project (rwd_project S M fuel conds mount E X keep tick)]
  cases Sim.run (V := Obs.Visit Obs) (env S M fuel conds mount (Rwd.sched E X keep tick)) cfg n w <;> rfl

/-- The ids in a queue. -/
abbrev idsOf (q : QM A) : List Int := q.desired.map Obs.targetId

theorem qrequest_ids {E : Env C Sv A} (hdet : DetKeepsIds E.q) (q : QM A) (c : C) :
    idsOf (q.request E.q c false).2 = idsOf q ∧ ∀ o ∈ (q.request E.q c false).1, o.targetId ∈ idsOf q := by
  refine ⟨by unfold idsOf; rw [(qrequest_queue E.q q c false).1], ?_⟩
  have hsub : ∀ (l : List Nat), ∀ o ∈ l.filterMap (fun i => q.desired[i]?), o ∈ q.desired := by
    intro l o ho
    obtain ⟨i, -, hi⟩ := List.mem_filterMap.1 ho
    exact List.mem_of_getElem? hi
  intro o ho
  unfold QM.request at ho
  dsimp only at ho
  generalize (if false = true then _ else _ : List Nat) = ix at ho
  by_cases hlen : (ix.filterMap (fun i => q.desired[i]?)).length > 0
  · rw [if_pos hlen] at ho
    obtain ⟨o', ho', hk⟩ := hdet _ _ _ o ho
    exact List.mem_map.2 ⟨o', hsub _ _ ho', hk⟩
  · rw [if_neg hlen] at ho
    exact List.mem_map.2 ⟨o, hsub _ _ ho, rfl⟩

/-- What a request does to the queue, and where its visit is from. -/
theorem request_fills {E : Env C Sv A} (hdet : DetKeepsIds E.q) {s s' : Core C Sv A} {x : ℚ} {r : Option Obs} {c : C} (hc : s.conditions = some c)
    (h : coreRequest E s x = some (s', r)) :
    (Rwd.fillsOf E s c = [] → s.qm.nonePending = false ∧ idsOf s'.qm = idsOf s.qm) ∧
    (∀ ids, (Rwd.fillsOf E s c).getLast? = some ids → idsOf s'.qm = ids) ∧
    ∀ o ∈ r, o.targetId ∈ idsOf s'.qm := by
  unfold coreRequest at h
  cases hr : s.request E (some x) false with
  | error e => rw [hr] at h; cases h
  | ok p =>
    obtain ⟨s2, l, ev⟩ := p
    rw [hr] at h
    have h : some (s2, l.bind List.head?) = some (s', r) := h
    cases h
    obtain ⟨c', s1, ev1, hc', hfirst, hrest⟩ := request_cases hr
    rw [hc] at hc'
    cases hc'
    have hone : ∃ ok : Except Err (Core C Sv A × List Ev), (if s.qm.nonePending then s.fillQueue E else .ok (s, [])) = .ok (s1, ev1) := by
      rcases hfirst with ⟨hp, hf⟩ | ⟨hp, rfl, rfl⟩
      · rw [if_pos hp]; exact ⟨.ok (s1, ev1), hf⟩
      · rw [hp]; exact ⟨.ok (s1, []), rfl⟩
    obtain ⟨-, hone⟩ := hone
    have hfirst' : (s.qm.nonePending = true ∧ (if s.qm.nonePending then [idsOf s1.qm] else []) = [idsOf s1.qm]) ∨
        (s.qm.nonePending = false ∧ s1 = s ∧ (if s.qm.nonePending then [idsOf s1.qm] else []) = []) := by
      rcases hfirst with ⟨hp, -⟩ | ⟨hp, rfl, -⟩
      · left; exact ⟨hp, by rw [if_pos hp]⟩
      · right; exact ⟨hp, rfl, by rw [hp]; rfl⟩
    have hF : Rwd.fillsOf E s c = (if s1.qm.nonePending then (if s.qm.nonePending then [idsOf s1.qm] else [])
        else if (s1.qm.request E.q c false).1.length = 0 then
          match ({ s1 with qm := (s1.qm.request E.q c false).2.flush } : Core C Sv A).fillQueue E with
          | .error _ => (if s.qm.nonePending then [idsOf s1.qm] else [])
          | .ok (s3, _) => (if s.qm.nonePending then [idsOf s1.qm] else []) ++ [idsOf s3.qm]
        else (if s.qm.nonePending then [idsOf s1.qm] else [])) := by
      unfold Rwd.fillsOf
      rw [hone]
      rfl
    have hbase : ∀ q' : QM A, idsOf q' = idsOf s1.qm →
        ((if s.qm.nonePending then [idsOf s1.qm] else []) = [] → s.qm.nonePending = false ∧ idsOf q' = idsOf s.qm) ∧
        (∀ ids, (if s.qm.nonePending then [idsOf s1.qm] else []).getLast? = some ids → idsOf q' = ids) := by
      intro q' hq
      rcases hfirst' with ⟨hp, e⟩ | ⟨hp, e1, e⟩
      · rw [e]
        exact ⟨fun h => (by cases h), fun ids h => (by cases h; exact hq)⟩
      · rw [e]
        exact ⟨fun _ => ⟨hp, by rw [hq, e1]⟩, fun ids h => (by cases h)⟩
    have hhead : ∀ (q : QM A), ∀ o ∈ (some ((q.request E.q c false).1.map setNote)).bind List.head?, o.targetId ∈ idsOf q := by
      intro q o ho
      have ho : ((q.request E.q c false).1.map setNote).head? = some o := ho
      have := List.mem_of_head? ho
      obtain ⟨o1, ho1, rfl⟩ := List.mem_map.1 this
      exact (qrequest_ids hdet q c).2 o1 ho1
    rcases hrest with ⟨hp, rfl, rfl, -⟩ | ⟨hp, hne, rfl, rfl, -⟩ | ⟨hp, he, s3, ev2, hf, rfl, -, hout⟩
    · rw [hF, if_pos hp]
      exact ⟨(hbase _ rfl).1, (hbase _ rfl).2, by rintro o ⟨⟩⟩
    · have hl : ¬ (s1.qm.request E.q c false).1.length = 0 := fun e => hne (List.length_eq_zero_iff.1 e)
      rw [hF, if_neg (by rw [hp]; simp), if_neg hl]
      have := (qrequest_ids hdet s1.qm c).1
      exact ⟨(hbase _ this).1, (hbase _ this).2, fun o ho => by rw [this]; exact hhead _ o ho⟩
    · have hl : (s1.qm.request E.q c false).1.length = 0 := by rw [he]; rfl
      rw [hF, if_neg (by rw [hp]; simp), if_pos hl, hf]
      have := (qrequest_ids hdet s3.qm c).1
      refine ⟨fun e => absurd e (by simp), ?_, ?_⟩
      · intro ids h
        rw [List.getLast?_append] at h
        have h : some (idsOf s3.qm) = some ids := h
        cases h
        exact this
      · rcases hout with ⟨-, rfl⟩ | ⟨-, rfl⟩
        · rintro o ⟨⟩
        · intro o ho
          rw [this]
          exact hhead _ o ho

/-- A visit and its stamp: the stamp is the time of a fill whose table was kept, and that fill put the visit into the queue. -/
def PairedWith (tick : ℕ → ℤ) (k : Rwd.Kept) (v : Obs.Visit Obs) (p : ℚ × Option ℤ) : Prop :=
  p.1 = v.mjd ∧ ∃ j ids, p.2 = some (tick j) ∧ k.fills[j]? = some ids ∧ v.target.targetId ∈ ids ∧ some j ∈ k.tables

/-- What the kept tables hold during a simulation. -/
structure KeptWell (tick : ℕ → ℤ) (p : World ((Core C Sv A × H) × Rwd.Kept) K × List (Sim.Ev (Obs.Visit Obs) C B)) : Prop where
  /-- before the first request, or the last fill is the last one looked at -/
  last : (p.1.sched.2.last = none ∧ p.1.sched.2.fills = [] ∧ p.1.sched.2.tables = [] ∧ p.1.sched.1.1.qm.nonePending = true)
    ∨ (p.1.sched.2.fills ≠ [] ∧ p.1.sched.2.last = some (tick (p.1.sched.2.fills.length - 1))
      ∧ some (p.1.sched.2.fills.length - 1) ∈ p.1.sched.2.tables)
  queue : ∀ i ∈ idsOf p.1.sched.1.1.qm, ∃ ids, p.1.sched.2.fills.getLast? = some ids ∧ i ∈ ids
  order : ∃ js : List ℕ, p.1.sched.2.tables = js.map some ∧ js.Pairwise (· < ·) ∧ ∀ j ∈ js, j < p.1.sched.2.fills.length
  pairs : List.Forall₂ (PairedWith tick p.1.sched.2) (Sim.toldOf p.2) p.1.sched.2.assigned

theorem KeptWell.same {tick : ℕ → ℤ} {p q : World ((Core C Sv A × H) × Rwd.Kept) K × List (Sim.Ev (Obs.Visit Obs) C B)} (h : KeptWell tick p)
    {e : Sim.Ev (Obs.Visit Obs) C B} (h1 : q.2 = p.2 ++ [e]) (h2 : Sim.toldOf [e] = []) (h3 : q.1.sched.2 = p.1.sched.2)
    (h4 : ∀ i ∈ idsOf q.1.sched.1.1.qm, i ∈ idsOf p.1.sched.1.1.qm)
    (h5 : p.1.sched.1.1.qm.nonePending = true → q.1.sched.1.1.qm.nonePending = true) : KeptWell tick q := by
  have ht : Sim.toldOf q.2 = Sim.toldOf p.2 := by rw [h1, told_one _ _ h2]
  refine ⟨?_, ?_, ?_, ?_⟩
  · rw [h3]
    exact h.last.imp (fun ⟨a, b, c, d⟩ => ⟨a, b, c, h5 d⟩) id
  · rw [h3]
    exact fun i hi => h.queue i (h4 i hi)
  · rw [h3]; exact h.order
  · rw [h3, ht]; exact h.pairs

theorem paired_mono {tick : ℕ → ℤ} {k k' : Rwd.Kept} (hf : k.fills <+: k'.fills) (ht : ∀ j ∈ k.tables, j ∈ k'.tables) {v : Obs.Visit Obs} {p : ℚ × Option ℤ}
    (h : PairedWith tick k v p) : PairedWith tick k' v p := by
  obtain ⟨h1, j, ids, h2, h3, h4, h5⟩ := h
  refine ⟨h1, j, ids, h2, ?_, h4, ht _ h5⟩
  obtain ⟨t, e⟩ := hf
  rw [← e, List.getElem?_append_left (List.getElem?_eq_some_iff.1 h3).1]
  exact h3

/-- Looking at the scheduler after a request. -/
theorem look_kept {tick : ℕ → ℤ} (ht : StrictMono tick) {k : Rwd.Kept} {fs : List (List Int)} (hfs : fs ≠ [])
    (hl : (k.last = none ∧ k.fills = []) ∨ (k.fills ≠ [] ∧ k.last = some (tick (k.fills.length - 1)))) :
    Rwd.look true tick { k with fills := k.fills ++ fs } =
      { k with fills := k.fills ++ fs, tables := k.tables ++ [some ((k.fills ++ fs).length - 1)], last := some (tick ((k.fills ++ fs).length - 1)) } := by
  have hpos : 0 < fs.length := List.length_pos_iff.2 hfs
  have hemp : (k.fills ++ fs).isEmpty = false := by
    rw [Bool.eq_false_iff]; intro e
    rw [List.isEmpty_iff] at e
    exact hfs (List.append_eq_nil_iff.1 e).2
  have hs : Rwd.stamp true tick { k with fills := k.fills ++ fs } = tick ((k.fills ++ fs).length - 1) := by
    unfold Rwd.stamp; dsimp only; rw [hemp]; rfl
  have htab : Rwd.table true { k with fills := k.fills ++ fs } = some ((k.fills ++ fs).length - 1) := by
    unfold Rwd.table; dsimp only; rw [hemp]; rfl
  unfold Rwd.look
  rw [hs, htab]
  rw [if_pos]
  rcases hl with ⟨e, -⟩ | ⟨hne, e⟩
  · dsimp only; rw [e]; simp
  · dsimp only
    rw [e]
    intro e2
    have := ht.injective (Option.some.inj e2)
    rw [List.length_append] at this
    have h1 : 0 < k.fills.length := List.length_pos_iff.2 hne
    omega

theorem look_same {tick : ℕ → ℤ} {k : Rwd.Kept} (hne : k.fills ≠ []) (hl : k.last = some (tick (k.fills.length - 1))) :
    Rwd.look true tick { k with fills := k.fills ++ [] } = k := by
  have hemp : k.fills.isEmpty = false := by
    rw [Bool.eq_false_iff]; intro e
    exact hne (List.isEmpty_iff.1 e)
  have hk : ({ k with fills := k.fills ++ [] } : Rwd.Kept) = k := by simp
  have hs : Rwd.stamp true tick k = tick (k.fills.length - 1) := by unfold Rwd.stamp; rw [hemp]; rfl
  rw [hk]
  unfold Rwd.look
  rw [hs, if_neg (by rw [hl]; simp)]

/-- A request keeps the tables well, and its visit is from the last fill. -/
theorem KeptWell.request {E : Env C Sv A} (hdet : DetKeepsIds E.q) {tick : ℕ → ℤ} (ht : StrictMono tick)
    {p q : World ((Core C Sv A × H) × Rwd.Kept) K × List (Sim.Ev (Obs.Visit Obs) C B)} (h : KeptWell tick p) {s' : Core C Sv A} {x : ℚ} {r : Option Obs} {c : C}
    (hc : p.1.sched.1.1.conditions = some c) (hr : coreRequest E p.1.sched.1.1 x = some (s', r))
    (h1 : Sim.toldOf q.2 = Sim.toldOf p.2) (h2 : q.1.sched.1.1 = s')
    (h3 : q.1.sched.2 = Rwd.look true tick { p.1.sched.2 with fills := p.1.sched.2.fills ++ Rwd.fillsOf E p.1.sched.1.1 c }) :
    KeptWell tick q ∧ ∀ o ∈ r, ∃ ids, q.1.sched.2.fills.getLast? = some ids ∧ o.targetId ∈ ids := by
  obtain ⟨r1, r2, r3⟩ := request_fills hdet hc hr
  have key : KeptWell tick q := by
    by_cases hfs : Rwd.fillsOf E p.1.sched.1.1 c = []
    · obtain ⟨hp, hids⟩ := r1 hfs
      rcases h.last with ⟨-, -, -, hn⟩ | ⟨hne, hl, hm⟩
      · rw [hp] at hn; cases hn
      · rw [hfs, look_same hne hl] at h3
        refine ⟨Or.inr ?_, ?_, ?_, ?_⟩
        · rw [h3]; exact ⟨hne, hl, hm⟩
        · rw [h3, h2, hids]; exact h.queue
        · rw [h3]; exact h.order
        · rw [h3, h1]; exact h.pairs
    · have hl := look_kept ht hfs (h.last.imp (fun z => ⟨z.1, z.2.1⟩) (fun z => ⟨z.1, z.2.1⟩))
      rw [hl] at h3
      have hpos : 0 < (Rwd.fillsOf E p.1.sched.1.1 c).length := List.length_pos_iff.2 hfs
      refine ⟨Or.inr ?_, ?_, ?_, ?_⟩
      · rw [h3]
        exact ⟨fun e => hfs (List.append_eq_nil_iff.1 e).2, rfl, List.mem_append_right _ (List.mem_singleton.2 rfl)⟩
      · rw [h3, h2]
        intro i hi
        obtain ⟨ids, hids⟩ : ∃ ids, (Rwd.fillsOf E p.1.sched.1.1 c).getLast? = some ids := by
          cases hg : (Rwd.fillsOf E p.1.sched.1.1 c).getLast? with
          | none => exact absurd (List.getLast?_eq_none_iff.1 hg) hfs
          | some ids => exact ⟨ids, rfl⟩
        refine ⟨ids, ?_, r2 ids hids ▸ hi⟩
        dsimp only
        rw [List.getLast?_append, hids]
        rfl
      · rw [h3]
        obtain ⟨js, e1, e2, e3⟩ := h.order
        refine ⟨js ++ [(p.1.sched.2.fills ++ Rwd.fillsOf E p.1.sched.1.1 c).length - 1], ?_, ?_, ?_⟩
        · dsimp only; rw [e1, List.map_append]; rfl
        · rw [List.pairwise_append]
          refine ⟨e2, List.pairwise_singleton _ _, ?_⟩
          intro a ha b hb
          rw [List.mem_singleton] at hb
          subst hb
          have := e3 a ha
          rw [List.length_append]
          omega
        · intro j hj
          dsimp only
          rw [List.length_append]
          rcases List.mem_append.1 hj with hj | hj
          · have := e3 j hj; omega
          · rw [List.mem_singleton] at hj
            rw [hj, List.length_append]
            omega
      · rw [h1]
        have e := h.pairs
        have ea : q.1.sched.2.assigned = p.1.sched.2.assigned := by rw [h3]
        rw [ea]
        refine e.imp ?_
        intro v z hz
        refine paired_mono ?_ ?_ hz
        · rw [h3]; exact List.prefix_append _ _
        · rw [h3]; exact fun j hj => List.mem_append_left _ hj
  refine ⟨key, fun o ho => ?_⟩
  exact key.queue _ (h2 ▸ r3 o ho)

theorem kept_keeps (S : Obs.Site) (hn : Obs.Nights S.nights) (hd : Down.Ordered S.downs) (M : Obs.Kin K Obs) (hM : Obs.NonNeg M) (hK : KeepsTarget M) (fuel : ℕ)
    (conds : Obs.St K → C) (mount : K → B → K) (E : Env C Sv A) (hdet : DetKeepsIds E.q) (X : Rest H C B) (tick : ℕ → ℤ) (ht : StrictMono tick) (cfg : Sim.Cfg) :
    Sim.Keeps (env S M fuel conds mount (Rwd.sched E X true tick)).recorded cfg (KeptWell tick) (KeptWell tick)
      (fun v p => KeptWell tick p ∧ ∃ ids, p.1.sched.2.fills.getLast? = some ids ∧ v.target.targetId ∈ ids)
      (fun v p => KeptWell tick p ∧ ∃ ids, p.1.sched.2.fills.getLast? = some ids ∧ v.target.targetId ∈ ids) := by
  have hconds : ∀ w, KeptWell tick w → KeptWell tick ((env S M fuel conds mount (Rwd.sched E X true tick)).recorded.conds w).1 :=
    fun w h => h.same rfl rfl rfl (fun _ => id) id
  have hcheck : ∀ w x, KeptWell tick w → KeptWell tick ((env S M fuel conds mount (Rwd.sched E X true tick)).recorded.check w x).1 :=
    fun w x h => h.same rfl rfl rfl (fun _ => id) id
  have hupdate : ∀ w c, KeptWell tick w → KeptWell tick ((env S M fuel conds mount (Rwd.sched E X true tick)).recorded.update w c) := by
    intro w c h
    have hq : (w.1.sched.1.1.update E c).qm = w.1.sched.1.1.qm ∨ (w.1.sched.1.1.update E c).qm = w.1.sched.1.1.qm.flush := by
      show (w.1.sched.1.1.tooStep E c).qm = _ ∨ (w.1.sched.1.1.tooStep E c).qm = _
      unfold tooStep
      split
      · split
        · exact Or.inl rfl
        · dsimp only
          split
          · exact Or.inr rfl
          · exact Or.inl rfl
      · exact Or.inl rfl
    refine h.same rfl rfl rfl ?_ ?_
    · show ∀ i ∈ idsOf (w.1.sched.1.1.update E c).qm, _
      rcases hq with e | e
      · rw [e]; exact fun _ => id
      · rw [e]; intro i hi; cases hi
    · show _ → (w.1.sched.1.1.update E c).qm.nonePending = true
      rcases hq with e | e
      · rw [e]; exact id
      · rw [e]; intro _; rfl
  have hreq : ∀ (w : World ((Core C Sv A × H) × Rwd.Kept) K × List (Sim.Ev (Obs.Visit Obs) C B)) x, KeptWell tick w →
      KeptWell tick ((env S M fuel conds mount (Rwd.sched E X true tick)).recorded.request w x).1
      ∧ ∀ v ∈ ((env S M fuel conds mount (Rwd.sched E X true tick)).recorded.request w x).2,
        ∃ ids, ((env S M fuel conds mount (Rwd.sched E X true tick)).recorded.request w x).1.1.sched.2.fills.getLast? = some ids ∧ v.target.targetId ∈ ids := by
    intro w x h
    show KeptWell tick ((requestOf (Rwd.sched E X true tick) w.1 x).1, w.2 ++ [.request w.1.obs.mjd x (requestOf (Rwd.sched E X true tick) w.1 x).2]) ∧
      ∀ v ∈ (requestOf (Rwd.sched E X true tick) w.1 x).2, ∃ ids, (requestOf (Rwd.sched E X true tick) w.1 x).1.sched.2.fills.getLast? = some ids ∧ _
    unfold requestOf
    have h2 : (Rwd.sched E X true tick).request w.1.sched x = Rwd.request E X true tick w.1.sched x := rfl
    rw [h2]
    cases hr : coreRequest E w.1.sched.1.1 x with
    | none =>
      rw [rwd_request_none hr]
      exact ⟨h.same rfl rfl rfl (fun _ => id) id, by rintro v ⟨⟩⟩
    | some p =>
      obtain ⟨s', r⟩ := p
      obtain ⟨c, hc⟩ := coreRequest_conditions hr
      rw [rwd_request_some hr hc]
      obtain ⟨a, b⟩ := h.request hdet ht (q := ((⟨w.1.obs, ((s', w.1.sched.1.2), Rwd.look true tick { w.1.sched.2 with fills := w.1.sched.2.fills ++ Rwd.fillsOf E w.1.sched.1.1 c }), w.1.raised⟩ :
        World ((Core C Sv A × H) × Rwd.Kept) K), w.2 ++ [.request w.1.obs.mjd x (r.map asked)])) hc hr (told_one _ _ rfl) rfl rfl
      refine ⟨a, ?_⟩
      intro v hv
      cases r with
      | none => cases hv
      | some o =>
        have hv : some (asked o) = some v := hv
        cases hv
        exact b o rfl
  have hobs : ∀ (w : World ((Core C Sv A × H) × Rwd.Kept) K × List (Sim.Ev (Obs.Visit Obs) C B)) v,
      (KeptWell tick w ∧ ∃ ids, w.1.sched.2.fills.getLast? = some ids ∧ v.target.targetId ∈ ids) →
      KeptWell tick ((env S M fuel conds mount (Rwd.sched E X true tick)).recorded.observe w v).1
      ∧ ∀ v' ∈ ((env S M fuel conds mount (Rwd.sched E X true tick)).recorded.observe w v).2.1,
        ∃ ids, ((env S M fuel conds mount (Rwd.sched E X true tick)).recorded.observe w v).1.1.sched.2.fills.getLast? = some ids ∧ v'.target.targetId ∈ ids := by
    rintro w v ⟨h, ids, hl, hv⟩
    have hs : (observeOf S M fuel w.1 v).1.sched = w.1.sched := by
      unfold observeOf
      cases Obs.observe S M fuel w.1.obs v.target with
      | error e => rfl
      | ok r => rfl
    show KeptWell tick ((observeOf S M fuel w.1 v).1, w.2 ++ [.observe w.1.obs.mjd v (observeOf S M fuel w.1 v).1.obs.mjd
      (observeOf S M fuel w.1 v).2.1 (observeOf S M fuel w.1 v).2.2]) ∧ ∀ v' ∈ (observeOf S M fuel w.1 v).2.1,
        ∃ ids, (observeOf S M fuel w.1 v).1.sched.2.fills.getLast? = some ids ∧ v'.target.targetId ∈ ids
    refine ⟨h.same rfl rfl (by rw [hs]) (by rw [hs]; exact fun _ => id) (by rw [hs]; exact id), ?_⟩
    rw [hs]
    intro v' hv'
    refine ⟨ids, hl, ?_⟩
    unfold observeOf at hv'
    cases hob : Obs.observe S M fuel w.1.obs v.target with
    | error e => rw [hob] at hv'; cases hv'
    | ok r =>
      obtain ⟨s', r, nn⟩ := r
      rw [hob] at hv'
      have hv' : r = some v' := hv'
      subst hv'
      obtain ⟨-, -, -, -, -, -, -, -, k, hk⟩ := observe_some hn hd hM hob
      rw [(hK _ _ _ _ hk).1]
      exact hv
  refine ⟨hconds, hcheck, hupdate, fun w x h _ => h.same rfl rfl rfl (fun _ => id) id, fun w v h => h.same rfl rfl rfl (fun _ => id) id,
    fun w h => h.same rfl rfl rfl (fun i hi => by cases hi) (fun _ => rfl),
    fun w c h => h.same rfl rfl rfl (fun _ => id) id, fun w b h => h.same rfl rfl rfl (fun _ => id) id,
    fun w h => Sim.refresh_keeps hconds hcheck hupdate w h, ?_, ?_, ?_, ?_, ?_, ?_, ?_⟩
  · intro w u h hr
    have := (hreq w ((env S M fuel conds mount (Rwd.sched E X true tick)).recorded.clock w) h).1
    rw [hr] at this
    exact this
  · intro w u v h hr
    have := hreq w ((env S M fuel conds mount (Rwd.sched E X true tick)).recorded.clock w) h
    rw [hr] at this
    exact ⟨this.1, this.2 v rfl⟩
  · intro w v x nn h ho
    have := (hobs w v h).1
    rw [ho] at this
    exact this
  · intro w v x v' nn h ho
    have := hobs w v h
    rw [ho] at this
    exact ⟨this.1, this.2 v' rfl⟩
  · rintro w v ⟨h, h'⟩
    exact ⟨h.same rfl rfl rfl (fun _ => id) id, h'⟩
  · rintro w v x ⟨h, h'⟩ _
    exact ⟨h.same rfl rfl rfl (fun _ => id) id, h'⟩
  · rintro w v ⟨h, ids, hl, hv⟩
    have hne : w.1.sched.2.fills ≠ [] := by
      intro e; rw [e] at hl; cases hl
    rcases h.last with ⟨-, e, -, -⟩ | ⟨-, e1, e2⟩
    · exact absurd e hne
    · have hti : Sim.toldOf ((env S M fuel conds mount (Rwd.sched E X true tick)).recorded.add w v).2 = Sim.toldOf w.2 ++ [v] := by
        show Sim.toldOf (w.2 ++ [.add w.1.obs.mjd v]) = _
        rw [Sim.toldOf_append]
        rfl
      refine ⟨Or.inr ⟨hne, e1, e2⟩, ?_, h.order, ?_⟩
      · intro i hi
        refine h.queue i ?_
        have hi : i ∈ idsOf (w.1.sched.1.1.addObs E (told v)).1.qm := hi
        obtain ⟨o, ho, rfl⟩ := List.mem_map.1 hi
        refine List.mem_map.2 ⟨o, ?_, rfl⟩
        have ho : o ∈ (w.1.sched.1.1.qm.addObs E.q (backfillBand (told v))).desired := ho
        unfold QM.addObs at ho
        dsimp only at ho
        split at ho <;> exact ho
      · rw [hti]
        refine List.rel_append h.pairs (List.Forall₂.cons ⟨rfl, w.1.sched.2.fills.length - 1, ids, e1, ?_, hv, e2⟩ List.Forall₂.nil)
        rw [List.getLast?_eq_getElem?] at hl
        exact hl

theorem paired_keys {tick : ℕ → ℤ} {k : Rwd.Kept} {vs : List (Obs.Visit Obs)} {ps : List (ℚ × Option ℤ)} (h : List.Forall₂ (PairedWith tick k) vs ps) :
    ps.map Prod.fst = vs.map Obs.Visit.mjd := by
  induction h with
  | nil => rfl
  | cons h _ ih => rw [List.map_cons, List.map_cons, h.1, ih]

/-- Assignments to different keys all stay in a dictionary, in order. -/
theorem puts_nodup (l : List (ℚ × Option ℤ)) (h : (l.map Prod.fst).Nodup) : l.foldl Rwd.put [] = l := by
  have key : ∀ (l d : List (ℚ × Option ℤ)), ((d ++ l).map Prod.fst).Nodup → l.foldl Rwd.put d = d ++ l := by
    intro l
    induction l with
    | nil => intro d _; simp
    | cons p l ih =>
      intro d hd
      have hno : d.any (fun q => decide (q.1 = p.1)) = false := by
        rw [Bool.eq_false_iff]
        intro e
        obtain ⟨q, hq, e⟩ := List.any_eq_true.1 e
        rw [List.map_append, List.nodup_append] at hd
        exact hd.2.2 q.1 (List.mem_map.2 ⟨q, hq, rfl⟩) p.1 (by simp) (by simpa using e)
      rw [List.foldl_cons]
      have : Rwd.put d p = d ++ [p] := by unfold Rwd.put; rw [hno]; rfl
      rw [this, ih (d ++ [p]) (by simpa using hd)]
      simp
  simpa using key l [] (by simpa using h)

/-- C210, for a scheduler that keeps its tables and starts with an empty queue, where the visits have different times and there is at least one: the tables
returned are tables of fills of the queue, each once and in order, and each visit is given, in order, with its time and the time of the fill that put it into
the queue, whose table is among those returned. -/
theorem C210_rewards_partial (S : Obs.Site) (hn : Obs.Nights S.nights) (hd : Down.Ordered S.downs) (M : Obs.Kin K Obs) (hM : Obs.NonNeg M) (hK : KeepsTarget M)
    (fuel : ℕ) (conds : Obs.St K → C) (mount : K → B → K) (E : Env C Sv A) (hdet : DetKeepsIds E.q) (X : Rest H C B) (hX : ∀ h v, 0 ≤ (X.overhead h v).2)
    (tick : ℕ → ℤ) (ht : StrictMono tick) (cfg : Sim.Cfg) (hstep : 0 ≤ cfg.stepNone) (h1 : 0 < cfg.startSize) (h2 : 0 < cfg.appendSize) (n : ℕ)
    (w : World ((Core C Sv A × H) × Rwd.Kept) K) (hw : w.sched.1.1.qm.desired = [] ∧ w.sched.1.1.qm.need = []) (hk : w.sched.2 = {})
    (vs : List (Obs.Visit Obs)) (hne : vs ≠ [])
    (hvs : (Sim.run (V := Obs.Visit Obs) (env S M fuel conds mount (Rwd.sched E X true tick)) cfg n w).st.result = vs.map some)
    (hdist : (vs.map Obs.Visit.mjd).Nodup) :
    ∃ tables pairs,
      Rwd.returned vs.length (Sim.run (V := Obs.Visit Obs) (env S M fuel conds mount (Rwd.sched E X true tick)) cfg n w).st.w.sched.2 = some (some (tables, pairs))
      ∧ tables.Pairwise (· < ·)
      ∧ (∀ j ∈ tables, j < (Sim.run (V := Obs.Visit Obs) (env S M fuel conds mount (Rwd.sched E X true tick)) cfg n w).st.w.sched.2.fills.length)
      ∧ List.Forall₂ (fun v p => p.1 = v.mjd ∧ ∃ j ∈ tables, ∃ ids, p.2 = some (tick j) ∧ v.target.targetId ∈ ids
          ∧ (Sim.run (V := Obs.Visit Obs) (env S M fuel conds mount (Rwd.sched E X true tick)) cfg n w).st.w.sched.2.fills[j]? = some ids) vs pairs := by
  have Kc := whole_contract S hn hd M hM fuel conds mount (Rwd.sched E X true tick) (fun u v => hX _ _)
  obtain ⟨hres, hwd, htd⟩ := recorded_result (env S M fuel conds mount (Rwd.sched E X true tick)) cfg h1 h2 n w
  have key : KeptWell tick (Sim.run (V := Obs.Visit Obs) (env S M fuel conds mount (Rwd.sched E X true tick)).recorded cfg n (w, [])).st.w := by
    have h0 : ∀ p : World ((Core C Sv A × H) × Rwd.Kept) K × List (Sim.Ev (Obs.Visit Obs) C B), p.1.sched = w.sched → Sim.toldOf p.2 = [] → KeptWell tick p := by
      intro p hp ht
      have hp2 : p.1.sched.2 = {} := by rw [hp]; exact hk
      refine ⟨Or.inl ?_, ?_, ?_, ?_⟩
      · rw [hp2]
        refine ⟨rfl, rfl, rfl, ?_⟩
        rw [hp]
        unfold QM.nonePending
        rw [hw.2]
        rfl
      · rw [hp]
        unfold idsOf
        rw [hw.1]
        intro i hi
        cases hi
      · rw [hp2]
        exact ⟨[], rfl, List.Pairwise.nil, fun j hj => absurd hj List.not_mem_nil⟩
      · rw [ht, hp2]
        exact List.Forall₂.nil
    refine Sim.run_keeps (Sim.recorded_contract Kc) hstep (kept_keeps S hn hd M hM hK fuel conds mount E hdet X tick ht cfg) n (w, []) ?_ ?_
    · intro _; exact h0 _ rfl rfl
    · intro m _; exact h0 _ rfl rfl
  rw [hwd]
  rw [hres] at hvs
  have hvs : Sim.completedOf (Sim.run (V := Obs.Visit Obs) (env S M fuel conds mount (Rwd.sched E X true tick)).recorded cfg n (w, [])).st.w.2 = vs :=
    List.map_injective_iff.2 (fun _ _ e => Option.some.inj e) hvs
  have hp := key.pairs
  rw [htd, hvs] at hp
  generalize (Sim.run (V := Obs.Visit Obs) (env S M fuel conds mount (Rwd.sched E X true tick)).recorded cfg n (w, [])).st.w = p at key hp ⊢
  obtain ⟨js, e1, e2, e3⟩ := key.order
  have hkeys : p.1.sched.2.assigned.map Prod.fst = vs.map Obs.Visit.mjd := by
    exact paired_keys hp
  have hfm : p.1.sched.2.tables.filterMap id = js := by rw [e1, List.filterMap_map]; simp
  have hjs : js ≠ [] := by
    intro e
    cases vs with
    | nil => exact hne rfl
    | cons v vs =>
      have hp := hp
      generalize p.1.sched.2.assigned = as at hp
      cases hp with
      | cons h _ =>
        obtain ⟨-, j, -, -, -, -, hm⟩ := h
        rw [e1, e] at hm
        cases hm
  refine ⟨js, p.1.sched.2.assigned, ?_, e2, e3, ?_⟩
  · unfold Rwd.returned
    rw [if_neg (fun e => hne (List.length_eq_zero_iff.1 e)), hfm, if_neg hjs, puts_nodup _ (by rw [hkeys]; exact hdist)]
  · refine hp.imp ?_
    rintro v z ⟨z1, j, ids, z2, z3, z4, z5⟩
    rw [e1] at z5
    obtain ⟨j', hj', e⟩ := List.mem_map.1 z5
    cases e
    exact ⟨z1, j, hj', ids, z2, z4, z3⟩

/-! ### Small simulations with tables -/

/-- A simulation with tables; fill `k` is made at time `10 k`. -/
def rwdEnv (keep : Bool) : Sim.Env (World ((Core ToyC ToySv Unit × Unit) × Rwd.Kept) ℚ) (Obs.Visit Obs) ToyC Unit :=
  env toySite wholeKin 20 (fun s => ⟨s.mjd, none⟩) (fun k _ => k) (Rwd.sched toyE wholeRest keep (fun n => 10 * n))

def rwdStart (sv : ToySv) : World ((Core ToyC ToySv Unit × Unit) × Rwd.Kept) ℚ := ⟨⟨0, 0, 40⟩, ((Core.init () [[sv]] 5 true [], ()), {}), false⟩

/-- The ids of the visits made, the ids of the fills, and what is returned. -/
structure RwdOut where
  visits : List (Option Int)
  fills : List (List Int)
  returned : Option (Option (List ℕ × List (ℚ × Option ℤ)))
deriving DecidableEq

def rwdOut (o : Sim.Out (World ((Core ToyC ToySv Unit × Unit) × Rwd.Kept) ℚ) (Obs.Visit Obs)) :
    RwdOut :=
  ⟨o.st.result.map fun r => r.map fun v => v.target.targetId, o.st.w.sched.2.fills, Rwd.returned o.st.result.length o.st.w.sched.2⟩

/-- Two visits from each fill. -/
def pairSurvey : ToySv := ⟨[.fin 1], [{ targetId := 0, band := "r" }, { targetId := 0, band := "g" }], none⟩

example : rwdOut (Sim.run (rwdEnv true) { duration := 1 / 20, startSize := 2, appendSize := 2 } 20 (rwdStart pairSurvey))
    = ⟨[some 5, some 6, some 7], [[5, 6], [7, 8]], some (some ([0, 1], [(1 / 1440, some 0), (53 / 2160, some 0), (209 / 4320, some 10)]))⟩ := by
  decide +kernel

/-- The assumptions of C210 are met there. -/
example : StrictMono (fun n : ℕ => (10 * n : ℤ)) ∧ (rwdStart pairSurvey).sched.1.1.qm.desired = [] ∧ (rwdStart pairSurvey).sched.1.1.qm.need = []
    ∧ (∀ h v, 0 ≤ (wholeRest.overhead h v).2) := by
  refine ⟨fun a b h => ?_, rfl, rfl, fun _ _ => by norm_num [wholeRest]⟩
  show (10 * a : ℤ) < 10 * b
  omega

/-- C210 is violated by a scheduler that does not keep its rewards, which is the default: the simulation is run to its end, and then it raises. -/
theorem C210_unkept_violated :
    rwdOut (Sim.run (rwdEnv false) { duration := 1 / 20, startSize := 2, appendSize := 2 } 20 (rwdStart pairSurvey)) = ⟨[some 5, some 6, some 7], [[5, 6], [7, 8]], none⟩ := by
  decide +kernel

/-- C210 is violated by a simulation without visits: the queue was filled, and the tables are not returned. -/
theorem C210_novisits_violated :
    rwdOut (Sim.run (rwdEnv true) { duration := 1 / 200, startSize := 2, appendSize := 2 } 20 (rwdStart ⟨[.fin 1], [{ targetId := 0, ra := 3 }], none⟩))
      = ⟨[], [[5], [6]], some none⟩ := by
  decide +kernel

/-- C210 is violated when the queue manager turns down all of a new queue: the queue is filled a second time within the request, and the table of the first
fill is not returned. -/
theorem C210_twice_violated :
    rwdOut (Sim.run (rwdEnv true) { duration := 1 / 40, startSize := 2, appendSize := 2 } 20 (rwdStart ⟨[.fin 1], [{ targetId := 0, flushBy := 1 / 100 }], none⟩))
      = ⟨[some 5], [[5], [6], [7]], some (some ([0, 2], [(1 / 1440, some 0)]))⟩ := by
  decide +kernel

end
end Verif
