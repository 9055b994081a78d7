import Verif.Props.Core

/-!
Properties C60, C61: every survey hears everything; what a handed-out visit looks like.
-/

namespace Verif
variable {C Sv A : Type}
open Core

/-- A way to look at a survey's state that records, in order, the completed visits and the
conditions it has been told of, and that asking for rewards or visits does not change. -/
structure Recorder (E : Env C Sv A) where
  seen : Sv → List Obs
  conds : Sv → List C
  reward_keeps : ∀ s c, seen (E.sv.reward s c).2 = seen s ∧ conds (E.sv.reward s c).2 = conds s
  gen_keeps : ∀ s c, seen (E.sv.gen s c).2 = seen s ∧ conds (E.sv.gen s c).2 = conds s
  addObs_seen : ∀ s o, seen (E.sv.addObs s o) = seen s ++ [o] ∧ conds (E.sv.addObs s o) = conds s
  addArr_seen : ∀ s l, seen (E.sv.addArr s l) = seen s ++ l ∧ conds (E.sv.addArr s l) = conds s
  update_conds : ∀ s c, seen (E.sv.update s c) = seen s ∧ conds (E.sv.update s c) = conds s ++ [c]

/-- The visits reported in a call: with the band filled in; a batch in time order. -/
def toldVisits : Op C → List Obs
  | .add o => [backfillBand o]
  | .addArr [o] => [backfillBand o]
  | .addArr l => (l.map backfillBand).insertionSort (fun a b => a.mjd ≤ b.mjd)
  | _ => []

/-- The conditions given in a call. -/
def toldConditions : Op C → List C
  | .update c => [c]
  | _ => []

/-- The records of all surveys, tier by tier. -/
def records {E : Env C Sv A} (R : Recorder E) (s : Core C Sv A) : List (List (List Obs × List C)) :=
  s.tiers.map (fun t => t.map (fun v => (R.seen v, R.conds v)))

theorem set_self_of_getElem? {α : Type} (l : List α) (i : Nat) (a : α) (h : l[i]? = some a) : l.set i a = l := by
  apply List.ext_getElem?
  intro j
  by_cases hij : i = j
  · subst hij
    have hlt : i < l.length := (List.getElem?_eq_some_iff.mp h).1
    rw [List.getElem?_set_self hlt, h]
  · rw [List.getElem?_set_ne hij]

theorem evalTier_records {E : Env C Sv A} (R : Recorder E) (c : C) (t : List Sv) :
    (evalTier E.sv c t).2.map (fun v => (R.seen v, R.conds v)) = t.map (fun v => (R.seen v, R.conds v)) := by
  simp only [evalTier, List.map_map]
  apply List.map_congr_left
  intro v _
  simp only [Function.comp, R.reward_keeps]

theorem tierLoop_records {E : Env C Sv A} (R : Recorder E) (c : C) (ns : Nat) (tiers : List (List Sv))
    {rs : List XReal} {brk : Option Nat} {tiers' : List (List Sv)}
    (h : tierLoop E.sv c ns tiers = .ok (rs, brk, tiers')) :
    tiers'.map (fun t => t.map (fun v => (R.seen v, R.conds v))) =
      tiers.map (fun t => t.map (fun v => (R.seen v, R.conds v))) := by
  rcases tierLoop_spec E.sv c ns tiers h with ⟨_, _, ht, _⟩ | ⟨k, t, _, hk, _, _, _, ht⟩
  · rw [ht, List.map_map]
    apply List.map_congr_left
    intro t _
    exact evalTier_records R c t
  · have hsplit : tiers = tiers.take k ++ t :: tiers.drop (k + 1) := by
      have hlt : k < tiers.length := (List.getElem?_eq_some_iff.mp hk).1
      have hget : tiers[k] = t := (List.getElem?_eq_some_iff.mp hk).2
      rw [← hget]
      simp
    rw [ht]
    conv_rhs => rw [hsplit]
    rw [List.map_append, List.map_append, List.map_cons, List.map_cons, List.map_map, evalTier_records]
    congr 1
    apply List.map_congr_left
    intro t _
    exact evalTier_records R c t

theorem fillQueue_records {E : Env C Sv A} (R : Recorder E) {s s' : Core C Sv A} {ev : List Ev}
    (h : s.fillQueue E = .ok (s', ev)) : records R s' = records R s := by
  unfold fillQueue at h
  split at h
  · cases h
  · rename_i c hc
    split at h
    · cases h
    · rename_i rs brk tiers' hl
      have hr := tierLoop_records R c 0 s.tiers hl
      simp only at h
      split at h
      · cases h
      · split at h
        · cases h; exact hr
        · split at h
          · rename_i i0 i1 _
            split at h
            · cases h
            · rename_i tier hti
              split at h
              · cases h
              · rename_i sv hsv
                split at h
                · cases h
                · cases h
                  unfold records
                  simp only
                  rw [List.map_set, List.map_set]
                  have h1 : (tier.map (fun v => (R.seen v, R.conds v)))[i1]? = some (R.seen (E.sv.gen sv c).2, R.conds (E.sv.gen sv c).2) := by
                    rw [List.getElem?_map, hsv, (R.gen_keeps sv c).1, (R.gen_keeps sv c).2]; rfl
                  rw [set_self_of_getElem? _ _ _ h1]
                  have h2 : (tiers'.map (fun t => t.map (fun v => (R.seen v, R.conds v))))[i0]? =
                      some (tier.map (fun v => (R.seen v, R.conds v))) := by
                    rw [List.getElem?_map, hti]; rfl
                  rw [set_self_of_getElem? _ _ _ h2]
                  exact hr
          · cases h

theorem step_records {E : Env C Sv A} (R : Recorder E) {s s' : Core C Sv A} {op : Op C}
    {out : Option (List Obs)} {ev : List Ev} (h : s.step E op = .ok (s', out, ev)) :
    records R s' = (records R s).map (fun t => t.map (fun r => (r.1 ++ toldVisits op, r.2 ++ toldConditions op))) := by
  have same : ∀ x : List (List (List Obs × List C)), x.map (fun t => t.map (fun r => (r.1 ++ ([] : List Obs), r.2 ++ ([] : List C)))) = x := by
    intro x; simp
  have addOne : ∀ o, records R (s.addObs E o).1 =
      (records R s).map (fun t => t.map (fun r => (r.1 ++ [backfillBand o], r.2 ++ ([] : List C)))) := by
    intro o
    unfold records Core.addObs
    simp only [List.map_map]
    apply List.map_congr_left
    intro t _
    simp only [Function.comp, List.map_map]
    apply List.map_congr_left
    intro v _
    simp only [Function.comp, R.addObs_seen, List.append_nil]
  cases op with
  | request m w =>
    obtain ⟨c, s1, ev1, _, hfirst, hrest⟩ := request_cases (m := m) h
    have h1 : records R s1 = records R s := by
      rcases hfirst with ⟨_, hf⟩ | ⟨_, rfl, _⟩
      · exact fillQueue_records R hf
      · rfl
    have : records R s' = records R s := by
      rcases hrest with ⟨_, rfl, _, _⟩ | ⟨_, _, rfl, _, _⟩ | ⟨_, _, s3, ev2, hf, rfl, _, _⟩
      · exact h1
      · exact h1
      · exact (fillQueue_records R hf).trans h1
    rw [this]; exact (same _).symm
  | add o => cases h; exact addOne o
  | addArr l =>
    simp only [step] at h
    split at h
    · cases h
    · rename_i s1 ev1 h1
      cases h
      unfold Core.addArr at h1
      split at h1
      · cases h1; exact addOne _
      · rename_i hne
        simp only at h1
        split at h1
        · cases h1
        · rename_i o os heq
          cases h1
          have ht : toldVisits (Op.addArr l : Op C) = (l.map backfillBand).insertionSort (fun a b => a.mjd ≤ b.mjd) := by
            unfold toldVisits
            split
            · rename_i heq; cases heq
            · rename_i x heq; cases heq; exact absurd rfl (hne x)
            · rename_i heq; cases heq; rfl
            · rename_i h; exact absurd rfl (h l)
          rw [ht]
          unfold records
          simp only [List.map_map]
          apply List.map_congr_left
          intro t _
          simp only [Function.comp, List.map_map]
          apply List.map_congr_left
          intro v _
          simp only [Function.comp, R.addArr_seen, toldConditions, List.append_nil]
  | flush => cases h; exact (same _).symm
  | append l => cases h; exact (same _).symm
  | mark o => cases h; exact (same _).symm
  | update c =>
    cases h
    have ht : (s.tooStep E c).tiers = s.tiers := by
      unfold tooStep
      split
      · split
        · rfl
        · simp only; split <;> rfl
      · rfl
    unfold records Core.update
    simp only [ht, List.map_map]
    apply List.map_congr_left
    intro t _
    simp only [Function.comp, List.map_map]
    apply List.map_congr_left
    intro v _
    simp only [Function.comp, R.update_conds, toldVisits, toldConditions, List.append_nil]
  | setCounter n => cases h; exact (same _).symm

/-- C60: after any history of calls, every survey in every tier has been told every reported
visit exactly once and every conditions object exactly once, in order. -/
theorem C60_surveys_hear_everything (E : Env C Sv A) (R : Recorder E) (s s' : Core C Sv A) (ops : List (Op C))
    (outs : List Obs) (evs : List Ev) (h : run E s ops = .ok (s', outs, evs)) :
    records R s' = (records R s).map (fun t => t.map (fun r =>
      (r.1 ++ ops.flatMap toldVisits, r.2 ++ ops.flatMap toldConditions))) := by
  induction ops generalizing s outs evs with
  | nil => cases h; simp
  | cons op ops ih =>
    unfold run at h
    split at h
    · cases h
    · rename_i s1 out ev h1
      split at h
      · cases h
      · rename_i s2 outs' evs' h2
        cases h
        rw [ih s1 outs' evs' h2, step_records R h1, List.map_map]
        apply List.map_congr_left
        intro t _
        simp only [Function.comp, List.map_map]
        apply List.map_congr_left
        intro r _
        simp

/-- C60: the conditions used for the next decisions are those of the last update. -/
theorem C60_latest_conditions (E : Env C Sv A) (s s' : Core C Sv A) (ops : List (Op C))
    (outs : List Obs) (evs : List Ev) (h : run E s ops = .ok (s', outs, evs)) :
    s'.conditions = ((ops.flatMap toldConditions).getLast?).or s.conditions := by
  induction ops generalizing s outs evs with
  | nil => cases h; simp
  | cons op ops ih =>
    unfold run at h
    split at h
    · cases h
    · rename_i s1 out ev h1
      split at h
      · cases h
      · rename_i s2 outs' evs' h2
        cases h
        rw [ih s1 outs' evs' h2]
        have hs : s1.conditions = ((toldConditions op).getLast?).or s.conditions := by
          cases op with
          | request m w =>
            obtain ⟨c, t1, ev1, _, hfirst, hrest⟩ := request_cases (m := m) h1
            have ht : t1.conditions = s.conditions := by
              rcases hfirst with ⟨_, hf⟩ | ⟨_, rfl, _⟩
              · exact (fillQueue_frame hf).1
              · rfl
            rcases hrest with ⟨_, rfl, _, _⟩ | ⟨_, _, rfl, _, _⟩ | ⟨_, _, s3, ev2, hf, rfl, _, _⟩
            · exact ht
            · exact ht
            · exact ((fillQueue_frame hf).1).trans ht
          | add o => cases h1; rfl
          | addArr l =>
            simp only [step] at h1
            split at h1
            · cases h1
            · rename_i t1 e1 ht
              cases h1
              unfold Core.addArr at ht
              split at ht
              · cases ht; rfl
              · simp only at ht
                split at ht
                · cases ht
                · cases ht; rfl
          | flush => cases h1; rfl
          | append l => cases h1; rfl
          | mark o => cases h1; rfl
          | update c => cases h1; rfl
          | setCounter n => cases h1; rfl
        rw [hs, List.flatMap_cons]
        cases hl : (ops.flatMap toldConditions).getLast? with
        | none =>
          have : ops.flatMap toldConditions = [] := List.getLast?_eq_none_iff.mp hl
          rw [this]; simp
        | some c => rw [List.getLast?_append, hl]; rfl

/-- A recorder exists: surveys that are nothing but a log. -/
def logEnv : Env ToyC (List Obs × List ToyC) Unit where
  q := toyE.q
  sv := { reward := fun s _ => ([.fin s.1.length], s), gen := fun s _ => ([{ targetId := 0, band := "r" }], s),
          addObs := fun s o => (s.1 ++ [o], s.2), addArr := fun s l => (s.1 ++ l, s.2),
          update := fun s c => (s.1, s.2 ++ [c]), scheduled := fun _ => none }
  toos := ToyC.toos

example : Recorder logEnv where
  seen := Prod.fst
  conds := Prod.snd
  reward_keeps := fun _ _ => ⟨rfl, rfl⟩
  gen_keeps := fun _ _ => ⟨rfl, rfl⟩
  addObs_seen := fun _ _ => ⟨rfl, rfl⟩
  addArr_seen := fun _ _ => ⟨rfl, rfl⟩
  update_conds := fun _ _ => ⟨rfl, rfl⟩

example : (match run logEnv (init () [[([], []), ([], [])]] 0 true []) [.update ⟨60000, none⟩, .request none false,
      .add { targetId := 0, filter := "r_1" }, .addArr [{ targetId := 9, mjd := 2 }, { targetId := 8, mjd := 1 }]] with
    | .ok (s, _, _) => s.tiers.map (fun t => t.map (fun v => (v.1.map (fun o => (o.targetId, o.band)), v.2.length)))
    | .error _ => []) = [[([(0, "r"), (9 - 1, ""), (9, "")], 1), ([(0, "r"), (8, ""), (9, "")], 1)]] := by
  decide +kernel

/-- C61: every visit handed out carries its scheduler note in the `note` column, and the note
is the only thing the scheduler changes in what the queue manager selected. -/
theorem C61_note (E : Env C Sv A) (s s' : Core C Sv A) (m : Option ℚ) (w : Bool) (l : List Obs) (ev : List Ev)
    (ha : s.qm.Aligned) (h : s.request E m w = .ok (s', some l, ev)) :
    l ≠ [] ∧ (∀ o ∈ l, o.note = o.schedulerNote) ∧
    ∃ (c : C) (q : QM A), s.conditions = some c ∧ rows q = rows s'.qm ∧
      List.Forall₂ (fun o o' : Obs => { o' with note := o.note } = o) (q.request E.q c w).1 l := by
  obtain ⟨c, q, hc, _, hd, hn, _, rfl, hne⟩ := request_source ha h
  refine ⟨hne, ?_, c, q, hc, by unfold rows; rw [hd, hn], ?_⟩
  · intro o ho
    obtain ⟨o', _, rfl⟩ := List.mem_map.mp ho
    rfl
  · rw [List.forall₂_map_right_iff]
    apply List.forall₂_same.mpr
    intro o _; rfl

end Verif
