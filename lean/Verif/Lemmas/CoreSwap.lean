import Verif.Lemmas.CoreTrim

/-!
Schedulers whose tiers are related in a way that makes them choose the same visits.
-/

namespace Verif

open XReal

section
variable {C Sv Sv' A : Type} {T : List (List Sv') → List (List Sv) → Prop}

/-- Schedulers that differ in their tiers only, which are related; the place of the last survey chosen may differ as well. -/
structure SwapCore (T : List (List Sv') → List (List Sv) → Prop) (s' : Core C Sv' A) (s : Core C Sv A) : Prop where
  qm : s'.qm = s.qm
  tiers : T s'.tiers s.tiers
  counter : s'.counter = s.counter
  conditions : s'.conditions = s.conditions
  scheduled : s'.scheduled = s.scheduled
  flushToo : s'.flushForNewToo = s.flushForNewToo
  ids : s'.tooIds = s.tooIds
  dict : s'.bandToFilter = s.bandToFilter

/-- Both raise, or both answer the same and are related afterwards. -/
def SwapOut {β : Type} (T : List (List Sv') → List (List Sv) → Prop) (r' : Except Err (Core C Sv' A × β)) (r : Except Err (Core C Sv A × β)) : Prop :=
  match r', r with
  | .error _, .error _ => True
  | .ok x', .ok x => SwapCore T x'.1 x.1 ∧ x'.2 = x.2
  | _, _ => False

/-- Related tiers stay related and fill the queue with the same visits. -/
structure Swaps (E' : Env C Sv' A) (E : Env C Sv A) (T : List (List Sv') → List (List Sv) → Prop) : Prop where
  q : E'.q = E.q
  toos : E'.toos = E.toos
  fill : ∀ {s' : Core C Sv' A} {s : Core C Sv A}, SwapCore T s' s → SwapOut T (s'.fillQueue E') (s.fillQueue E)
  addObs : ∀ {ts' ts} o, T ts' ts → T (ts'.map (List.map fun v => E'.sv.addObs v o)) (ts.map (List.map fun v => E.sv.addObs v o))
  update : ∀ {ts' ts} c, T ts' ts → T (ts'.map (List.map fun v => E'.sv.update v c)) (ts.map (List.map fun v => E.sv.update v c))
  gather : ∀ {ts' ts} x, T ts' ts → Core.gatherScheduled E' ts' x = Core.gatherScheduled E ts x

variable {E' : Env C Sv' A} {E : Env C Sv A}

/-! ### What filling the queue does -/

/-- Filling the queue from the survey chosen: `pre` are the tiers before, `a` the surveys of the tier before it, `post` and `b` those after. -/
def Core.chosen (E : Env C Sv A) (s : Core C Sv A) (c : C) (pre : List (List Sv)) (a : List Sv) (sv : Sv) (b : List Sv) (post : List (List Sv)) :
    Except Err (Core C Sv A × List Ev) :=
  let φ : Sv → Sv := fun v => (E.sv.reward v c).2
  match fillFilters s.bandToFilter (tagIds s.counter (E.sv.gen (φ sv) c).1) with
  | .error e => .error e
  | .ok filled => .ok ({ s with tiers := pre.map (List.map φ) ++ (a.map φ ++ (E.sv.gen (φ sv) c).2 :: b.map φ) :: post, surveyIndex := (some pre.length, some a.length),
                                counter := s.counter + (E.sv.gen (φ sv) c).1.length, qm := s.qm.setQueue filled }, filled.map fun o => .assigned o.targetId)

theorem fillQueue_cases (E : Env C Sv A) {s : Core C Sv A} {c : C} (hc : s.conditions = some c) (hfull : ∀ t ∈ s.tiers, t ≠ []) (hne : s.tiers ≠ []) :
    ((∀ t ∈ s.tiers, ∀ v ∈ t, ¬ Feasible E.sv c v)
        ∧ s.fillQueue E = .ok (({ s with tiers := s.tiers.map (List.map fun v => (E.sv.reward v c).2) } : Core C Sv A).flush, []))
      ∨ ∃ pre a sv b post, s.tiers = pre ++ (a ++ sv :: b) :: post ∧ (∀ t ∈ pre, ∀ v ∈ t, ¬ Feasible E.sv c v) ∧ Feasible E.sv c sv
        ∧ (∀ v ∈ a ++ sv :: b, Feasible E.sv c v → leB (scalarReward (E.sv.reward v c).1) (scalarReward (E.sv.reward sv c).1) = true)
        ∧ (∀ v ∈ a, Feasible E.sv c v → ltB (scalarReward (E.sv.reward v c).1) (scalarReward (E.sv.reward sv c).1) = true)
        ∧ s.fillQueue E = s.chosen E c pre a sv b post := by
  obtain ⟨rs, brk, ts, hl, hr⟩ := tierLoop_total E.sv c s.tiers hfull 0
  obtain ⟨m, hm⟩ : ∃ m, nanmax rs = some m := by
    cases e : nanmax rs with
    | none => exact absurd (nanmax_none e) (hr hne)
    | some m => exact ⟨m, rfl⟩
  rcases tierLoop_spec E.sv c 0 s.tiers hl with ⟨-, hinf, ht, hdead⟩ | ⟨k, t, hb, hk, hbefore, halive, hrs, ht⟩
  · left
    refine ⟨hinf, ?_⟩
    rw [fillQueue_flush hc hl hm (dead_max hm (hdead hne)), ht]
    rfl
  · right
    obtain ⟨hklt, hkget⟩ := List.getElem?_eq_some_iff.1 hk
    have hsplit : s.tiers = s.tiers.take k ++ t :: s.tiers.drop (k + 1) := by
      rw [← hkget, ← List.drop_eq_getElem_cons hklt, List.take_append_drop]
    have hlenp : (s.tiers.take k).length = k := by rw [List.length_take]; omega
    have hal : ∃ r ∈ rs, ¬ Dead r := by
      rw [hrs]
      obtain ⟨v, hv, hfv⟩ := halive
      refine ⟨_, List.mem_map_of_mem hv, ?_⟩
      rw [← not_feasible_iff]
      exact not_not.2 hfv
    obtain ⟨i, hi⟩ := bestIndex_some hal
    obtain ⟨r, hri, hd, hmax, hfirst⟩ := bestIndex_spec hi hal
    rw [hrs] at hri hmax hfirst
    have hri : (t.map fun s => scalarReward (E.sv.reward s c).1)[i]? = some r := hri
    rw [List.getElem?_map] at hri
    obtain ⟨sv, hs, hsr⟩ := Option.map_eq_some_iff.1 hri
    obtain ⟨hlt, hget⟩ := List.getElem?_eq_some_iff.1 hs
    have htt : t = t.take i ++ sv :: t.drop (i + 1) := by
      rw [← hget, ← List.drop_eq_getElem_cons hlt, List.take_append_drop]
    have hlen : (t.take i).length = i := by rw [List.length_take]; omega
    refine ⟨s.tiers.take k, t.take i, sv, t.drop (i + 1), s.tiers.drop (k + 1), by rw [← htt]; exact hsplit, ?_, ?_, ?_, ?_, ?_⟩
    · intro t0 h0 v hv
      obtain ⟨i, hi⟩ := List.mem_iff_getElem?.1 h0
      obtain ⟨hi1, -⟩ := List.getElem?_eq_some_iff.1 hi
      rw [hlenp] at hi1
      rw [List.getElem?_take, if_pos hi1] at hi
      exact hbefore i hi1 t0 hi v hv
    · by_contra hn
      rw [not_feasible_iff, hsr] at hn
      exact hd hn
    · rw [← htt, hsr]
      intro v hv hf
      refine (hmax _ (List.mem_map_of_mem (f := fun s => scalarReward (E.sv.reward s c).1) hv)).resolve_left ?_
      intro e
      exact (not_feasible_iff E.sv c v).2 (.inl e) hf
    · rw [hsr]
      intro v hv hf
      obtain ⟨j, hj⟩ := List.mem_iff_getElem?.1 hv
      obtain ⟨hj1, -⟩ := List.getElem?_eq_some_iff.1 hj
      rw [hlen] at hj1
      rw [List.getElem?_take, if_pos hj1] at hj
      refine (hfirst j hj1 (scalarReward (E.sv.reward v c).1) ?_).resolve_left ?_
      · show (t.map fun s => scalarReward (E.sv.reward s c).1)[j]? = _
        rw [List.getElem?_map, hj]
        rfl
      · intro e
        exact (not_feasible_iff E.sv c v).2 (.inl e) hf
    · have hlenk : ((s.tiers.take k).map fun t => (evalTier E.sv c t).2).length = k := by rw [List.length_map, hlenp]
      have hq : ts[k]? = some (evalTier E.sv c t).2 := by
        rw [ht, List.getElem?_append_right (by rw [hlenk]), hlenk, Nat.sub_self]
        rfl
      have htier : (evalTier E.sv c t).2 = (t.take i).map (fun v => (E.sv.reward v c).2) ++ (E.sv.reward sv c).2 :: (t.drop (i + 1)).map fun v => (E.sv.reward v c).2 := by
        show t.map _ = _
        conv_lhs => rw [htt]
        rw [List.map_append, List.map_cons]
      have hs1 : (evalTier E.sv c t).2[i]? = some (E.sv.reward sv c).2 := by
        rw [htier, List.getElem?_append_right (by simp [hlen]), List.length_map, hlen, Nat.sub_self]
        rfl
      rw [hb, Nat.zero_add] at hl
      rw [fillQueue_take hc hl hm (alive_max hm hal) hi hq hs1]
      unfold Core.take Core.chosen
      dsimp only
      have hset : ts.set k ((evalTier E.sv c t).2.set i (E.sv.gen (E.sv.reward sv c).2 c).2)
          = ((s.tiers.take k).map fun t => (evalTier E.sv c t).2)
            ++ ((t.take i).map (fun v => (E.sv.reward v c).2) ++ (E.sv.gen (E.sv.reward sv c).2 c).2 :: (t.drop (i + 1)).map fun v => (E.sv.reward v c).2) :: s.tiers.drop (k + 1) := by
        rw [ht, List.set_append_right _ _ (by rw [hlenk]), hlenk, Nat.sub_self, List.set_cons_zero, htier,
          List.set_append_right _ _ (by simp [hlen]), List.length_map, hlen, Nat.sub_self, List.set_cons_zero]
      rw [hset, hlenp, hlen]
      rfl

theorem SwapCore.queue {s' : Core C Sv' A} {s : Core C Sv A} (h : SwapCore T s' s) {q' q : QM A} (hq : q' = q) : SwapCore T { s' with qm := q' } { s with qm := q } :=
  ⟨hq, h.tiers, h.counter, h.conditions, h.scheduled, h.flushToo, h.ids, h.dict⟩

theorem request_swap (h : Swaps E' E T) {s' : Core C Sv' A} {s : Core C Sv A} (ha : SwapCore T s' s) (x : Option ℚ) (whole : Bool) :
    SwapOut T (s'.request E' x whole) (s.request E x whole) := by
  unfold Core.request
  rw [ha.conditions]
  cases s.conditions with
  | none => trivial
  | some c =>
    dsimp only
    have hfirst : SwapOut T (if s'.qm.nonePending then s'.fillQueue E' else .ok (s', [])) (if s.qm.nonePending then s.fillQueue E else .ok (s, [])) := by
      rw [ha.qm]
      split_ifs
      · exact h.fill ha
      · exact ⟨ha, rfl⟩
    generalize (if s'.qm.nonePending then s'.fillQueue E' else .ok (s', [])) = r' at hfirst
    generalize (if s.qm.nonePending then s.fillQueue E else .ok (s, [])) = r at hfirst
    match r', r, hfirst with
    | .error _, .error _, _ => trivial
    | .ok (s1', ev'), .ok (s1, ev), ⟨h1, (hev : ev' = ev)⟩ =>
      subst hev
      dsimp only at h1 ⊢
      rw [h1.qm, h.q]
      by_cases hp : s1.qm.nonePending = true
      · rw [if_pos hp, if_pos hp]
        exact ⟨h1, rfl⟩
      · rw [if_neg hp, if_neg hp]
        by_cases hl : (s1.qm.request E.q c whole).1.length = 0
        · rw [if_pos hl, if_pos hl]
          have h2 := h.fill (h1.queue (q' := (s1.qm.request E.q c whole).2.flush) rfl)
          generalize ({ s1' with qm := (s1.qm.request E.q c whole).2.flush } : Core C Sv' A).fillQueue E' = r' at h2
          generalize ({ s1 with qm := (s1.qm.request E.q c whole).2.flush } : Core C Sv A).fillQueue E = r at h2
          match r', r, h2 with
          | .error _, .error _, _ => trivial
          | .ok (s3', ev3'), .ok (s3, ev3), ⟨h3, (hev3 : ev3' = ev3)⟩ =>
            subst hev3
            dsimp only at h3 ⊢
            rw [h3.qm]
            by_cases hl2 : (s3.qm.request E.q c whole).1.length = 0
            · rw [if_pos hl2, if_pos hl2]
              exact ⟨h3.queue rfl, rfl⟩
            · rw [if_neg hl2, if_neg hl2]
              exact ⟨h3.queue rfl, rfl⟩
        · rw [if_neg hl, if_neg hl]
          exact ⟨h1.queue rfl, rfl⟩

theorem addObs_swap (h : Swaps E' E T) {s' : Core C Sv' A} {s : Core C Sv A} (ha : SwapCore T s' s) (o : Obs) : SwapCore T (s'.addObs E' o).1 (s.addObs E o).1 := by
  refine ⟨?_, h.addObs _ ha.tiers, ?_, ha.conditions, ha.scheduled, ha.flushToo, ha.ids, ha.dict⟩
  · show s'.qm.addObs E'.q _ = s.qm.addObs E.q _
    rw [ha.qm, h.q]
  · show Core.bump s'.counter _ = Core.bump s.counter _
    rw [ha.counter]

theorem flush_swap {s' : Core C Sv' A} {s : Core C Sv A} (ha : SwapCore T s' s) : SwapCore T s'.flush s.flush :=
  ⟨by show s'.qm.flush = s.qm.flush; rw [ha.qm], ha.tiers, ha.counter, ha.conditions, ha.scheduled, ha.flushToo, ha.ids, ha.dict⟩

theorem tooStep_swap (h : Swaps E' E T) {s' : Core C Sv' A} {s : Core C Sv A} (ha : SwapCore T s' s) (c : C) : SwapCore T (s'.tooStep E' c) (s.tooStep E c) := by
  unfold Core.tooStep
  rw [ha.flushToo, h.toos]
  split_ifs
  · cases E.toos c with
    | none => exact ha
    | some ts =>
      dsimp only
      have h1 : ∀ l : List ℤ, SwapCore T { s' with tooIds := l, flushForNewToo := s.flushForNewToo } { s with tooIds := l } := fun l =>
        ⟨ha.qm, ha.tiers, ha.counter, ha.conditions, ha.scheduled, rfl, rfl, ha.dict⟩
      rw [ha.ids]
      split_ifs
      · exact flush_swap (h1 _)
      · exact h1 _
  · exact ha

theorem update_swap (h : Swaps E' E T) {s' : Core C Sv' A} {s : Core C Sv A} (ha : SwapCore T s' s) (c : C) : SwapCore T (s'.update E' c) (s.update E c) := by
  have h1 := tooStep_swap h ha c
  have ht := h.update c h1.tiers
  refine ⟨h1.qm, ht, h1.counter, rfl, ?_, h1.flushToo, h1.ids, h1.dict⟩
  show Core.gatherScheduled E' _ (E'.q.mjdOf c) = Core.gatherScheduled E _ (E.q.mjdOf c)
  rw [h.q]
  exact h.gather _ ht

section
open Whole
variable {H K B : Type}

/-- Worlds of simulations with schedulers that are alike. -/
structure SwapWorld (T : List (List Sv') → List (List Sv) → Prop) (w' : World (Core C Sv' A × H) K) (w : World (Core C Sv A × H) K) : Prop where
  obs : w'.obs = w.obs
  core : SwapCore T w'.sched.1 w.sched.1
  rest : w'.sched.2 = w.sched.2
  raised : w'.raised = w.raised

theorem swap_relate (h : Swaps E' E T) (S : Obs.Site) (M : Obs.Kin K Obs) (fuel : ℕ) (conds : Obs.St K → C) (mount : K → B → K) (X : Rest H C B) :
    Sim.Relate (env S M fuel conds mount (coreSched E' X)) (env S M fuel conds mount (coreSched E X)) (SwapWorld (K := K) (H := H) T) where
  clock r := by show _ = _; exact congrArg Obs.St.mjd r.obs
  set {a b} x r := ⟨by show ({ a.obs with mjd := x } : Obs.St K) = { b.obs with mjd := x }; rw [r.obs], r.core, r.rest, r.raised⟩
  conds r := ⟨⟨by show Obs.idle S M _ = Obs.idle S M _; rw [r.obs], r.core, r.rest, r.raised⟩, by show conds _ = conds _; rw [r.obs]⟩
  hasConds {a b} r := by
    show a.sched.1.conditions.isSome = b.sched.1.conditions.isSome
    rw [r.core.conditions]
  check {a b} x r := by
    refine ⟨r, ?_⟩
    show coreCheck E' a.sched.1 x = coreCheck E b.sched.1 x
    unfold coreCheck
    rw [r.core.conditions, r.core.qm, h.q]
  update {a b} r := by
    refine ⟨by show Obs.idle S M _ = Obs.idle S M _; rw [r.obs], ?_, r.rest, r.raised⟩
    show SwapCore T (a.sched.1.update E' (conds a.obs)) (b.sched.1.update E (conds b.obs))
    rw [r.obs]
    exact update_swap h r.core _
  request {a b} x r := by
    show SwapWorld T (requestOf (coreSched E' X) a x).1 (requestOf (coreSched E X) b x).1 ∧ (requestOf (coreSched E' X) a x).2 = (requestOf (coreSched E X) b x).2
    have hr := request_swap h r.core (some x) false
    have e' : (coreSched E' X).request a.sched x = (coreRequest E' a.sched.1 x).map fun z => ((z.1, a.sched.2), z.2) := rfl
    have e : (coreSched E X).request b.sched x = (coreRequest E b.sched.1 x).map fun z => ((z.1, b.sched.2), z.2) := rfl
    unfold requestOf
    rw [e', e]
    unfold coreRequest
    generalize a.sched.1.request E' (some x) false = r' at hr
    generalize b.sched.1.request E (some x) false = r0 at hr
    match r', r0, hr with
    | .error _, .error _, _ => exact ⟨⟨r.obs, r.core, r.rest, rfl⟩, rfl⟩
    | .ok (s1', l', ev'), .ok (s1, l, ev), ⟨h1, (hev : (l', ev') = (l, ev))⟩ =>
      simp only [Prod.mk.injEq] at hev
      obtain ⟨rfl, rfl⟩ := hev
      exact ⟨⟨r.obs, h1, r.rest, r.raised⟩, rfl⟩
  observe {a b} v r := by
    show SwapWorld T (observeOf S M fuel a v).1 (observeOf S M fuel b v).1 ∧ (observeOf S M fuel a v).2 = (observeOf S M fuel b v).2
    unfold observeOf
    rw [r.obs]
    cases Obs.observe S M fuel b.obs v.target with
    | error e => exact ⟨⟨rfl, r.core, r.rest, rfl⟩, rfl⟩
    | ok z => exact ⟨⟨rfl, r.core, r.rest, r.raised⟩, rfl⟩
  overhead {a b} v r := by
    refine ⟨⟨r.obs, r.core, ?_, r.raised⟩, ?_⟩
    · show (X.overhead a.sched.2 v).1 = (X.overhead b.sched.2 v).1
      rw [r.rest]
    · show (X.overhead a.sched.2 v).2 = (X.overhead b.sched.2 v).2
      rw [r.rest]
  add v r := ⟨r.obs, addObs_swap h r.core _, r.rest, r.raised⟩
  bandAdd {a b} v r := ⟨r.obs, r.core, by show X.bandAdd a.sched.2 v = X.bandAdd b.sched.2 v; rw [r.rest], r.raised⟩
  flush r := ⟨r.obs, flush_swap r.core, r.rest, r.raised⟩
  bands {a b} c r := by
    refine ⟨⟨r.obs, r.core, ?_, r.raised⟩, ?_⟩
    · show (X.bands a.sched.2 c).1 = (X.bands b.sched.2 c).1
      rw [r.rest]
    · show (X.bands a.sched.2 c).2 = (X.bands b.sched.2 c).2
      rw [r.rest]
  mount {a b} m r := ⟨by show ({ a.obs with kin := mount a.obs.kin m } : Obs.St K) = { b.obs with kin := mount b.obs.kin m }; rw [r.obs], r.core, r.rest, r.raised⟩

end

end

end Verif
