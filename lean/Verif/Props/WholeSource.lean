import Verif.Props.WholeFollow

/-!
Property C208: where the visits that a whole simulation returns come from.
-/

namespace Verif

open Whole Core

section
variable {C B Sv A H K F α : Type}

/-- Among the surveys `tiers`, under the conditions `c`, the survey `sv` is the one to observe with: no survey of an earlier tier has a reward above minus
infinity; within its tier its best value is the largest, and larger than that of the surveys before it. -/
def ChosenBy (E : Env C Sv A) (tiers : List (List Sv)) (c : C) (sv : Sv) : Prop :=
  ∃ (i : ℕ) (tier : List Sv) (j : ℕ) (r : XReal), tiers[i]? = some tier ∧ tier[j]? = some sv ∧ BestValue E c sv r ∧ XReal.ltB .ninf r = true
    ∧ (∀ k < i, ∀ t, tiers[k]? = some t → ∀ v ∈ t, ∀ x ∈ (E.sv.reward v c).1, XReal.ltB .ninf x = false)
    ∧ (∀ v ∈ tier, ∀ x ∈ (E.sv.reward v c).1, x = .nan ∨ XReal.leB x r = true)
    ∧ ∀ k < j, ∀ v, tier[k]? = some v → ∀ x ∈ (E.sv.reward v c).1, x = .nan ∨ XReal.ltB x r = true

/-- Columns of a visit that neither the queue nor the detailers of the queue nor the observatory change. -/
structure KeptColumns (E : Env C Sv A) (M : Obs.Kin K Obs) (key : Obs → α) : Prop where
  fill : ∀ o n f, key { o with targetId := n, filter := f } = key o
  note : ∀ o m, key { o with note := m } = key o
  detail : ∀ a c l, ∀ o ∈ (E.q.detail a c l).1, ∃ o' ∈ l, key o' = key o
  prepare : ∀ k t o o', M.prepare k t o = some o' → key o' = key o

theorem fill_from {E : Env C Sv A} {M : Obs.Kin K Obs} {key : Obs → α} (hkey : KeptColumns E M key) {s s' : Core C Sv A} {ev : List Ev} {c : C}
    (hc : s.conditions = some c) (h : s.fillQueue E = .ok (s', ev)) :
    ∀ o ∈ s'.qm.desired, ∃ sv g, ChosenBy E s.tiers c sv ∧ g ∈ (E.sv.gen (E.sv.reward sv c).2 c).1 ∧ key g = key o := by
  rcases fillQueue_spec hc h with ⟨-, hq, -, -⟩ | ⟨i, j, tier, sv, filled, hi, hj, hix, hb, hf, -, -, hfill, hq, -⟩
  · rw [hq]
    intro o ho
    exact absurd ho List.not_mem_nil
  · obtain ⟨tier', sv', r, hi', hj', hbv, hle, hlt⟩ := C08_best_survey E s s' c ev i j hc h hix
    rw [hi] at hi'
    cases hi'
    rw [hj] at hj'
    cases hj'
    have hr : XReal.ltB .ninf r = true := by
      obtain ⟨x, hx, hxl⟩ := hf
      rcases hle sv (List.mem_of_getElem? hj) x hx with h0 | h0
      · rw [h0] at hxl; cases hxl
      · cases x <;> cases r <;> simp_all [XReal.leB, XReal.ltB]
    intro o ho
    have hfa := fillFilters_forall _ _ _ _ hfill
    rw [hq] at ho
    obtain ⟨n, hn, hon⟩ := List.mem_iff_getElem.1 (show o ∈ filled from ho)
    have hg := List.forall₂_iff_get.1 hfa
    have hn' : n < (E.sv.gen (E.sv.reward sv c).2 c).1.length := by rw [hg.1]; exact hn
    have hF := hg.2 n hn' hn
    refine ⟨sv, (E.sv.gen (E.sv.reward sv c).2 c).1.get ⟨n, hn'⟩, ⟨i, tier, j, r, hi, hj, hbv, hr, ?_, hle, hlt⟩, List.get_mem _ _, ?_⟩
    · intro k hk t ht v hv x hx
      by_contra hcon
      exact hb k hk t ht v hv ⟨x, hx, by simpa using hcon⟩
    · have h4 := hF.2.2.2
      have h5 : filled.get ⟨n, hn⟩ = o := hon
      rw [← h4, h5]
      exact hkey.fill _ _ _

theorem qrequest_from {E : Env C Sv A} {M : Obs.Kin K Obs} {key : Obs → α} (hkey : KeptColumns E M key) (q : QM A) (c : C) (w : Bool) :
    ∀ o ∈ (q.request E.q c w).1, ∃ o' ∈ q.desired, key o' = key o := by
  have hsub : ∀ (l : List Nat), ∀ o ∈ l.filterMap (fun i => q.desired[i]?), o ∈ q.desired := by
    intro l o ho
    obtain ⟨i, -, hi⟩ := List.mem_filterMap.1 ho
    exact List.mem_of_getElem? hi
  intro o ho
  unfold QM.request at ho
  dsimp only at ho
  generalize (if w = true then _ else _ : List Nat) = ix at ho
  by_cases hlen : (ix.filterMap (fun i => q.desired[i]?)).length > 0
  · rw [if_pos hlen] at ho
    obtain ⟨o', ho', hk⟩ := hkey.detail _ _ _ o ho
    exact ⟨o', hsub _ _ ho', hk⟩
  · rw [if_neg hlen] at ho
    exact ⟨o, hsub _ _ ho, rfl⟩

/-- What a request hands out, and what it leaves in the queue, was in the queue or stems from the survey chosen now. -/
theorem request_from {E : Env C Sv A} {M : Obs.Kin K Obs} {key : Obs → α} (hkey : KeptColumns E M key) (R : Follower E F) {s s' : Core C Sv A} {c : C}
    (hc : s.conditions = some c) {m : Option ℚ} {w : Bool} {out : Option (List Obs)} {ev : List Ev} (h : s.request E m w = .ok (s', out, ev))
    (Q : Obs → Prop) (hQ : ∀ o o', key o = key o' → Q o → Q o') (hq : ∀ o ∈ s.qm.desired, Q o)
    (hnew : ∀ tiers sv g, (tiers.map fun t => t.map R.look) = lookAll R s → ChosenBy E tiers c sv → g ∈ (E.sv.gen (E.sv.reward sv c).2 c).1 → Q g) :
    (∀ o ∈ s'.qm.desired, Q o) ∧ ∀ l ∈ out, ∀ o ∈ l, Q o := by
  obtain ⟨c', s1, ev1, hc', hfirst, hrest⟩ := request_cases h
  rw [hc] at hc'
  cases hc'
  have hfill : ∀ (t t' : Core C Sv A) (ev : List Ev), t.conditions = some c → lookAll R t = lookAll R s → t.fillQueue E = .ok (t', ev) →
      ∀ o ∈ t'.qm.desired, Q o := by
    intro t t' ev ht hl hf o ho
    obtain ⟨sv, g, hch, hg, hk⟩ := fill_from hkey ht hf o ho
    exact hQ _ _ hk (hnew _ sv g hl hch hg)
  have h1 : (∀ o ∈ s1.qm.desired, Q o) ∧ lookAll R s1 = lookAll R s ∧ s1.conditions = some c := by
    rcases hfirst with ⟨-, hf⟩ | ⟨-, rfl, -⟩
    · exact ⟨hfill _ _ _ hc rfl hf, fillQueue_look R hf, (fillQueue_frame hf).1.trans hc⟩
    · exact ⟨hq, rfl, hc⟩
  have hreq : ∀ q : QM A, (∀ o ∈ q.desired, Q o) → (∀ o ∈ (q.request E.q c w).2.desired, Q o) ∧
      ∀ l ∈ some ((q.request E.q c w).1.map setNote), ∀ o ∈ l, Q o := by
    intro q hq
    refine ⟨by rw [(qrequest_queue E.q q c w).1]; exact hq, ?_⟩
    intro l hl o ho
    cases hl
    obtain ⟨o1, ho1, rfl⟩ := List.mem_map.1 ho
    obtain ⟨o2, ho2, hk⟩ := qrequest_from hkey q c w o1 ho1
    exact hQ o2 _ (hk.trans (hkey.note _ _).symm) (hq o2 ho2)
  rcases hrest with ⟨-, rfl, rfl, -⟩ | ⟨-, -, rfl, rfl, -⟩ | ⟨-, -, s3, ev2, hf, rfl, -, hout⟩
  · exact ⟨h1.1, by rintro l ⟨⟩⟩
  · exact hreq _ h1.1
  · have h3 := hreq s3.qm (hfill _ _ _ (by exact h1.2.2) (by exact h1.2.1) hf)
    refine ⟨h3.1, ?_⟩
    rcases hout with ⟨-, rfl⟩ | ⟨-, rfl⟩
    · rintro l ⟨⟩
    · exact h3.2

theorem request_conditions {E : Env C Sv A} {s s' : Core C Sv A} {m : Option ℚ} {w : Bool} {out : Option (List Obs)} {ev : List Ev}
    (h : s.request E m w = .ok (s', out, ev)) : s'.conditions = s.conditions := by
  obtain ⟨c, s1, ev1, _, hfirst, hrest⟩ := request_cases h
  have h1 : s1.conditions = s.conditions := by
    rcases hfirst with ⟨_, hf⟩ | ⟨_, rfl, _⟩
    · exact (fillQueue_frame hf).1
    · rfl
  rcases hrest with ⟨_, rfl, _, _⟩ | ⟨_, _, rfl, _, _⟩ | ⟨_, _, s3, ev2, hf, rfl, _, _⟩
  · exact h1
  · exact h1
  · exact ((fillQueue_frame hf).1).trans h1

theorem coreRequest_from {E : Env C Sv A} {M : Obs.Kin K Obs} {key : Obs → α} (hkey : KeptColumns E M key) (R : Follower E F) {s s' : Core C Sv A} {x : ℚ}
    {r : Option Obs} (h : coreRequest E s x = some (s', r)) (Q : Obs → Prop) (hQ : ∀ o o', key o = key o' → Q o → Q o') (hq : ∀ o ∈ s.qm.desired, Q o)
    (hnew : ∀ c ∈ s.conditions, ∀ tiers sv g, (tiers.map fun t => t.map R.look) = lookAll R s → ChosenBy E tiers c sv →
      g ∈ (E.sv.gen (E.sv.reward sv c).2 c).1 → Q g) :
    s'.conditions = s.conditions ∧ lookAll R s' = lookAll R s ∧ (∀ o ∈ s'.qm.desired, Q o) ∧ ∀ o ∈ r, Q o := by
  unfold coreRequest at h
  cases hr : s.request E (some x) false with
  | error e => rw [hr] at h; cases h
  | ok z =>
    obtain ⟨s1, l, ev⟩ := z
    rw [hr] at h
    have h : some (s1, l.bind List.head?) = some (s', r) := h
    simp only [Option.some.injEq, Prod.mk.injEq] at h
    obtain ⟨rfl, rfl⟩ := h
    obtain ⟨c, -, -, hc, -⟩ := request_cases hr
    obtain ⟨h1, h2⟩ := request_from hkey R hc hr Q hQ hq (hnew c hc)
    refine ⟨request_conditions hr, request_look R (m := some x) (w := false) hr, h1, ?_⟩
    intro o ho
    cases l with
    | none => cases ho
    | some l => exact h2 l rfl o (List.mem_of_head? ho)

/-- Before `upto` and with no more visits told than `known`, the scheduler was given conditions (of the observatory at the time) under which some survey was
the one to observe with, and it generated a visit that agrees with `o` in `key`. The surveys at the time are those of `base` after hearing of some of the
first visits of `known`. -/
def StemsFrom (conds : Obs.St K → C) (E : Env C Sv A) (R : Follower E F) (key : Obs → α) (base : List (List F)) (log : List (Sim.Ev (Obs.Visit Obs) C B))
    (known : List (Obs.Visit Obs)) (upto : ℚ) (o : Obs) : Prop :=
  ∃ st : Obs.St K, st.mjd ≤ upto ∧ .update st.mjd (conds st) ∈ log ∧ ∃ heard tiers sv g, heard <+: known
    ∧ (tiers.map fun t => t.map R.look) = (base.map fun t => t.map fun f => (heard.map madeRow).foldl R.hear f)
    ∧ ChosenBy E tiers (conds st) sv ∧ g ∈ (E.sv.gen (E.sv.reward sv (conds st)).2 (conds st)).1 ∧ key g = key o

theorem StemsFrom.mono {conds : Obs.St K → C} {E : Env C Sv A} {R : Follower E F} {key : Obs → α} {base : List (List F)}
    {log log' : List (Sim.Ev (Obs.Visit Obs) C B)} {known known' : List (Obs.Visit Obs)} {upto upto' : ℚ} {o o' : Obs}
    (h : StemsFrom conds E R key base log known upto o) (h1 : log <+: log') (h2 : known <+: known') (h3 : upto ≤ upto') (h4 : key o = key o') :
    StemsFrom conds E R key base log' known' upto' o' := by
  obtain ⟨st, a, b, heard, tiers, sv, g, c, d, e, f, k⟩ := h
  exact ⟨st, a.trans h3, h1.subset b, heard, tiers, sv, g, c.trans h2, d, e, f, k.trans h4⟩

/-- The queue, the conditions of the scheduler and the completed visits stem from choices of the scheduler. -/
structure Traced (conds : Obs.St K → C) (E : Env C Sv A) (R : Follower E F) (key : Obs → α) (base : List (List F))
    (p : World (Core C Sv A × H) K × List (Sim.Ev (Obs.Visit Obs) C B)) : Prop where
  follows : FollowsTold R base p
  given : ∀ c ∈ p.1.sched.1.conditions, ∃ st : Obs.St K, c = conds st ∧ st.mjd ≤ p.1.obs.mjd ∧ .update st.mjd (conds st) ∈ p.2
  queue : ∀ o ∈ p.1.sched.1.qm.desired, StemsFrom conds E R key base p.2 (Sim.toldOf p.2) p.1.obs.mjd o
  each : ∀ n v, (Sim.completedOf p.2)[n]? = some v →
    StemsFrom conds E R key base p.2 ((Sim.completedOf p.2).take n) (slewStart v) v.target

theorem Traced.on {conds : Obs.St K → C} {E : Env C Sv A} {R : Follower E F} {key : Obs → α} {base : List (List F)}
    {p q : World (Core C Sv A × H) K × List (Sim.Ev (Obs.Visit Obs) C B)} (h : Traced conds E R key base p) {e : Sim.Ev (Obs.Visit Obs) C B}
    (he : q.2 = p.2 ++ [e]) (hc : Sim.completedOf [e] = []) (hf : FollowsTold R base q) (ht : p.1.obs.mjd ≤ q.1.obs.mjd)
    (hcond : q.1.sched.1.conditions = p.1.sched.1.conditions) (hq : ∀ o ∈ q.1.sched.1.qm.desired, o ∈ p.1.sched.1.qm.desired) :
    Traced conds E R key base q := by
  have hp : p.2 <+: q.2 := by rw [he]; exact List.prefix_append _ _
  refine ⟨hf, ?_, ?_, ?_⟩
  · rw [hcond]
    intro c hc
    obtain ⟨st, a, b, d⟩ := h.given c hc
    exact ⟨st, a, b.trans ht, hp.subset d⟩
  · intro o ho
    refine (h.queue o (hq o ho)).mono hp ?_ ht rfl
    rw [he, Sim.toldOf_append]
    exact List.prefix_append _ _
  · have hcc : Sim.completedOf q.2 = Sim.completedOf p.2 := by rw [he, Sim.completedOf_append, hc, List.append_nil]
    rw [hcc]
    intro n v hv
    exact (h.each n v hv).mono hp (List.prefix_refl _) le_rfl rfl

/-- The scheduler was told of every completed visit. -/
def AllTold (p : World (Core C Sv A × H) K × List (Sim.Ev (Obs.Visit Obs) C B)) : Prop := Sim.completedOf p.2 = Sim.toldOf p.2

theorem AllTold.on {p q : World (Core C Sv A × H) K × List (Sim.Ev (Obs.Visit Obs) C B)} (h : AllTold p) {e : Sim.Ev (Obs.Visit Obs) C B}
    (he : q.2 = p.2 ++ [e]) (hc : Sim.completedOf [e] = []) (ht : Sim.toldOf [e] = []) : AllTold q := by
  unfold AllTold at *
  rw [he, Sim.completedOf_append, Sim.toldOf_append, hc, ht, h]

theorem update_queue {E : Env C Sv A} (s : Core C Sv A) (c : C) : (∀ o ∈ (s.update E c).qm.desired, o ∈ s.qm.desired) := by
  intro o ho
  have ho : o ∈ (s.tooStep E c).qm.desired := ho
  unfold tooStep at ho
  split at ho
  · split at ho
    · exact ho
    · dsimp only at ho
      split at ho
      · exact absurd ho List.not_mem_nil
      · exact ho
  · exact ho

theorem addObs_queue {E : Env C Sv A} (s : Core C Sv A) (x : Obs) : (∀ o ∈ (s.addObs E x).1.qm.desired, o ∈ s.qm.desired) := by
  intro o ho
  have ho : o ∈ (s.qm.addObs E.q (backfillBand x)).desired := ho
  unfold QM.addObs at ho
  dsimp only at ho
  split at ho <;> exact ho

theorem traced_keeps (S : Obs.Site) (hn : Obs.Nights S.nights) (hd : Down.Ordered S.downs) (M : Obs.Kin K Obs) (hM : Obs.NonNeg M) (fuel : ℕ)
    (conds : Obs.St K → C) (mount : K → B → K) (E : Env C Sv A) (R : Follower E F) (key : Obs → α) (hkey : KeptColumns E M key) (X : Rest H C B) (cfg : Sim.Cfg)
    (base : List (List F)) :
    Sim.KeepsNow (env S M fuel conds mount (coreSched E X)).recorded cfg (fun p => Traced conds E R key base p ∧ AllTold p)
      (fun p => Traced conds E R key base p ∧ AllTold p)
      (fun v p => (Traced conds E R key base p ∧ AllTold p) ∧ StemsFrom conds E R key base p.2 (Sim.toldOf p.2) p.1.obs.mjd v.target)
      (fun v p => Traced conds E R key base p ∧ Sim.completedOf p.2 = Sim.toldOf p.2 ++ [v]) := by
  have Fk := followed_keeps S M fuel conds mount E R X cfg base
  let P := fun p : World (Core C Sv A × H) K × List (Sim.Ev (Obs.Visit Obs) C B) => Traced conds E R key base p ∧ AllTold p
  have hconds : ∀ w, P w → P ((env S M fuel conds mount (coreSched E X)).recorded.conds w).1 := fun w h =>
    ⟨h.1.on rfl rfl (Fk.conds _ h.1.follows) le_rfl rfl (fun _ => id), h.2.on rfl rfl rfl⟩
  have hcheck : ∀ w x, P w → P ((env S M fuel conds mount (coreSched E X)).recorded.check w x).1 := fun w x h =>
    ⟨h.1.on rfl rfl (Fk.check _ x h.1.follows) le_rfl rfl (fun _ => id), h.2.on rfl rfl rfl⟩
  have hnow : ∀ w, P w → P (Sim.updateNow (env S M fuel conds mount (coreSched E X)).recorded w) := by
    intro w h
    have h1 := hconds w h
    refine ⟨⟨Fk.update _ _ h1.1.follows, ?_, ?_, ?_⟩, h1.2.on rfl rfl rfl⟩
    · intro c hc
      have hc : some (conds w.1.obs) = some c := hc
      cases hc
      refine ⟨w.1.obs, rfl, le_rfl, ?_⟩
      exact List.mem_append_right _ (List.mem_singleton.2 rfl)
    · intro o ho
      refine (h1.1.queue o (update_queue _ _ o ho)).mono (List.prefix_append _ _) ?_ le_rfl rfl
      have e : Sim.toldOf (Sim.updateNow (env S M fuel conds mount (coreSched E X)).recorded w).2
          = Sim.toldOf ((env S M fuel conds mount (coreSched E X)).recorded.conds w).1.2 := told_one _ _ rfl
      rw [e]
    · intro n v hv
      have hcc : ∀ z : List (Sim.Ev (Obs.Visit Obs) C B), Sim.completedOf (z ++ [.update w.1.obs.mjd (conds w.1.obs)]) = Sim.completedOf z := by
        intro z; rw [Sim.completedOf_append]; exact List.append_nil _
      have hv : (Sim.completedOf (((env S M fuel conds mount (coreSched E X)).recorded.conds w).1.2 ++ [.update w.1.obs.mjd (conds w.1.obs)]))[n]? = some v := hv
      rw [hcc] at hv
      refine (h1.1.each n v hv).mono (List.prefix_append _ _) ?_ le_rfl rfl
      have e : (Sim.completedOf ((env S M fuel conds mount (coreSched E X)).recorded.conds w).1.2).take n
          = (Sim.completedOf (((env S M fuel conds mount (coreSched E X)).recorded.conds w).1.2 ++ [.update w.1.obs.mjd (conds w.1.obs)])).take n := by rw [hcc]
      rw [e]
      exact List.prefix_refl _
  have hreq : ∀ (w : World (Core C Sv A × H) K × List (Sim.Ev (Obs.Visit Obs) C B)) x, P w →
      P ((env S M fuel conds mount (coreSched E X)).recorded.request w x).1
      ∧ ∀ v ∈ ((env S M fuel conds mount (coreSched E X)).recorded.request w x).2, StemsFrom conds E R key base
        ((env S M fuel conds mount (coreSched E X)).recorded.request w x).1.2
        (Sim.toldOf ((env S M fuel conds mount (coreSched E X)).recorded.request w x).1.2)
        ((env S M fuel conds mount (coreSched E X)).recorded.request w x).1.1.obs.mjd v.target := by
    intro w x h
    show P ((requestOf (coreSched E X) w.1 x).1, w.2 ++ [.request w.1.obs.mjd x (requestOf (coreSched E X) w.1 x).2])
      ∧ ∀ v ∈ (requestOf (coreSched E X) w.1 x).2, StemsFrom conds E R key base (w.2 ++ [.request w.1.obs.mjd x (requestOf (coreSched E X) w.1 x).2])
        (Sim.toldOf (w.2 ++ [.request w.1.obs.mjd x (requestOf (coreSched E X) w.1 x).2])) (requestOf (coreSched E X) w.1 x).1.obs.mjd v.target
    rw [told_one _ _ rfl]
    have hr : (coreSched E X).request w.1.sched x = (coreRequest E w.1.sched.1 x).map fun r => ((r.1, w.1.sched.2), r.2) := rfl
    unfold requestOf
    rw [hr]
    cases hc : coreRequest E w.1.sched.1 x with
    | none =>
      refine ⟨⟨h.1.on rfl rfl (h.1.follows.same (told_one _ _ rfl) rfl) le_rfl rfl (fun _ => id), h.2.on rfl rfl rfl⟩, by rintro v ⟨⟩⟩
    | some r =>
      obtain ⟨s', o⟩ := r
      obtain ⟨a, b, d, e⟩ := coreRequest_from hkey R hc (StemsFrom conds E R key base w.2 (Sim.toldOf w.2) w.1.obs.mjd)
        (fun o o' hk hs => hs.mono (List.prefix_refl _) (List.prefix_refl _) le_rfl hk) h.1.queue (by
          intro c hcc tiers sv g ht hch hg
          obtain ⟨st, rfl, h1, h2⟩ := h.1.given c hcc
          exact ⟨st, h1, h2, _, tiers, sv, g, List.prefix_refl _, ht.trans h.1.follows, hch, hg, rfl⟩)
      refine ⟨⟨⟨h.1.follows.same (told_one _ _ rfl) b, ?_, ?_, ?_⟩, h.2.on rfl rfl rfl⟩, ?_⟩
      · intro c hcc
        have hcc : c ∈ s'.conditions := hcc
        rw [a] at hcc
        obtain ⟨st, h1, h2, h3⟩ := h.1.given c hcc
        exact ⟨st, h1, h2, List.mem_append_left _ h3⟩
      · intro y hy
        refine (d y hy).mono (List.prefix_append _ _) ?_ le_rfl rfl
        dsimp only
        rw [told_one _ (.request _ _ _) rfl]
      · intro n v hv
        have hcc : ∀ z : List (Sim.Ev (Obs.Visit Obs) C B), ∀ e, Sim.completedOf [e] = [] → Sim.completedOf (z ++ [e]) = Sim.completedOf z := by
          intro z e he; rw [Sim.completedOf_append, he]; exact List.append_nil _
        dsimp only at hv ⊢
        rw [hcc _ _ rfl] at hv ⊢
        exact (h.1.each n v hv).mono (List.prefix_append _ _) (List.prefix_refl _) le_rfl rfl
      · intro v hv
        cases o with
        | none => cases hv
        | some o =>
          have hv : some (asked o) = some v := hv
          cases hv
          exact (e o rfl).mono (List.prefix_append _ _) (List.prefix_refl _) le_rfl rfl
  have hobs : ∀ (w : World (Core C Sv A × H) K × List (Sim.Ev (Obs.Visit Obs) C B)) v, (observeOf S M fuel w.1 v).1.sched = w.1.sched
      ∧ w.1.obs.mjd ≤ (observeOf S M fuel w.1 v).1.obs.mjd := by
    intro w v
    unfold observeOf
    cases ho : Obs.observe S M fuel w.1.obs v.target with
    | error e => exact ⟨rfl, le_rfl⟩
    | ok r => exact ⟨rfl, Obs.observe_forward hn hd hM ho⟩
  refine ⟨hconds, hcheck, hnow,
    fun w x h hx => ⟨h.1.on rfl rfl (Fk.set _ x h.1.follows hx) hx rfl (fun _ => id), h.2.on rfl rfl rfl⟩,
    fun w v h => ⟨h.1.on rfl rfl (Fk.bandAdd _ v h.1.follows) le_rfl rfl (fun _ => id), h.2.on rfl rfl rfl⟩,
    fun w h => ⟨h.1.on rfl rfl (Fk.flush _ h.1.follows) le_rfl rfl (fun _ ho => absurd ho List.not_mem_nil), h.2.on rfl rfl rfl⟩,
    fun w c h => ⟨h.1.on rfl rfl (Fk.bands _ c h.1.follows) le_rfl rfl (fun _ => id), h.2.on rfl rfl rfl⟩,
    fun w b h => ⟨h.1.on rfl rfl (Fk.mount _ b h.1.follows) le_rfl rfl (fun _ => id), h.2.on rfl rfl rfl⟩,
    fun w h => Sim.refresh_keeps_now hcheck hnow w h, ?_, ?_, ?_, ?_, ?_, ?_, ?_⟩
  · intro w u h hr
    have := (hreq w ((env S M fuel conds mount (coreSched E X)).recorded.clock w) h).1
    rw [hr] at this
    exact this
  · intro w u v h hr
    have := hreq w ((env S M fuel conds mount (coreSched E X)).recorded.clock w) h
    rw [hr] at this
    exact ⟨this.1, this.2 v rfl⟩
  · rintro w v x nn ⟨h, -⟩ ho
    have hf := Fk.rejected w v x nn h.1.follows ho
    have hx : x = ((observeOf S M fuel w.1 v).1, w.2 ++ [.observe w.1.obs.mjd v (observeOf S M fuel w.1 v).1.obs.mjd
      (observeOf S M fuel w.1 v).2.1 (observeOf S M fuel w.1 v).2.2]) := (congrArg Prod.fst ho).symm
    have hv : (observeOf S M fuel w.1 v).2.1 = none := congrArg (fun z => z.2.1) ho
    subst hx
    rw [hv] at hf ⊢
    exact ⟨h.1.on rfl rfl hf (hobs w v).2 (by rw [(hobs w v).1]) (by rw [(hobs w v).1]; exact fun _ => id), h.2.on rfl rfl rfl⟩
  · rintro w v x v' nn ⟨h, hs⟩ ho
    have hf := Fk.completed w v x v' nn h.1.follows ho
    have hx : x = ((observeOf S M fuel w.1 v).1, w.2 ++ [.observe w.1.obs.mjd v (observeOf S M fuel w.1 v).1.obs.mjd
      (observeOf S M fuel w.1 v).2.1 (observeOf S M fuel w.1 v).2.2]) := (congrArg Prod.fst ho).symm
    have hv : (observeOf S M fuel w.1 v).2.1 = some v' := congrArg (fun z => z.2.1) ho
    subst hx
    rw [hv] at hf ⊢
    have hb : slewStart v' = w.1.obs.mjd ∧ key v.target = key v'.target := by
      unfold observeOf at hv
      cases hob : Obs.observe S M fuel w.1.obs v.target with
      | error e => rw [hob] at hv; cases hv
      | ok r =>
        obtain ⟨s', r, nn'⟩ := r
        rw [hob] at hv
        dsimp only at hv
        subst hv
        obtain ⟨h1, -, -, -, -, -, -, -, k, hk⟩ := observe_some hn hd hM hob
        exact ⟨h1, (hkey.prepare _ _ _ _ hk).symm⟩
    have hcc : ∀ z : List (Sim.Ev (Obs.Visit Obs) C B), ∀ a b c d, Sim.completedOf (z ++ [.observe a b c (some v') d]) = Sim.completedOf z ++ [v'] := by
      intro z a b c d; rw [Sim.completedOf_append]; rfl
    have htt : ∀ z : List (Sim.Ev (Obs.Visit Obs) C B), ∀ a b c d, Sim.toldOf (z ++ [.observe a b c (some v') d]) = Sim.toldOf z :=
      fun z a b c d => told_one _ _ rfl
    have hdone : Sim.completedOf w.2 = Sim.toldOf w.2 := h.2
    refine ⟨⟨hf, ?_, ?_, ?_⟩, ?_⟩
    · dsimp only
      rw [(hobs w v).1]
      intro c hcc
      obtain ⟨st, h1, h2, h3⟩ := h.1.given c hcc
      exact ⟨st, h1, h2.trans (hobs w v).2, List.mem_append_left _ h3⟩
    · dsimp only
      rw [(hobs w v).1, htt]
      intro o ho
      exact (h.1.queue o ho).mono (List.prefix_append _ _) (List.prefix_refl _) (hobs w v).2 rfl
    · dsimp only
      rw [hcc]
      intro n u hu
      by_cases hlt : n < (Sim.completedOf w.2).length
      · rw [List.getElem?_append_left hlt] at hu
        rw [List.take_append_of_le_length hlt.le]
        exact (h.1.each n u hu).mono (List.prefix_append _ _) (List.prefix_refl _) le_rfl rfl
      · have hge : (Sim.completedOf w.2).length ≤ n := not_lt.1 hlt
        rw [List.getElem?_append_right hge] at hu
        have hu1 : u ∈ [v'] := List.mem_of_getElem? hu
        rw [List.mem_singleton] at hu1
        subst hu1
        refine hs.mono (List.prefix_append _ _) ?_ hb.1.ge hb.2
        rw [← hdone, List.take_append]
        rw [List.take_of_length_le hge]
        exact List.prefix_append _ _
    · dsimp only
      rw [hcc, htt, hdone]
  · rintro w v ⟨h, he⟩
    have hw : ((env S M fuel conds mount (coreSched E X)).recorded.overhead w v).1.2 = w.2 ++ [.overhead w.1.obs.mjd v (X.overhead w.1.sched.2 v).2] := rfl
    refine ⟨h.on rfl rfl (Fk.overhead _ v h.follows) le_rfl rfl (fun _ => id), ?_⟩
    rw [hw, Sim.completedOf_append, told_one _ _ rfl, he]
    exact List.append_nil _
  · rintro w v x ⟨h, he⟩ hx
    have hw : ((env S M fuel conds mount (coreSched E X)).recorded.setClock w x).2 = w.2 ++ [.setClock w.1.obs.mjd x x] := rfl
    refine ⟨h.on rfl rfl (Fk.setDone _ v x h.follows hx) hx rfl (fun _ => id), ?_⟩
    rw [hw, Sim.completedOf_append, told_one _ _ rfl, he]
    exact List.append_nil _
  · rintro w v ⟨h, he⟩
    have hw : ((env S M fuel conds mount (coreSched E X)).recorded.add w v).2 = w.2 ++ [.add w.1.obs.mjd v] := rfl
    refine ⟨h.on rfl rfl (Fk.add _ v h.follows) le_rfl rfl (fun o ho => addObs_queue _ _ o ho), ?_⟩
    unfold AllTold
    rw [hw, Sim.completedOf_append, Sim.toldOf_append, he]
    exact List.append_nil _

/-- C208: every visit that a simulation with the core scheduler returns was asked for by the survey that was the one to observe with: at some time not after
the visit began, the scheduler was given the conditions of the observatory, and then, with the surveys as they were after hearing of some of the first
visits before this one, no survey of an earlier tier had a reward above minus infinity, the best value of that survey was the largest of its tier, and it
generated a visit with the same `key` (such as the position). -/
theorem C208_source (S : Obs.Site) (hn : Obs.Nights S.nights) (hd : Down.Ordered S.downs) (M : Obs.Kin K Obs) (hM : Obs.NonNeg M) (fuel : ℕ)
    (conds : Obs.St K → C) (mount : K → B → K) (E : Env C Sv A) (R : Follower E F) (key : Obs → α) (hkey : KeptColumns E M key)
    (X : Rest H C B) (hX : ∀ h v, 0 ≤ (X.overhead h v).2)
    (cfg : Sim.Cfg) (hstep : 0 ≤ cfg.stepNone) (h1 : 0 < cfg.startSize) (h2 : 0 < cfg.appendSize) (n : ℕ) (w : World (Core C Sv A × H) K)
    (hw : w.sched.1.conditions = none) (hq : w.sched.1.qm.desired = []) :
    ∃ vs : List (Obs.Visit Obs), (Sim.run (V := Obs.Visit Obs) (env S M fuel conds mount (coreSched E X)) cfg n w).st.result = vs.map some
      ∧ ∀ i v, vs[i]? = some v → ∃ st : Obs.St K, st.mjd ≤ v.mjd - v.slewtime / 24 / 3600
        ∧ .update st.mjd (conds st) ∈ (Sim.run (V := Obs.Visit Obs) (env S M fuel conds mount (coreSched E X)).recorded cfg n (w, [])).st.w.2
        ∧ ∃ heard tiers sv g, heard <+: vs.take i
          ∧ (tiers.map fun t => t.map R.look) = (w.sched.1.tiers.map fun t => t.map fun sv => (heard.map madeRow).foldl R.hear (R.look sv))
          ∧ ChosenBy E tiers (conds st) sv ∧ g ∈ (E.sv.gen (E.sv.reward sv (conds st)).2 (conds st)).1 ∧ key g = key v.target := by
  have Kc := whole_contract S hn hd M hM fuel conds mount (coreSched E X) (fun u v => hX _ _)
  obtain ⟨hres, -, -⟩ := recorded_result (env S M fuel conds mount (coreSched E X)) cfg h1 h2 n w
  have key1 : Traced conds E R key (lookAll R w.sched.1) (Sim.run (V := Obs.Visit Obs) (env S M fuel conds mount (coreSched E X)).recorded cfg n (w, [])).st.w := by
    have h0 : ∀ p : World (Core C Sv A × H) K × List (Sim.Ev (Obs.Visit Obs) C B), p.1.sched.1 = w.sched.1 → Sim.toldOf p.2 = [] → Sim.completedOf p.2 = [] →
        Traced conds E R key (lookAll R w.sched.1) p ∧ AllTold p := by
      intro p hp ht hc
      refine ⟨⟨?_, ?_, ?_, ?_⟩, hc.trans ht.symm⟩
      · unfold FollowsTold
        rw [hp, ht]
        simp
      · rw [hp, hw]
        rintro c ⟨⟩
      · rw [hp, hq]
        exact fun o ho => absurd ho List.not_mem_nil
      · rw [hc]
        rintro n v ⟨⟩
    refine (Sim.run_keeps_now (Sim.recorded_contract Kc) hstep (traced_keeps S hn hd M hM fuel conds mount E R key hkey X cfg _) n (w, []) ?_ ?_).1
    · intro _
      exact h0 _ rfl rfl rfl
    · intro m _
      exact h0 _ rfl rfl rfl
  refine ⟨_, hres, ?_⟩
  intro i v hv
  obtain ⟨st, a, b, heard, tiers, sv, g, c, d, e, f, k⟩ := key1.each i v hv
  refine ⟨st, a, b, heard, tiers, sv, g, c, ?_, e, f, k⟩
  rw [d]
  unfold lookAll
  simp [Function.comp_def]

/-- C208, for rules: if the surveys generate only visits that keep a rule under the conditions of the time (not near the moon, not in a masked place, in a
mounted band), then every visit that a simulation returns kept the rule under the conditions that the scheduler was given at some time not after it began. -/
theorem C208_rule (S : Obs.Site) (hn : Obs.Nights S.nights) (hd : Down.Ordered S.downs) (M : Obs.Kin K Obs) (hM : Obs.NonNeg M) (fuel : ℕ)
    (conds : Obs.St K → C) (mount : K → B → K) (E : Env C Sv A) (key : Obs → α) (hkey : KeptColumns E M key)
    (X : Rest H C B) (hX : ∀ h v, 0 ≤ (X.overhead h v).2)
    (cfg : Sim.Cfg) (hstep : 0 ≤ cfg.stepNone) (h1 : 0 < cfg.startSize) (h2 : 0 < cfg.appendSize) (n : ℕ) (w : World (Core C Sv A × H) K)
    (hw : w.sched.1.conditions = none) (hq : w.sched.1.qm.desired = []) (rule : C → α → Prop)
    (hrule : ∀ sv c r, BestValue E c sv r → XReal.ltB .ninf r = true → ∀ g ∈ (E.sv.gen (E.sv.reward sv c).2 c).1, rule c (key g)) :
    ∃ vs : List (Obs.Visit Obs), (Sim.run (V := Obs.Visit Obs) (env S M fuel conds mount (coreSched E X)) cfg n w).st.result = vs.map some
      ∧ ∀ v ∈ vs, ∃ st : Obs.St K, st.mjd ≤ v.mjd - v.slewtime / 24 / 3600
        ∧ .update st.mjd (conds st) ∈ (Sim.run (V := Obs.Visit Obs) (env S M fuel conds mount (coreSched E X)).recorded cfg n (w, [])).st.w.2
        ∧ rule (conds st) (key v.target) := by
  let R : Follower E Unit := ⟨fun _ => (), fun _ _ => (), fun _ _ => rfl, fun _ _ => rfl, fun _ _ => rfl, fun _ _ => rfl⟩
  obtain ⟨vs, hr, hv⟩ := C208_source S hn hd M hM fuel conds mount E R key hkey X hX cfg hstep h1 h2 n w hw hq
  refine ⟨vs, hr, ?_⟩
  intro v hvm
  obtain ⟨i, hi⟩ := List.mem_iff_getElem?.1 hvm
  obtain ⟨st, a, b, heard, tiers, sv, g, -, -, ⟨_, _, _, r, -, -, hb, hr, -⟩, f, k⟩ := hv i v hi
  refine ⟨st, a, b, ?_⟩
  rw [← k]
  exact hrule sv _ r hb hr g f

end

/-- Position, band and notes to the scheduler are kept in the example, and its scheduler starts with neither conditions nor queue. -/
example : KeptColumns toyE wholeKin (fun o => (o.ra, o.dec, o.band, o.schedulerNote)) ∧ wholeStart.sched.1.conditions = none ∧ wholeStart.sched.1.qm.desired = [] := by
  refine ⟨⟨fun _ _ _ => rfl, fun _ _ => rfl, fun _ _ l o ho => ⟨o, ho, rfl⟩, ?_⟩, rfl, rfl⟩
  intro k t o o' h
  have h : some o = some o' := h
  cases h
  rfl

/-- Of the surveys of this scheduler the second of the second tier is the one to observe with. -/
example : ∃ sv, toyS.tiers[1]?.bind (fun t => t[1]?) = some sv ∧ ChosenBy toyE toyS.tiers ⟨60000, none⟩ sv := by
  refine ⟨_, rfl, 1, _, 1, .fin 2, rfl, rfl, ?_, rfl, ?_, ?_, ?_⟩
  · refine ⟨by decide +kernel, by decide, ?_⟩
    decide +kernel
  · intro k hk t ht v hv x hx
    have : k = 0 := by omega
    subst this
    cases ht
    rw [List.mem_singleton] at hv
    subst hv
    revert x
    decide +kernel
  · intro v hv
    simp only [List.mem_cons, List.not_mem_nil, or_false] at hv
    rcases hv with rfl | rfl | rfl <;> decide +kernel
  · intro k hk v hv
    have : k = 0 := by omega
    subst this
    cases hv
    decide +kernel

end Verif
