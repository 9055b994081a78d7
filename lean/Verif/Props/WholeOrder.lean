import Verif.Props.WholeSource
import Verif.Lemmas.Summit

/-!
Property C221: the order in which a whole simulation makes the visits that surveys planned.
-/

namespace Verif

open Whole Core

section
variable {C B Sv A H K α : Type}

/-- The visit `o` is that at place `target id - first` of what the survey `sv` generated under the conditions `c`; `key` are the columns compared. -/
def InBlock (E : Env C Sv A) (key : Obs → α) (sv : Sv) (c : C) (first : ℤ) (o : Obs) : Prop :=
  ∃ (i : ℕ) (g : Obs), (E.sv.gen sv c).1[i]? = some g ∧ key g = key o ∧ o.targetId = first + i

/-- Two visits are of one block: a survey generated them in one answer. -/
def SameBlock (E : Env C Sv A) (key : Obs → α) (a b : Obs) : Prop :=
  ∃ (sv : Sv) (c : C) (first : ℤ), InBlock E key sv c first a ∧ InBlock E key sv c first b

/-- Columns of a visit, with the target id, that neither the detailers of the queue nor the observatory change; the queue may change the id. -/
structure KeptRows (E : Env C Sv A) (M : Obs.Kin K Obs) (key : Obs → α) : Prop where
  fill : ∀ o n f, key { o with targetId := n, filter := f } = key o
  note : ∀ o m, key { o with note := m } = key o
  detail : ∀ a c l, ∀ o ∈ (E.q.detail a c l).1, ∃ o' ∈ l, key o' = key o ∧ o'.targetId = o.targetId
  prepare : ∀ k t o o', M.prepare k t o = some o' → key o' = key o ∧ o'.targetId = o.targetId

/-- A relation between a visit made and one made later. -/
structure Precedes (E : Env C Sv A) (key : Obs → α) (Rel : Obs → Obs → Prop) : Prop where
  same : ∀ a a' b b', key a = key a' → a.targetId = a'.targetId → key b = key b' → b.targetId = b'.targetId → Rel a b → Rel a' b'
  lt : ∀ a b, a.targetId < b.targetId → Rel a b
  serve : ∀ (q : QM A) (c : C) (o : Obs), q.Aligned → q.desired.Pairwise (fun a b => a.targetId < b.targetId) →
    (∀ a ∈ q.desired, ∀ b ∈ q.desired, SameBlock E key a b) → (∀ a ∈ q.desired, ∃ sv c, ∃ g ∈ (E.sv.gen sv c).1, g.flushBy = a.flushBy) →
    (q.selectable E.q c (E.q.mjdOf c)).head? = some o → ∀ p ∈ rows q, p.2 = true → p.1.targetId ≠ o.targetId → Rel o p.1

/-- The queue holds one block, and its pending visits may come after those done. -/
structure Arranged (E : Env C Sv A) (key : Obs → α) (Rel : Obs → Obs → Prop) (s : Core C Sv A) (done : List Obs) : Prop where
  aligned : s.qm.Aligned
  below : ∀ o ∈ done, o.targetId < s.counter
  order : done.Pairwise Rel
  ahead : ∀ o ∈ done, ∀ p ∈ rows s.qm, p.2 = true → Rel o p.1
  rising : s.qm.desired.Pairwise fun a b => a.targetId < b.targetId
  block : ∀ a ∈ s.qm.desired, ∀ b ∈ s.qm.desired, SameBlock E key a b
  expiry : ∀ a ∈ s.qm.desired, ∃ sv c, ∃ g ∈ (E.sv.gen sv c).1, g.flushBy = a.flushBy

variable {E : Env C Sv A} {M : Obs.Kin K Obs} {key : Obs → α} {Rel : Obs → Obs → Prop}

/-- What is seen of the scheduler here: the queue and the counter. -/
theorem Arranged.same {s s' : Core C Sv A} {done : List Obs} (h : Arranged E key Rel s done) (h1 : s'.qm.desired = s.qm.desired) (h2 : s'.qm.need = s.qm.need)
    (h3 : s.counter ≤ s'.counter) : Arranged E key Rel s' done := by
  have hr : rows s'.qm = rows s.qm := by unfold rows; rw [h1, h2]
  exact ⟨aligned_of_eq h1 h2 h.aligned, fun o ho => lt_of_lt_of_le (h.below o ho) h3, h.order, by rw [hr]; exact h.ahead, by rw [h1]; exact h.rising,
    by rw [h1]; exact h.block, by rw [h1]; exact h.expiry⟩

theorem Arranged.emptied {s s' : Core C Sv A} {done : List Obs} (h : Arranged E key Rel s done) (h1 : s'.qm.desired = []) (h2 : s'.qm.need = [])
    (h3 : s.counter ≤ s'.counter) : Arranged E key Rel s' done := by
  have hr : rows s'.qm = [] := by unfold rows; rw [h1, h2]; rfl
  refine ⟨by unfold QM.Aligned; rw [h1, h2]; rfl, fun o ho => lt_of_lt_of_le (h.below o ho) h3, h.order, ?_, ?_, ?_, ?_⟩
  · rw [hr]; exact fun o _ p hp => absurd hp List.not_mem_nil
  · rw [h1]; exact List.Pairwise.nil
  · rw [h1]; exact fun a ha => absurd ha List.not_mem_nil
  · rw [h1]; exact fun a ha => absurd ha List.not_mem_nil

theorem Arranged.fill (hkey : KeptRows E M key) (hR : Precedes E key Rel) {s s' : Core C Sv A} {done : List Obs} (h : Arranged E key Rel s done) {ev : List Ev} {c : C}
    (hc : s.conditions = some c) (hf : s.fillQueue E = .ok (s', ev)) : Arranged E key Rel s' done := by
  rcases fillQueue_spec hc hf with ⟨-, hq, -, hcount⟩ | ⟨i, j, tier, sv, filled, -, -, -, -, -, -, -, hfill, hq, -⟩
  · exact h.emptied (by rw [hq]; rfl) (by rw [hq]; rfl) hcount.ge
  · obtain ⟨m, -, hm⟩ := fillQueue_ev_ids hf
    have hcount : s.counter ≤ s'.counter := by rw [hm]; omega
    have hrows : rows s'.qm = filled.map fun o => (o, true) := by
      rw [hq]
      exact (C10_refines E.q s.qm h.aligned).2.2.1 filled
    have hdes : s'.qm.desired = filled := by rw [hq]; rfl
    have hfa := List.forall₂_iff_get.1 (fillFilters_forall _ _ _ _ hfill)
    have hids := fillFilters_ids hfill
    rw [tagIds_ids] at hids
    have hid : ∀ n (hn : n < filled.length), filled[n].targetId = s.counter + n := by
      intro n hn
      have := congrArg (fun l => l[n]?) hids
      rw [List.getElem?_map, List.getElem?_eq_getElem hn, List.getElem?_map, List.getElem?_range (by rw [hfa.1]; exact hn)] at this
      simpa using this
    have hin : ∀ o ∈ filled, s.counter ≤ o.targetId ∧ InBlock E key (E.sv.reward sv c).2 c s.counter o
        ∧ ∃ g ∈ (E.sv.gen (E.sv.reward sv c).2 c).1, g.flushBy = o.flushBy := by
      intro o ho
      obtain ⟨n, hn, rfl⟩ := List.mem_iff_getElem.1 ho
      have hn' : n < (E.sv.gen (E.sv.reward sv c).2 c).1.length := by rw [hfa.1]; exact hn
      have h4 := (hfa.2 n hn' hn).2.2.2
      have h4 : { filled[n] with targetId := ((E.sv.gen (E.sv.reward sv c).2 c).1[n]).targetId, filter := ((E.sv.gen (E.sv.reward sv c).2 c).1[n]).filter }
          = (E.sv.gen (E.sv.reward sv c).2 c).1[n] := h4
      refine ⟨by rw [hid n hn]; omega, ⟨n, (E.sv.gen (E.sv.reward sv c).2 c).1[n], List.getElem?_eq_getElem hn', ?_, hid n hn⟩,
        (E.sv.gen (E.sv.reward sv c).2 c).1[n], List.getElem_mem _, ?_⟩
      · rw [← h4]
        exact hkey.fill _ _ _
      · rw [← h4]
    refine ⟨fillQueue_aligned hf, fun o ho => lt_of_lt_of_le (h.below o ho) hcount, h.order, ?_, ?_, ?_, ?_⟩
    · rw [hrows]
      intro o ho p hp _
      obtain ⟨d, hd, rfl⟩ := List.mem_map.1 hp
      exact hR.lt _ _ (lt_of_lt_of_le (h.below o ho) (hin d hd).1)
    · rw [hdes, List.pairwise_iff_getElem]
      intro a b ha hb hab
      rw [hid a ha, hid b hb]
      omega
    · rw [hdes]
      intro a ha b hb
      exact ⟨_, c, _, (hin a ha).2.1, (hin b hb).2.1⟩
    · rw [hdes]
      intro a ha
      exact ⟨_, c, (hin a ha).2.2⟩

/-- What the queue hands out one at a time: the first selectable row, up to detailers. -/
theorem qrequest_head (hkey : KeptRows E M key) (q : QM A) (ha : q.Aligned) (c : C) (o : Obs) (h : o ∈ (q.request E.q c false).1) :
    ∃ o', (q.selectable E.q c (E.q.mjdOf c)).head? = some o' ∧ key o' = key o ∧ o'.targetId = o.targetId := by
  rw [QM.request_eq E.q q c false ha] at h
  dsimp only at h
  have e : (if false = true then q.selectable E.q c (E.q.mjdOf c) else (q.selectable E.q c (E.q.mjdOf c)).take 1) = (q.selectable E.q c (E.q.mjdOf c)).take 1 := rfl
  rw [e] at h
  generalize q.selectable E.q c (E.q.mjdOf c) = sel at h ⊢
  cases sel with
  | nil => exact absurd h (by simp)
  | cons x sel =>
    have h : o ∈ (E.q.detail q.aux c [x]).1 := by simpa using h
    obtain ⟨o', ho', hk⟩ := hkey.detail _ _ _ o h
    rw [List.mem_singleton] at ho'
    subst ho'
    exact ⟨o', rfl, hk⟩

theorem selectable_pending (q : QM A) (c : C) (m : ℚ) (o : Obs) (h : o ∈ q.selectable E.q c m) : (o, true) ∈ rows q := by
  unfold QM.selectable at h
  obtain ⟨x, hx, rfl⟩ := List.mem_map.1 h
  obtain ⟨hz, hp⟩ := List.mem_filter.1 hx
  obtain ⟨n, hn, he⟩ := List.mem_iff_getElem.1 hz
  rw [List.getElem_zip, List.getElem_zip] at he
  have h2 : x.2.1 = true := by
    revert hp
    cases x.2.1 <;> simp
  unfold rows
  rw [List.mem_iff_getElem]
  have hl : n < q.desired.length ∧ n < q.need.length := by
    rw [List.length_zip, List.length_zip] at hn
    omega
  refine ⟨n, by rw [List.length_zip]; omega, ?_⟩
  rw [List.getElem_zip, ← h2, ← he]

/-- After a request, and what it hands out. -/
theorem Arranged.request (hkey : KeptRows E M key) (hR : Precedes E key Rel) {s s' : Core C Sv A} {done : List Obs} (h : Arranged E key Rel s done)
    {x : ℚ} {r : Option Obs} (hreq : coreRequest E s x = some (s', r)) :
    Arranged E key Rel s' done ∧ ∀ o ∈ r, (∀ a ∈ done, Rel a o) ∧ ∀ p ∈ rows s'.qm, p.2 = true → p.1.targetId ≠ o.targetId → Rel o p.1 := by
  unfold coreRequest at hreq
  cases hr : s.request E (some x) false with
  | error e => rw [hr] at hreq; cases hreq
  | ok z =>
    obtain ⟨s2, l, ev⟩ := z
    rw [hr] at hreq
    have hreq : some (s2, l.bind List.head?) = some (s', r) := hreq
    simp only [Option.some.injEq, Prod.mk.injEq] at hreq
    obtain ⟨rfl, rfl⟩ := hreq
    obtain ⟨c, s1, ev1, hc, hfirst, hrest⟩ := request_cases hr
    have h1 : Arranged E key Rel s1 done ∧ s1.conditions = some c := by
      rcases hfirst with ⟨-, hf⟩ | ⟨-, rfl, -⟩
      · exact ⟨h.fill hkey hR hc hf, (fillQueue_frame hf).1.trans hc⟩
      · exact ⟨h, hc⟩
    have hserve : ∀ t : Core C Sv A, Arranged E key Rel t done → Arranged E key Rel { t with qm := (t.qm.request E.q c false).2 } done
        ∧ ∀ o ∈ ((t.qm.request E.q c false).1.map setNote).head?, (∀ a ∈ done, Rel a o)
          ∧ ∀ p ∈ rows (t.qm.request E.q c false).2, p.2 = true → p.1.targetId ≠ o.targetId → Rel o p.1 := by
      intro t ht
      obtain ⟨q1, q2⟩ := qrequest_queue E.q t.qm c false
      refine ⟨ht.same q1 q2 le_rfl, ?_⟩
      intro o ho
      obtain ⟨o1, ho1, rfl⟩ := List.mem_map.1 (List.mem_of_head? ho)
      obtain ⟨o', hsel, hk, hid⟩ := qrequest_head hkey t.qm ht.aligned c o1 ho1
      have hk' : key o' = key (setNote o1) := hk.trans (hkey.note _ _).symm
      have hid' : o'.targetId = (setNote o1).targetId := hid
      have hrows : rows (t.qm.request E.q c false).2 = rows t.qm := by unfold rows; rw [q1, q2]
      refine ⟨?_, ?_⟩
      · intro a ha
        exact hR.same a a o' _ rfl rfl hk' hid' (ht.ahead a ha (o', true) (selectable_pending _ _ _ _ (List.mem_of_head? hsel)) rfl)
      · rw [hrows]
        intro p hp hp2 hne
        exact hR.same o' _ p.1 p.1 hk' hid' rfl rfl (hR.serve t.qm c o' ht.aligned ht.rising ht.block ht.expiry hsel p hp hp2 (by rw [hid']; exact hne))
    rcases hrest with ⟨-, rfl, rfl, -⟩ | ⟨-, -, rfl, rfl, -⟩ | ⟨-, -, s3, ev2, hf, rfl, -, hout⟩
    · exact ⟨h1.1, by rintro o ⟨⟩⟩
    · exact hserve s1 h1.1
    · have hfl : Arranged E key Rel ({ s1 with qm := (s1.qm.request E.q c false).2.flush } : Core C Sv A) done := h1.1.emptied rfl rfl le_rfl
      have h3 := hserve s3 (hfl.fill hkey hR h1.2 hf)
      refine ⟨h3.1, ?_⟩
      rcases hout with ⟨-, rfl⟩ | ⟨-, rfl⟩
      · rintro o ⟨⟩
      · exact h3.2

theorem Arranged.update {s : Core C Sv A} {done : List Obs} (h : Arranged E key Rel s done) (c : C) : Arranged E key Rel (s.update E c) done := by
  have hq : (s.update E c).qm = (s.tooStep E c).qm := rfl
  have hcount : (s.update E c).counter = s.counter := by
    show (s.tooStep E c).counter = s.counter
    unfold tooStep
    split
    · split
      · rfl
      · dsimp only
        split <;> rfl
    · rfl
  have : (s.tooStep E c).qm = s.qm ∨ (s.tooStep E c).qm = s.qm.flush := by
    unfold tooStep
    split
    · split
      · exact .inl rfl
      · dsimp only
        split
        · exact .inr rfl
        · exact .inl rfl
    · exact .inl rfl
  rcases this with e | e
  · exact h.same (by rw [hq, e]) (by rw [hq, e]) hcount.ge
  · exact h.emptied (by rw [hq, e]; rfl) (by rw [hq, e]; rfl) hcount.ge

theorem Arranged.add {s : Core C Sv A} {done : List Obs} (h : Arranged E key Rel s done) (v : Obs.Visit Obs) (h1 : ∀ a ∈ done, Rel a v.target)
    (h2 : ∀ p ∈ rows s.qm, p.2 = true → p.1.targetId ≠ v.target.targetId → Rel v.target p.1) :
    Arranged E key Rel (s.addObs E (told v)).1 (done ++ [v.target]) := by
  have hb : (backfillBand (told v)).targetId = v.target.targetId := by unfold backfillBand told; split <;> rfl
  have hcount : (s.addObs E (told v)).1.counter = bump s.counter v.target.targetId := by
    show bump s.counter (backfillBand (told v)).targetId = _
    rw [hb]
  have hdes : (s.addObs E (told v)).1.qm.desired = s.qm.desired := by
    show (s.qm.addObs E.q (backfillBand (told v))).desired = _
    unfold QM.addObs
    dsimp only
    split <;> rfl
  have hrows : rows (s.addObs E (told v)).1.qm = (rows s.qm).map fun r => if r.1.targetId = v.target.targetId then (r.1, false) else r := by
    have := (C10_refines E.q s.qm h.aligned).2.2.2.2.1 (backfillBand (told v))
    rw [hb] at this
    exact this
  have hp : ∀ p ∈ rows (s.addObs E (told v)).1.qm, p.2 = true → p ∈ rows s.qm ∧ p.1.targetId ≠ v.target.targetId := by
    rw [hrows]
    intro p hp hp2
    obtain ⟨r, hr, rfl⟩ := List.mem_map.1 hp
    by_cases he : r.1.targetId = v.target.targetId
    · rw [if_pos he] at hp2
      cases hp2
    · rw [if_neg he]
      exact ⟨hr, he⟩
  refine ⟨qaddObs_aligned _ _ _ h.aligned, ?_, ?_, ?_, by rw [hdes]; exact h.rising, by rw [hdes]; exact h.block, by rw [hdes]; exact h.expiry⟩
  · rw [hcount]
    intro o ho
    rcases List.mem_append.1 ho with ho | ho
    · exact lt_of_lt_of_le (h.below o ho) (bump_ge _ _).1
    · rw [List.mem_singleton] at ho
      rw [ho]
      exact (bump_ge _ _).2
  · rw [List.pairwise_append]
    refine ⟨h.order, List.pairwise_singleton _ _, ?_⟩
    intro a ha b hb'
    rw [List.mem_singleton] at hb'
    rw [hb']
    exact h1 a ha
  · intro o ho p hpm hp2
    obtain ⟨hm, hne⟩ := hp p hpm hp2
    rcases List.mem_append.1 ho with ho | ho
    · exact h.ahead o ho p hm hp2
    · rw [List.mem_singleton] at ho
      rw [ho]
      exact h2 p hm hp2 hne

/-- The invariant of a simulation. -/
def ArrangedSim (E : Env C Sv A) (key : Obs → α) (Rel : Obs → Obs → Prop) (p : World (Core C Sv A × H) K × List (Sim.Ev (Obs.Visit Obs) C B)) : Prop :=
  Arranged E key Rel p.1.sched.1 ((Sim.toldOf p.2).map Obs.Visit.target)

/-- A visit that may come next. -/
def Next (Rel : Obs → Obs → Prop) (v : Obs.Visit Obs) (p : World (Core C Sv A × H) K × List (Sim.Ev (Obs.Visit Obs) C B)) : Prop :=
  (∀ a ∈ (Sim.toldOf p.2).map Obs.Visit.target, Rel a v.target) ∧ ∀ r ∈ rows p.1.sched.1.qm, r.2 = true → r.1.targetId ≠ v.target.targetId → Rel v.target r.1

theorem arranged_keeps (S : Obs.Site) (hn : Obs.Nights S.nights) (hd : Down.Ordered S.downs) (hM : Obs.NonNeg M) (fuel : ℕ)
    (conds : Obs.St K → C) (mount : K → B → K) (hkey : KeptRows E M key) (hR : Precedes E key Rel) (X : Rest H C B) (cfg : Sim.Cfg) :
    Sim.Keeps (env S M fuel conds mount (coreSched E X)).recorded cfg (ArrangedSim E key Rel) (ArrangedSim E key Rel)
      (fun v p => ArrangedSim E key Rel p ∧ Next Rel v p) (fun v p => ArrangedSim E key Rel p ∧ Next Rel v p) := by
  have hsame : ∀ (w q : World (Core C Sv A × H) K × List (Sim.Ev (Obs.Visit Obs) C B)) e, ArrangedSim E key Rel w → q.2 = w.2 ++ [e] → Sim.toldOf [e] = [] →
      q.1.sched.1 = w.1.sched.1 → ArrangedSim E key Rel q := by
    intro w q e h h1 h2 h3
    unfold ArrangedSim at *
    rw [h3, h1, told_one _ _ h2]
    exact h
  have hnext : ∀ (v v' : Obs.Visit Obs) (w q : World (Core C Sv A × H) K × List (Sim.Ev (Obs.Visit Obs) C B)) e, Next Rel v w → q.2 = w.2 ++ [e] → Sim.toldOf [e] = [] →
      q.1.sched.1 = w.1.sched.1 → key v.target = key v'.target → v.target.targetId = v'.target.targetId → Next Rel v' q := by
    intro v v' w q e h h1 h2 h3 h4 h5
    unfold Next at *
    rw [h3, h1, told_one _ _ h2]
    exact ⟨fun a ha => hR.same a a _ _ rfl rfl h4 h5 (h.1 a ha), fun r hr hr2 hne => hR.same _ _ r.1 r.1 h4 h5 rfl rfl (h.2 r hr hr2 (by rw [h5]; exact hne))⟩
  have hconds : ∀ w, ArrangedSim E key Rel w → ArrangedSim E key Rel ((env S M fuel conds mount (coreSched E X)).recorded.conds w).1 := fun w h =>
    hsame w _ _ h rfl rfl rfl
  have hcheck : ∀ w x, ArrangedSim E key Rel w → ArrangedSim E key Rel ((env S M fuel conds mount (coreSched E X)).recorded.check w x).1 := fun w x h =>
    hsame w _ _ h rfl rfl rfl
  have hupdate : ∀ w c, ArrangedSim E key Rel w → ArrangedSim E key Rel ((env S M fuel conds mount (coreSched E X)).recorded.update w c) := by
    intro w c h
    show Arranged E key Rel (w.1.sched.1.update E c) ((Sim.toldOf (w.2 ++ [_])).map _)
    rw [told_one _ _ rfl]
    exact Arranged.update h c
  have hreq : ∀ (w : World (Core C Sv A × H) K × List (Sim.Ev (Obs.Visit Obs) C B)) x, ArrangedSim E key Rel w →
      ArrangedSim E key Rel ((env S M fuel conds mount (coreSched E X)).recorded.request w x).1
      ∧ ∀ v ∈ ((env S M fuel conds mount (coreSched E X)).recorded.request w x).2, Next Rel v ((env S M fuel conds mount (coreSched E X)).recorded.request w x).1 := by
    intro w x h
    show ArrangedSim E key Rel ((requestOf (coreSched E X) w.1 x).1, w.2 ++ [.request w.1.obs.mjd x (requestOf (coreSched E X) w.1 x).2])
      ∧ ∀ v ∈ (requestOf (coreSched E X) w.1 x).2, Next Rel v ((requestOf (coreSched E X) w.1 x).1, w.2 ++ [.request w.1.obs.mjd x (requestOf (coreSched E X) w.1 x).2])
    have hr : (coreSched E X).request w.1.sched x = (coreRequest E w.1.sched.1 x).map fun r => ((r.1, w.1.sched.2), r.2) := rfl
    unfold requestOf
    rw [hr]
    cases hc : coreRequest E w.1.sched.1 x with
    | none => exact ⟨hsame w _ _ h rfl rfl rfl, by rintro v ⟨⟩⟩
    | some z =>
      obtain ⟨s', r⟩ := z
      obtain ⟨ha, ho⟩ := Arranged.request hkey hR h hc
      refine ⟨?_, ?_⟩
      · show Arranged E key Rel s' ((Sim.toldOf (w.2 ++ [_])).map _)
        rw [told_one _ _ rfl]
        exact ha
      · intro v hv
        have hv : v ∈ r.map asked := hv
        obtain ⟨o, hor, rfl⟩ := Option.mem_map.1 hv
        unfold Next
        dsimp only
        rw [told_one _ _ rfl]
        exact ho o hor
  have hobs : ∀ (w : World (Core C Sv A × H) K × List (Sim.Ev (Obs.Visit Obs) C B)) v, ArrangedSim E key Rel w → Next Rel v w →
      ArrangedSim E key Rel ((env S M fuel conds mount (coreSched E X)).recorded.observe w v).1
      ∧ ∀ v' ∈ ((env S M fuel conds mount (coreSched E X)).recorded.observe w v).2.1, Next Rel v' ((env S M fuel conds mount (coreSched E X)).recorded.observe w v).1 := by
    intro w v h hv
    show ArrangedSim E key Rel ((observeOf S M fuel w.1 v).1, w.2 ++ [.observe w.1.obs.mjd v (observeOf S M fuel w.1 v).1.obs.mjd
      (observeOf S M fuel w.1 v).2.1 (observeOf S M fuel w.1 v).2.2]) ∧ ∀ v' ∈ (observeOf S M fuel w.1 v).2.1, Next Rel v' ((observeOf S M fuel w.1 v).1, w.2 ++ [.observe
      w.1.obs.mjd v (observeOf S M fuel w.1 v).1.obs.mjd (observeOf S M fuel w.1 v).2.1 (observeOf S M fuel w.1 v).2.2])
    unfold observeOf
    cases hob : Obs.observe S M fuel w.1.obs v.target with
    | error e => exact ⟨hsame w _ _ h rfl rfl rfl, by rintro v ⟨⟩⟩
    | ok r =>
      obtain ⟨s', r, nn⟩ := r
      refine ⟨hsame w _ _ h rfl rfl rfl, ?_⟩
      intro v' hv'
      have hv' : r = some v' := hv'
      subst hv'
      obtain ⟨-, -, -, -, -, -, -, -, k, hk⟩ := observe_some hn hd hM hob
      obtain ⟨e1, e2⟩ := hkey.prepare _ _ _ _ hk
      exact hnext v v' w _ _ hv rfl rfl rfl e1.symm e2.symm
  refine ⟨hconds, hcheck, hupdate, fun w x h _ => hsame w _ _ h rfl rfl rfl, fun w v h => hsame w _ _ h rfl rfl rfl, ?_,
    fun w c h => hsame w _ _ h rfl rfl rfl, fun w b h => hsame w _ _ h rfl rfl rfl, fun w h => Sim.refresh_keeps hconds hcheck hupdate w h,
    ?_, ?_, ?_, ?_, ?_, ?_, ?_⟩
  · intro w h
    show Arranged E key Rel w.1.sched.1.flush ((Sim.toldOf (w.2 ++ [_])).map _)
    rw [told_one _ _ rfl]
    exact Arranged.emptied h rfl rfl le_rfl
  · intro w u h hr
    have := (hreq w ((env S M fuel conds mount (coreSched E X)).recorded.clock w) h).1
    rw [hr] at this
    exact this
  · intro w u v h hr
    have hq := hreq w ((env S M fuel conds mount (coreSched E X)).recorded.clock w) h
    rw [hr] at hq
    exact ⟨hq.1, hq.2 v rfl⟩
  · intro w v x nn h ho
    have := (hobs w v h.1 h.2).1
    rw [ho] at this
    exact this
  · intro w v x v' nn h ho
    have := hobs w v h.1 h.2
    rw [ho] at this
    exact ⟨this.1, this.2 v' rfl⟩
  · intro w v h
    exact ⟨hsame w _ _ h.1 rfl rfl rfl, hnext v v w _ _ h.2 rfl rfl rfl rfl rfl⟩
  · intro w v x h _
    exact ⟨hsame w _ _ h.1 rfl rfl rfl, hnext v v w _ _ h.2 rfl rfl rfl rfl rfl⟩
  · intro w v h
    have ht : Sim.toldOf ((env S M fuel conds mount (coreSched E X)).recorded.add w v).2 = Sim.toldOf w.2 ++ [v] := by
      show Sim.toldOf (w.2 ++ [.add w.1.obs.mjd v]) = _
      rw [Sim.toldOf_append]
      rfl
    unfold ArrangedSim
    rw [ht, List.map_append]
    exact Arranged.add h.1 v h.2.1 h.2.2

/-- The visits of a simulation are in any relation that visits handed out have to those pending. -/
theorem run_arranged (S : Obs.Site) (hn : Obs.Nights S.nights) (hd : Down.Ordered S.downs) (hM : Obs.NonNeg M) (fuel : ℕ)
    (conds : Obs.St K → C) (mount : K → B → K) (hkey : KeptRows E M key) (hR : Precedes E key Rel) (X : Rest H C B) (hX : ∀ h v, 0 ≤ (X.overhead h v).2)
    (cfg : Sim.Cfg) (hstep : 0 ≤ cfg.stepNone) (h1 : 0 < cfg.startSize) (h2 : 0 < cfg.appendSize) (n : ℕ)
    (w : World (Core C Sv A × H) K) (hq : w.sched.1.qm.desired = []) (hq' : w.sched.1.qm.need = []) :
    ∃ vs : List (Obs.Visit Obs), (Sim.run (V := Obs.Visit Obs) (env S M fuel conds mount (coreSched E X)) cfg n w).st.result = vs.map some
      ∧ vs.Pairwise fun a b => Rel a.target b.target := by
  have Kc := whole_contract S hn hd M hM fuel conds mount (coreSched E X) (fun u v => hX _ _)
  obtain ⟨hres, -, ht⟩ := recorded_result (env S M fuel conds mount (coreSched E X)) cfg h1 h2 n w
  have h0 : Arranged E key Rel w.sched.1 [] := by
    refine ⟨by unfold QM.Aligned; rw [hq, hq']; rfl, fun o ho => absurd ho List.not_mem_nil, List.Pairwise.nil, fun o ho => absurd ho List.not_mem_nil, ?_, ?_, ?_⟩
    · rw [hq]; exact List.Pairwise.nil
    · rw [hq]; exact fun a ha => absurd ha List.not_mem_nil
    · rw [hq]; exact fun a ha => absurd ha List.not_mem_nil
  have key : ArrangedSim E key Rel (Sim.run (V := Obs.Visit Obs) (env S M fuel conds mount (coreSched E X)).recorded cfg n (w, [])).st.w :=
    Sim.run_keeps (Sim.recorded_contract Kc) hstep (arranged_keeps S hn hd hM fuel conds mount hkey hR X cfg) n (w, []) (fun _ => h0) (fun _ _ => h0)
  refine ⟨_, hres, ?_⟩
  have := key.order
  rw [ht, List.pairwise_map] at this
  exact this

/-- C221: when a simulation makes a visit before another that was planned earlier, a survey generated both in one answer: the visits of a block are not
interrupted by visits planned later. -/
theorem C221_blocks (S : Obs.Site) (hn : Obs.Nights S.nights) (hd : Down.Ordered S.downs) (hM : Obs.NonNeg M) (fuel : ℕ)
    (conds : Obs.St K → C) (mount : K → B → K) (hkey : KeptRows E M key) (X : Rest H C B) (hX : ∀ h v, 0 ≤ (X.overhead h v).2)
    (cfg : Sim.Cfg) (hstep : 0 ≤ cfg.stepNone) (h1 : 0 < cfg.startSize) (h2 : 0 < cfg.appendSize) (n : ℕ)
    (w : World (Core C Sv A × H) K) (hq : w.sched.1.qm.desired = []) (hq' : w.sched.1.qm.need = []) :
    ∃ vs : List (Obs.Visit Obs), (Sim.run (V := Obs.Visit Obs) (env S M fuel conds mount (coreSched E X)) cfg n w).st.result = vs.map some
      ∧ vs.Pairwise fun a b => a.target.targetId < b.target.targetId ∨ SameBlock E key a.target b.target := by
  refine run_arranged (Rel := fun a b => a.targetId < b.targetId ∨ SameBlock E key a b) S hn hd hM fuel conds mount hkey ⟨?_, fun _ _ => .inl, ?_⟩ X hX cfg hstep h1 h2 n w
    hq hq'
  · have hin : ∀ sv c first a a', key a = key a' → a.targetId = a'.targetId → InBlock E key sv c first a → InBlock E key sv c first a' := by
      rintro sv c first a a' h1 h2 ⟨i, g, hg, hk, hi⟩
      exact ⟨i, g, hg, hk.trans h1, h2.symm.trans hi⟩
    rintro a a' b b' h1 h2 h3 h4 (h | ⟨sv, c, first, ha, hb⟩)
    · left; rw [← h2, ← h4]; exact h
    · exact .inr ⟨sv, c, first, hin _ _ _ _ _ h1 h2 ha, hin _ _ _ _ _ h3 h4 hb⟩
  · intro q c o _ _ hb _ hs p hp _ _
    have ho := (List.of_mem_zip (selectable_pending (E := E) q c _ o (List.mem_of_head? hs))).1
    exact .inr (hb o ho p.1 (List.of_mem_zip hp).1)

/-- C221: without masks of the queue and for visits that do not expire, the visits of a simulation are made in the order in which they were planned, that of
their target ids. -/
theorem C221_order (S : Obs.Site) (hn : Obs.Nights S.nights) (hd : Down.Ordered S.downs) (hM : Obs.NonNeg M) (fuel : ℕ)
    (conds : Obs.St K → C) (mount : K → B → K) (hkey : KeptRows E M key) (X : Rest H C B) (hX : ∀ h v, 0 ≤ (X.overhead h v).2)
    (hmask : ∀ a c, (E.q.reward a c).length ≤ 1) (hexp : ∀ sv c, ∀ g ∈ (E.sv.gen sv c).1, g.flushBy = 0)
    (cfg : Sim.Cfg) (hstep : 0 ≤ cfg.stepNone) (h1 : 0 < cfg.startSize) (h2 : 0 < cfg.appendSize) (n : ℕ)
    (w : World (Core C Sv A × H) K) (hq : w.sched.1.qm.desired = []) (hq' : w.sched.1.qm.need = []) :
    ∃ vs : List (Obs.Visit Obs), (Sim.run (V := Obs.Visit Obs) (env S M fuel conds mount (coreSched E X)) cfg n w).st.result = vs.map some
      ∧ vs.Pairwise fun a b => a.target.targetId < b.target.targetId := by
  refine run_arranged (Rel := fun a b => a.targetId < b.targetId) S hn hd hM fuel conds mount hkey ⟨?_, fun _ _ => id, ?_⟩ X hX cfg hstep h1 h2 n w hq hq'
  · intro a a' b b' _ h2 _ h4 h
    rw [← h2, ← h4]
    exact h
  · intro q c o ha hr _ he hs p hp hp2 hne
    rw [QM.selectable_active E.q q c ha (hmask _ _) (by
      intro x hx _
      right
      unfold QM.active at hx
      obtain ⟨y, hy, rfl⟩ := List.mem_map.1 hx
      obtain ⟨sv, c', g, hg, e⟩ := he y.1 (List.of_mem_zip (List.mem_filter.1 hy).1).1
      rw [← e]
      exact hexp sv c' g hg)] at hs
    have hsub : q.active.Sublist q.desired := by
      unfold QM.active
      refine (List.Sublist.map _ List.filter_sublist).trans ?_
      rw [List.map_fst_zip (by rw [show q.need.length = q.desired.length from ha])]
    have hact : p.1 ∈ q.active := List.mem_map.2 ⟨p, List.mem_filter.2 ⟨hp, hp2⟩, rfl⟩
    have hpw := hr.sublist hsub
    cases hl : q.active with
    | nil => rw [hl] at hact; cases hact
    | cons x l =>
      rw [hl] at hs hact hpw
      have hx : x = o := by simpa using hs
      subst hx
      rcases List.mem_cons.1 hact with e | hm
      · exact absurd (by rw [e]) hne
      · exact (List.pairwise_cons.1 hpw).1 _ hm

end

/-! ### Examples -/

/-- A queue that masks pixel 1 in the first hundredth of a day, if wanted, and surveys whose visits do not expire. -/
def hidesE (hides : Bool) : Env ToyC ToySv Unit :=
  { toyE with
    sv := { toyE.sv with gen := fun s _ => (s.visits.map fun o => { o with flushBy := 0 }, s) }
    q := { toyE.q with reward := fun _ c => if hides then [.fin 0, if c.mjd < 1 / 100 then .ninf else .fin 0] else [.fin 0] } }

def hidesStart : World (Core ToyC ToySv Unit × Unit) ℚ :=
  ⟨⟨0, 0, 40⟩, (Core.init () [[⟨[.fin 1], [{ targetId := 0, ra := 1 }, { targetId := 0, band := "r" }, { targetId := 0, band := "g" }], none⟩]] 5 true [], ()), false⟩

/-- Target ids in the order of the visits. -/
def hidesOut (hides : Bool) : List (Option Int) :=
  (Sim.run (V := Obs.Visit Obs) (env toySite wholeKin 20 (fun s => ⟨s.mjd, none⟩) (fun k _ => k) (coreSched (hidesE hides) wholeRest))
    { duration := 1 / 10, startSize := 2, appendSize := 2, updateEvery := true } 20 hidesStart).st.result.map fun r => r.map fun v => v.target.targetId

/-- With a mask the first visit of a block is made after the second, and before the next block. -/
theorem C221_masked : hidesOut true = [some 6, some 5, some 7, some 8, some 9] := by decide +kernel

/-- Without masks visits are made in order. -/
example : hidesOut false = [some 5, some 6, some 7, some 8, some 9] := by decide +kernel

/-- The assumptions of C221 are met by these simulations. -/
example : Obs.NonNeg wholeKin ∧ (∀ b, KeptRows (hidesE b) wholeKin fun o => (o.ra, o.dec, o.band, o.schedulerNote)) ∧ (∀ h v, 0 ≤ (wholeRest.overhead h v).2)
    ∧ (∀ a c, ((hidesE false).q.reward a c).length ≤ 1) ∧ (∀ sv c, ∀ g ∈ ((hidesE false).sv.gen sv c).1, g.flushBy = 0)
    ∧ hidesStart.sched.1.qm.desired = [] ∧ hidesStart.sched.1.qm.need = [] := by
  refine ⟨?_, ?_, ?_, fun _ _ => le_rfl, ?_, rfl, rfl⟩
  · intro k o t
    refine ⟨?_, by norm_num [wholeKin]⟩
    unfold wholeKin
    dsimp only
    split_ifs <;> simp
  · intro b
    refine ⟨fun _ _ _ => rfl, fun _ _ => rfl, fun _ _ l o ho => ⟨o, ho, rfl, rfl⟩, ?_⟩
    intro k t o o' h
    have h : some o = some o' := h
    cases h
    exact ⟨rfl, rfl⟩
  · intro h v
    norm_num [wholeRest]
  · intro sv c g hg
    obtain ⟨o, -, rfl⟩ := List.mem_map.1 hg
    rfl

end Verif
