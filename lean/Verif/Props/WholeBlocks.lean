import Verif.Lemmas.QueueRun
import Verif.Props.DetailersCut

/-!
Property C246: a whole simulation leaves out nothing of what a survey planned in one answer, up to the last visit made of it, but visits that were hidden; so second
visits of pairs follow the first ones.
-/

namespace Verif

open Whole Core

section
variable {C B Sv A H K α : Type}

/-- A visit that the queue never hides: no mask ever covers its place, and it does not expire. -/
def NeverHidden (E : QEnv C A) (o : Obs) : Prop :=
  (∀ a c, 1 < (E.reward a c).length → ∃ r, (E.reward a c)[E.hpid (E.reward a c).length o.ra o.dec]? = some r ∧ r.isFinite = true)
  ∧ ∀ c, E.mjdOf c ≤ o.flushBy ∨ o.flushBy = 0

/-- Visits of one place and with one expiry. -/
def SamePlace (a b : Obs) : Prop := a.ra = b.ra ∧ a.dec = b.dec ∧ a.flushBy = b.flushBy

/-- The visit `v` is one of those a survey generated in one answer; those generated before it are among the visits `before`, if they are never hidden or have the place
and the expiry of the visit itself. -/
def FromStart (E : Env C Sv A) (key : Obs → α) (before : List Obs) (v : Obs) : Prop :=
  ∃ (sv : Sv) (c : C) (first : ℤ) (i : ℕ) (g : Obs), (E.sv.gen sv c).1[i]? = some g ∧ key g = key v ∧ v.targetId = first + i
    ∧ ∀ j < i, ∀ g', (E.sv.gen sv c).1[j]? = some g' → (NeverHidden E.q g' ∨ SamePlace g' g) → ∃ u ∈ before, u.targetId = first + j ∧ key u = key g'

/-- What the queue holds is one answer of a survey, and what is ticked off was made. -/
structure BlockBegun (E : Env C Sv A) (key : Obs → α) (s : Core C Sv A) (done : List Obs) : Prop where
  aligned : s.qm.Aligned
  block : s.qm.desired = [] ∨ ∃ (sv : Sv) (c : C) (first : ℤ), s.qm.desired.length = (E.sv.gen sv c).1.length
    ∧ ∀ (i : ℕ) o, s.qm.desired[i]? = some o → ∃ g, (E.sv.gen sv c).1[i]? = some g ∧ key g = key o ∧ o.targetId = first + i ∧ SamePlace o g
  ticked : ∀ (i : ℕ) o, s.qm.desired[i]? = some o → s.qm.need[i]? = some false → ∃ u ∈ done, u.targetId = o.targetId ∧ key u = key o
  history : ∀ pre v post, done = pre ++ v :: post → FromStart E key pre v

/-- A visit on its way: it is a row of the queue and all before it that is not hidden was made. -/
def Coming (E : Env C Sv A) (key : Obs → α) (s : Core C Sv A) (done : List Obs) (v : Obs) : Prop :=
  FromStart E key done v ∧ ∃ (i : ℕ) (o : Obs), s.qm.desired[i]? = some o ∧ o.targetId = v.targetId ∧ key o = key v

variable {E : Env C Sv A} {M : Obs.Kin K Obs} {key : Obs → α}

theorem BlockBegun.same {s s' : Core C Sv A} {done : List Obs} (h : BlockBegun E key s done) (h1 : s'.qm.desired = s.qm.desired) (h2 : s'.qm.need = s.qm.need) : BlockBegun E key s' done :=
  ⟨aligned_of_eq h1 h2 h.aligned, by rw [h1]; exact h.block, by rw [h1, h2]; exact h.ticked, h.history⟩

theorem BlockBegun.emptied {s s' : Core C Sv A} {done : List Obs} (h : BlockBegun E key s done) (h1 : s'.qm.desired = []) (h2 : s'.qm.need = []) : BlockBegun E key s' done :=
  ⟨by unfold QM.Aligned; rw [h1, h2]; rfl, .inl h1, by rw [h1]; intro i o hi; simp at hi, h.history⟩

theorem BlockBegun.fill (hkey : KeptRows E M key) {s s' : Core C Sv A} {done : List Obs} (h : BlockBegun E key s done) {ev : List Ev} {c : C}
    (hc : s.conditions = some c) (hf : s.fillQueue E = .ok (s', ev)) : BlockBegun E key s' done := by
  rcases fillQueue_spec hc hf with ⟨-, hq, -, hcount⟩ | ⟨i, j, tier, sv, filled, -, -, -, -, -, -, -, hfill, hq, -⟩
  · exact h.emptied (by rw [hq]; rfl) (by rw [hq]; rfl)
  · have hrows : rows s'.qm = filled.map fun o => (o, true) := by
      rw [hq]
      exact (C10_refines E.q s.qm h.aligned).2.2.1 filled
    have hdes : s'.qm.desired = filled := by rw [hq]; rfl
    have hfa := List.forall₂_iff_get.1 (fillFilters_forall _ _ _ _ hfill)
    have hids := fillFilters_ids hfill
    rw [tagIds_ids] at hids
    have hid : ∀ n (hn : n < filled.length), filled[n].targetId = s.counter + n := by
      intro n hn
      have := congrArg (fun l => l[n]?) hids
      rw [List.getElem?_map, List.getElem?_eq_getElem hn, List.getElem?_map, List.getElem?_range (by rw [hfa.1]; exact hn)] at this
      simpa using this
    refine ⟨fillQueue_aligned hf, .inr ⟨(E.sv.reward sv c).2, c, s.counter, by rw [hdes]; exact hfa.1.symm, ?_⟩, ?_, h.history⟩
    · rw [hdes]
      intro n o ho
      obtain ⟨hn, rfl⟩ := List.getElem?_eq_some_iff.1 ho
      have hn' : n < (E.sv.gen (E.sv.reward sv c).2 c).1.length := by rw [hfa.1]; exact hn
      have h4 := (hfa.2 n hn' hn).2.2.2
      have h4 : { filled[n] with targetId := ((E.sv.gen (E.sv.reward sv c).2 c).1[n]).targetId, filter := ((E.sv.gen (E.sv.reward sv c).2 c).1[n]).filter }
          = (E.sv.gen (E.sv.reward sv c).2 c).1[n] := h4
      refine ⟨(E.sv.gen (E.sv.reward sv c).2 c).1[n], List.getElem?_eq_getElem hn', ?_, hid n hn, ?_⟩
      · rw [← h4]
        exact hkey.fill _ _ _
      · rw [← h4]
        exact ⟨rfl, rfl, rfl⟩
    · intro n o ho hne
      have : (rows s'.qm)[n]? = some (o, false) := by
        unfold rows
        rw [List.getElem?_zip_eq_some]
        exact ⟨ho, hne⟩
      rw [hrows, List.getElem?_map, Option.map_eq_some_iff] at this
      obtain ⟨a, -, e⟩ := this
      cases e

/-- A row that is never hidden and pending may be handed out. -/
theorem open_verdict (q : QM A) (c : C) (j : ℕ) (o : Obs) (hj : q.desired[j]? = some o) (hl : ∀ c, E.q.mjdOf c ≤ o.flushBy ∨ o.flushBy = 0) :
    (QM.mjdVerdict q.desired (E.q.mjdOf c))[j]? = some true := by
  obtain ⟨hid, rfl⟩ := List.getElem?_eq_some_iff.1 hj
  unfold QM.mjdVerdict
  rw [List.getElem?_zipWith, List.getElem?_eq_getElem hid]
  rcases hl c with h1 | h1
  · have hle := C16_le_complete Tol.default (q.desired.map (fun o => (E.q.mjdOf c, o.flushBy))) j (by simpa using hid) (by simpa using h1)
    rw [hle]; simp
  · have hlen : j < (leA Tol.default (q.desired.map (fun o => (E.q.mjdOf c, o.flushBy)))).length := by
      have := QM.mjdVerdict_length q.desired (E.q.mjdOf c)
      unfold QM.mjdVerdict at this
      rw [List.length_zipWith] at this
      omega
    rw [List.getElem?_eq_getElem hlen]
    simp [h1]

theorem open_unmasked (a : A) (c : C) (o : Obs) (h : NeverHidden E.q o) : QM.unmasked E.q a c o = true := by
  unfold QM.unmasked
  dsimp only
  split_ifs with hr
  · obtain ⟨r, hr, hfin⟩ := h.1 a c hr
    rw [hr]
    exact hfin
  · rfl

theorem leA_map (t : Tol) (ps : List (ℚ × ℚ)) : ∃ f : ℚ × ℚ → Bool, leA t ps = ps.map f := by
  unfold leA checkLimit
  split
  · exact ⟨_, rfl⟩
  · dsimp only
    split
    · rw [List.map_map]
      exact ⟨_, rfl⟩
    · exact ⟨_, rfl⟩

/-- Rows with one expiry have one verdict. -/
theorem alike_verdict (d : List Obs) (x : ℚ) : ∃ f : ℚ → Bool, QM.mjdVerdict d x = d.map fun o => f o.flushBy := by
  obtain ⟨f, hf⟩ := leA_map Tol.default (d.map fun o => (x, o.flushBy))
  refine ⟨fun y => f (x, y) || decide (y = 0), ?_⟩
  unfold QM.mjdVerdict
  rw [hf, List.map_map]
  induction d with
  | nil => rfl
  | cons a d ih =>
    simp only [List.map_cons, List.zipWith_cons_cons, Function.comp]
    congr 1
    clear ih hf
    induction d with
    | nil => rfl
    | cons a d ih => simp only [List.map_cons, List.zipWith_cons_cons, Function.comp]; rw [ih]

theorem alike_unmasked (a : A) (c : C) (o o' : Obs) (h : SamePlace o' o) (ho : QM.unmasked E.q a c o = true) : QM.unmasked E.q a c o' = true := by
  unfold QM.unmasked at *
  rw [h.1, h.2.1]
  exact ho

/-- The first row handed out: all before it that is not hidden is ticked off. -/
theorem head_index (q : QM A) (ha : q.Aligned) (c : C) (o : Obs) (h : (q.selectable E.q c (E.q.mjdOf c)).head? = some o) :
    ∃ i : ℕ, q.desired[i]? = some o ∧ ∀ j < i, ∀ o', q.desired[j]? = some o' → (NeverHidden E.q o' ∨ SamePlace o' o) → q.need[j]? = some false := by
  unfold QM.selectable at h
  rw [List.head?_map, Option.map_eq_some_iff] at h
  obtain ⟨x, hx, rfl⟩ := h
  rw [List.head?_filter] at hx
  obtain ⟨hpx, i, hi, hxi, hbefore⟩ := List.find?_eq_some_iff_getElem.1 hx
  have hv := QM.mjdVerdict_length q.desired (E.q.mjdOf c)
  have hlen : i < q.desired.length := by rw [List.length_zip] at hi; omega
  refine ⟨i, ?_, ?_⟩
  · rw [List.getElem_zip] at hxi
    rw [List.getElem?_eq_getElem hlen, ← hxi]
  · intro j hj o' ho' hopen
    have hjl : j < q.desired.length := by omega
    have hjn : j < q.need.length := by rw [show q.need.length = q.desired.length from ha]; exact hjl
    have := hbefore j hj
    rw [List.getElem_zip, List.getElem_zip] at this
    have hshown : (QM.mjdVerdict q.desired (E.q.mjdOf c))[j]? = some true ∧ QM.unmasked E.q q.aux c o' = true := by
      rcases hopen with hopen | hopen
      · exact ⟨open_verdict (E := E) q c j o' ho' hopen.2, open_unmasked q.aux c o' hopen⟩
      · simp only [Bool.and_eq_true] at hpx
        refine ⟨?_, alike_unmasked q.aux c _ _ hopen hpx.2⟩
        have h2 := hpx.1.2
        rw [← hxi, List.getElem_zip, List.getElem_zip] at h2 hopen
        dsimp only at h2 hopen
        obtain ⟨f, hf⟩ := alike_verdict q.desired (E.q.mjdOf c)
        have h3 : (QM.mjdVerdict q.desired (E.q.mjdOf c))[i]? = some true := by rw [List.getElem?_eq_getElem (by omega), h2]
        rw [hf, List.getElem?_map, List.getElem?_eq_getElem hlen] at h3
        rw [hf, List.getElem?_map, ho']
        rw [← h3]
        show some (f o'.flushBy) = some (f _)
        rw [hopen.2.2]
    have hvj := hshown.1
    rw [List.getElem?_eq_getElem (by omega)] at hvj
    rw [List.getElem?_eq_getElem hjl] at ho'
    simp only [Option.some.injEq] at hvj ho'
    rw [ho', hvj, hshown.2] at this
    rw [List.getElem?_eq_getElem hjn]
    simpa using this

theorem BlockBegun.serve (hkey : KeptRows E M key) {s : Core C Sv A} {done : List Obs} (h : BlockBegun E key s done) (c : C) (o : Obs)
    (ho : o ∈ (s.qm.request E.q c false).1) : Coming E key s done o := by
  obtain ⟨o', hsel, hk, hid⟩ := qrequest_head hkey s.qm h.aligned c o ho
  obtain ⟨i, hi, hb⟩ := head_index s.qm h.aligned c o' hsel
  refine ⟨?_, i, o', hi, hid, hk⟩
  rcases h.block with e | ⟨sv, c', first, hlen, hrow⟩
  · rw [e] at hi; simp at hi
  · obtain ⟨g, hg, hgk, hgi, hga⟩ := hrow i o' hi
    refine ⟨sv, c', first, i, g, hg, hgk.trans hk, by rw [← hid]; exact hgi, ?_⟩
    intro j hj g' hg' hopen
    have hjl : j < s.qm.desired.length := by
      have := (List.getElem?_eq_some_iff.1 hi).1
      omega
    have hjs : s.qm.desired[j]? = some s.qm.desired[j] := List.getElem?_eq_getElem hjl
    obtain ⟨g2, hg2, hk2, hi2, ho2⟩ := hrow j _ hjs
    rw [hg'] at hg2
    cases hg2
    obtain ⟨u, hu, e1, e2⟩ := h.ticked j _ hjs (hb j hj _ hjs (by
      rcases hopen with hopen | hopen
      · left
        unfold NeverHidden at *
        rw [ho2.1, ho2.2.1, ho2.2.2]
        exact hopen
      · exact .inr ⟨ho2.1.trans (hopen.1.trans hga.1.symm), ho2.2.1.trans (hopen.2.1.trans hga.2.1.symm), ho2.2.2.trans (hopen.2.2.trans hga.2.2.symm)⟩))
    exact ⟨u, hu, e1.trans hi2, e2.trans hk2.symm⟩

theorem Coming.same {s s' : Core C Sv A} {done : List Obs} {v v' : Obs} (h : Coming E key s done v) (h1 : s'.qm.desired = s.qm.desired)
    (hk : key v' = key v) (hi : v'.targetId = v.targetId) : Coming E key s' done v' := by
  obtain ⟨⟨sv, c, first, i, g, h3, h4, h5, h6⟩, j, o, h7, h8, h9⟩ := h
  exact ⟨⟨sv, c, first, i, g, h3, h4.trans hk.symm, hi.trans h5, h6⟩, j, o, by rw [h1]; exact h7, h8.trans hi.symm, h9.trans hk.symm⟩

theorem BlockBegun.request (hkey : KeptRows E M key) {s s' : Core C Sv A} {done : List Obs} (h : BlockBegun E key s done)
    {x : ℚ} {r : Option Obs} (hreq : coreRequest E s x = some (s', r)) : BlockBegun E key s' done ∧ ∀ o ∈ r, Coming E key s' done o := by
  unfold coreRequest at hreq
  cases hr : s.request E (some x) false with
  | error e => rw [hr] at hreq; cases hreq
  | ok z =>
    obtain ⟨s2, l, ev⟩ := z
    rw [hr] at hreq
    have hreq : some (s2, l.bind List.head?) = some (s', r) := hreq
    simp only [Option.some.injEq, Prod.mk.injEq] at hreq
    obtain ⟨rfl, rfl⟩ := hreq
    obtain ⟨c, s1, ev1, hc, hfirst, hrest⟩ := request_cases hr
    have h1 : BlockBegun E key s1 done ∧ s1.conditions = some c := by
      rcases hfirst with ⟨-, hf⟩ | ⟨-, rfl, -⟩
      · exact ⟨h.fill hkey hc hf, (fillQueue_frame hf).1.trans hc⟩
      · exact ⟨h, hc⟩
    have hserve : ∀ t : Core C Sv A, BlockBegun E key t done → BlockBegun E key { t with qm := (t.qm.request E.q c false).2 } done
        ∧ ∀ o ∈ ((t.qm.request E.q c false).1.map setNote).head?, Coming E key { t with qm := (t.qm.request E.q c false).2 } done o := by
      intro t ht
      obtain ⟨q1, q2⟩ := qrequest_queue E.q t.qm c false
      refine ⟨ht.same q1 q2, ?_⟩
      intro o ho
      obtain ⟨o1, ho1, rfl⟩ := List.mem_map.1 (List.mem_of_head? ho)
      exact (ht.serve hkey c o1 ho1).same q1 (hkey.note _ _) rfl
    rcases hrest with ⟨-, rfl, rfl, -⟩ | ⟨-, -, rfl, rfl, -⟩ | ⟨-, -, s3, ev2, hf, rfl, -, hout⟩
    · exact ⟨h1.1, by rintro o ⟨⟩⟩
    · exact hserve s1 h1.1
    · have hfl : BlockBegun E key ({ s1 with qm := (s1.qm.request E.q c false).2.flush } : Core C Sv A) done := h1.1.emptied rfl rfl
      have h3 := hserve s3 (hfl.fill hkey h1.2 hf)
      refine ⟨h3.1, ?_⟩
      rcases hout with ⟨-, rfl⟩ | ⟨-, rfl⟩
      · rintro o ⟨⟩
      · exact h3.2

theorem BlockBegun.update {s : Core C Sv A} {done : List Obs} (h : BlockBegun E key s done) (c : C) : BlockBegun E key (s.update E c) done := by
  have hq : (s.update E c).qm = (s.tooStep E c).qm := rfl
  have : (s.tooStep E c).qm = s.qm ∨ (s.tooStep E c).qm = s.qm.flush := by
    unfold tooStep
    split
    · split
      · exact .inl rfl
      · dsimp only
        split
        · exact .inr rfl
        · exact .inl rfl
    · exact .inl rfl
  rcases this with e | e
  · exact h.same (by rw [hq, e]) (by rw [hq, e])
  · exact h.emptied (by rw [hq, e]; rfl) (by rw [hq, e]; rfl)

theorem BlockBegun.add {s : Core C Sv A} {done : List Obs} (h : BlockBegun E key s done) (v : Obs.Visit Obs) (hv : Coming E key s done v.target) :
    BlockBegun E key (s.addObs E (told v)).1 (done ++ [v.target]) := by
  have hb : (backfillBand (told v)).targetId = v.target.targetId := by unfold backfillBand told; split <;> rfl
  have hdes : (s.addObs E (told v)).1.qm.desired = s.qm.desired := by
    show (s.qm.addObs E.q (backfillBand (told v))).desired = _
    unfold QM.addObs
    dsimp only
    split <;> rfl
  have hrows : rows (s.addObs E (told v)).1.qm = (rows s.qm).map fun r => if r.1.targetId = v.target.targetId then (r.1, false) else r := by
    have := (C10_refines E.q s.qm h.aligned).2.2.2.2.1 (backfillBand (told v))
    rw [hb] at this
    exact this
  refine ⟨qaddObs_aligned _ _ _ h.aligned, by rw [hdes]; exact h.block, ?_, ?_⟩
  · intro i o hi hne
    have hz : (rows (s.addObs E (told v)).1.qm)[i]? = some (o, false) := by
      unfold rows
      rw [List.getElem?_zip_eq_some]
      exact ⟨hi, hne⟩
    rw [hdes] at hi
    rw [hrows, List.getElem?_map, Option.map_eq_some_iff] at hz
    obtain ⟨r, hr, e⟩ := hz
    unfold rows at hr
    rw [List.getElem?_zip_eq_some] at hr
    obtain ⟨hr1, hr2⟩ := hr
    have hro : r.1 = o := by rw [hi] at hr1; cases hr1; rfl
    by_cases he : r.1.targetId = v.target.targetId
    · refine ⟨v.target, by simp, by rw [← he, hro], ?_⟩
      obtain ⟨-, j, o2, hj, hj1, hj2⟩ := hv
      rcases h.block with e0 | ⟨sv, c', first, hlen, hrow⟩
      · rw [e0] at hi; simp at hi
      · obtain ⟨-, -, -, e1, -⟩ := hrow i o hi
        obtain ⟨-, -, -, e2, -⟩ := hrow j o2 hj
        have : i = j := by
          have : first + (i : ℤ) = first + j := by rw [← e1, ← e2, hj1, ← he, hro]
          omega
        subst this
        rw [hi] at hj
        cases hj
        exact hj2.symm
    · rw [if_neg he] at e
      obtain ⟨u, hu, e1, e2⟩ := h.ticked i o hi (by rw [hr2, e])
      exact ⟨u, List.mem_append_left _ hu, e1, e2⟩
  · intro pre w post e
    rcases List.eq_nil_or_concat post with rfl | ⟨post', z, rfl⟩
    · have := List.append_inj' e rfl
      obtain ⟨e1, e2⟩ := this
      cases e2
      rw [← e1]
      exact hv.1
    · have e' : done ++ [v.target] = (pre ++ w :: post') ++ [z] := by rw [e]; simp
      exact h.history pre w post' (List.append_inj' e' rfl).1

theorem begun_keeps (hkey : KeptRows E M key) : QueueKeeps E M (BlockBegun E key) (Coming E key) where
  update _ _ c h := h.update c
  flush _ _ h := h.emptied rfl rfl
  request _ _ _ _ _ h hr := h.request hkey hr
  prepare _ _ _ _ _ _ h hp := h.same rfl (hkey.prepare _ _ _ _ hp).1 (hkey.prepare _ _ _ _ hp).2
  add _ _ v h hv := h.add v hv

/-- C246: each visit that a simulation returns is one of those that a survey generated in one answer; those generated before it in this answer were made before it,
in the same simulation, if the queue never hides them or they have the place and the expiry of the visit itself. -/
theorem C246_blocks (S : Obs.Site) (hn : Obs.Nights S.nights) (hd : Down.Ordered S.downs) (hM : Obs.NonNeg M) (fuel : ℕ)
    (conds : Obs.St K → C) (mount : K → B → K) (hkey : KeptRows E M key) (X : Rest H C B) (hX : ∀ h v, 0 ≤ (X.overhead h v).2)
    (cfg : Sim.Cfg) (hstep : 0 ≤ cfg.stepNone) (h1 : 0 < cfg.startSize) (h2 : 0 < cfg.appendSize) (n : ℕ)
    (w : World (Core C Sv A × H) K) (hq : w.sched.1.qm.desired = []) (hq' : w.sched.1.qm.need = []) :
    ∃ vs : List (Obs.Visit Obs), (Sim.run (V := Obs.Visit Obs) (env S M fuel conds mount (coreSched E X)) cfg n w).st.result = vs.map some
      ∧ ∀ pre v post, vs = pre ++ v :: post → FromStart E key (pre.map Obs.Visit.target) v.target := by
  have h0 : BlockBegun E key w.sched.1 [] := by
    refine ⟨by unfold QM.Aligned; rw [hq, hq']; rfl, .inl hq, by rw [hq]; intro i o hi; simp at hi, ?_⟩
    intro pre v post e
    cases pre <;> cases e
  obtain ⟨s, vs, hres, hB⟩ := run_queue S hn hd hM fuel conds mount (begun_keeps hkey) X hX cfg hstep h1 h2 n w h0
  refine ⟨vs, hres, ?_⟩
  intro pre v post e
  exact hB.history _ _ (post.map Obs.Visit.target) (by rw [e]; simp)

/-- C246: if each answer of a survey has, for each second visit of a pair, the first one before it, with the same place and expiry or never hidden, then in a
simulation each second visit follows its first one, whatever the masks of the queue. -/
theorem C246_mates (S : Obs.Site) (hn : Obs.Nights S.nights) (hd : Down.Ordered S.downs) (hM : Obs.NonNeg M) (fuel : ℕ)
    (conds : Obs.St K → C) (mount : K → B → K) (hkey : KeptRows E M key) (X : Rest H C B) (hX : ∀ h v, 0 ≤ (X.overhead h v).2)
    (Second : α → Prop) (Mate : α → α → Prop)
    (hpairs : ∀ sv c (i : ℕ) g, (E.sv.gen sv c).1[i]? = some g → Second (key g) →
      ∃ (j : ℕ) (g' : Obs), j < i ∧ (E.sv.gen sv c).1[j]? = some g' ∧ Mate (key g') (key g) ∧ (NeverHidden E.q g' ∨ SamePlace g' g))
    (cfg : Sim.Cfg) (hstep : 0 ≤ cfg.stepNone) (h1 : 0 < cfg.startSize) (h2 : 0 < cfg.appendSize) (n : ℕ)
    (w : World (Core C Sv A × H) K) (hq : w.sched.1.qm.desired = []) (hq' : w.sched.1.qm.need = []) :
    ∃ vs : List (Obs.Visit Obs), (Sim.run (V := Obs.Visit Obs) (env S M fuel conds mount (coreSched E X)) cfg n w).st.result = vs.map some
      ∧ ∀ pre v post, vs = pre ++ v :: post → Second (key v.target) →
        ∃ u ∈ pre, Mate (key u.target) (key v.target) ∧ u.target.targetId < v.target.targetId := by
  obtain ⟨vs, hres, h⟩ := C246_blocks (key := key) S hn hd hM fuel conds mount hkey X hX cfg hstep h1 h2 n w hq hq'
  refine ⟨vs, hres, ?_⟩
  intro pre v post e hs
  obtain ⟨sv, c, first, i, g, hg, hk, hid, hall⟩ := h pre v post e
  rw [← hk] at hs ⊢
  obtain ⟨j, g', hj, hg', hm, ho⟩ := hpairs sv c i g hg hs
  obtain ⟨u, hu, hui, huk⟩ := hall j hj g' hg' ho
  obtain ⟨x, hx, rfl⟩ := List.mem_map.1 hu
  exact ⟨x, hx, by rw [huk]; exact hm, by rw [hui, hid]; omega⟩

end

/-! ### Pairs -/

/-- The first visit of a pair has the place of the second, and their notes differ in the last letter, `a` and `b`. -/
def FirstOf {P : Type} (a b : P × String) : Prop := a.1 = b.1 ∧ ∃ m, a.2 = m ++ ", a" ∧ b.2 = m ++ ", b"

/-- What is taken as pairs: visits noted as second ones come after the first ones, of the same place. -/
theorem pairs_in_order (band : String) (e : Option ℚ) (cur : String) (os : List Det.Obs) (hlen : ∀ o ∈ os, o.note.length ≤ 57) (i : ℕ) (g : Det.Obs)
    (hg : (Det.takeAsPairs band e cur os)[i]? = some g) (hs : ∃ m, g.note = m ++ ", b") :
    ∃ (j : ℕ) (g' : Det.Obs), j < i ∧ (Det.takeAsPairs band e cur os)[j]? = some g' ∧ FirstOf (g'.id, g'.note) (g.id, g.note) ∧ g'.flush = g.flush := by
  obtain ⟨first, second, htp, hp1, hp2⟩ := C40_pairs band e cur os
  rw [htp] at hg ⊢
  have hf : List.Forall₂ (fun x o : Det.Obs => o.id = x.id ∧ o.flush = x.flush ∧ (x.note.length ≤ 57 → o.note = x.note ++ ", a")) os first
      ∧ List.Forall₂ (fun x o : Det.Obs => o.id = x.id ∧ o.flush = x.flush ∧ (x.note.length ≤ 57 → o.note = x.note ++ ", b")) os second := by
    by_cases hc : cur = band
    · obtain ⟨h1, h2⟩ := hp1 hc
      exact ⟨h1.imp fun x o h => ⟨by rw [h.1], by rw [h.1], h.2.2.2⟩, h2.imp fun x o h => ⟨by rw [h.1], by rw [h.1], h.2⟩⟩
    · obtain ⟨h1, h2⟩ := hp2 hc
      exact ⟨h1.imp fun x o h => ⟨by rw [h.1], by rw [h.1], h.2⟩, h2.imp fun x o h => ⟨by rw [h.1], by rw [h.1], h.2.2.2⟩⟩
  obtain ⟨hf1, hf2⟩ := hf
  obtain ⟨l1, g1⟩ := List.forall₂_iff_get.1 hf1
  obtain ⟨l2, g2⟩ := List.forall₂_iff_get.1 hf2
  by_cases hi : i < first.length
  · exfalso
    rw [List.getElem?_append_left hi, List.getElem?_eq_getElem hi] at hg
    have hx := g1 i (by omega) hi
    have hnote := hx.2.2 (hlen _ (List.getElem_mem _))
    simp only [Option.some.injEq] at hg
    obtain ⟨m, hm⟩ := hs
    rw [List.get_eq_getElem, hg, hm] at hnote
    have := congrArg (fun t : String => t.toList.getLast?) hnote
    simp at this
  · rw [List.getElem?_append_right (by omega)] at hg
    obtain ⟨hk, hg⟩ := List.getElem?_eq_some_iff.1 hg
    have hko : i - first.length < os.length := by omega
    have hx := g1 (i - first.length) hko (by omega)
    have hy := g2 (i - first.length) hko hk
    simp only [List.get_eq_getElem] at hx hy
    rw [hg] at hy
    have hno := hlen _ (List.getElem_mem hko)
    refine ⟨i - first.length, first[i - first.length], by omega, ?_, ⟨?_, os[i - first.length].note, hx.2.2 hno, hy.2.2 hno⟩, hx.2.1.trans hy.2.1.symm⟩
    · rw [List.getElem?_append_left (by omega), List.getElem?_eq_getElem (by omega)]
    · exact hx.1.trans hy.1.symm

section
variable {C B Sv A H K : Type} {E : Env C Sv A} {M : Obs.Kin K Obs}

/-- C246: where all surveys take their visits as pairs, in a simulation each visit noted as the second one of a pair follows the first one, of the same place, whatever the
masks of the queue, the expiry, the rejected visits and the flushes of the queue. -/
theorem C246_pairs (S : Obs.Site) (hn : Obs.Nights S.nights) (hd : Down.Ordered S.downs) (hM : Obs.NonNeg M) (fuel : ℕ)
    (conds : Obs.St K → C) (mount : K → B → K) (hkey : KeptRows E M fun o => ((o.ra, o.dec), o.schedulerNote)) (X : Rest H C B) (hX : ∀ h v, 0 ≤ (X.overhead h v).2)
    (f : Det.Obs → Obs) (ra de : ℕ → ℚ) (hf : ∀ o, (f o).schedulerNote = o.note ∧ (f o).flushBy = o.flush ∧ (f o).ra = ra o.id ∧ (f o).dec = de o.id)
    (hgen : ∀ sv c, ∃ band e cur os, (E.sv.gen sv c).1 = (Det.takeAsPairs band e cur os).map f ∧ ∀ o ∈ os, o.note.length ≤ 57)
    (cfg : Sim.Cfg) (hstep : 0 ≤ cfg.stepNone) (h1 : 0 < cfg.startSize) (h2 : 0 < cfg.appendSize) (n : ℕ)
    (w : World (Core C Sv A × H) K) (hq : w.sched.1.qm.desired = []) (hq' : w.sched.1.qm.need = []) :
    ∃ vs : List (Obs.Visit Obs), (Sim.run (V := Obs.Visit Obs) (env S M fuel conds mount (coreSched E X)) cfg n w).st.result = vs.map some
      ∧ ∀ pre v post m, vs = pre ++ v :: post → v.target.schedulerNote = m ++ ", b" →
        ∃ u ∈ pre, u.target.schedulerNote = m ++ ", a" ∧ u.target.ra = v.target.ra ∧ u.target.dec = v.target.dec := by
  obtain ⟨vs, hres, h⟩ := C246_mates S hn hd hM fuel conds mount hkey X hX (fun k => ∃ m, k.2 = m ++ ", b") FirstOf (by
    intro sv c i g hg hs
    obtain ⟨band, e, cur, os, hg0, hlen⟩ := hgen sv c
    rw [hg0, List.getElem?_map, Option.map_eq_some_iff] at hg
    obtain ⟨d, hd, rfl⟩ := hg
    dsimp only at hs
    rw [(hf d).1] at hs
    obtain ⟨j, d', hj, hd', ⟨hid, m, hm1, hm2⟩, hfl⟩ := pairs_in_order band e cur os hlen i d hd hs
    have hid : d'.id = d.id := hid
    refine ⟨j, f d', hj, by rw [hg0, List.getElem?_map, hd']; rfl, ⟨?_, m, by dsimp only; rw [(hf d').1]; exact hm1, by dsimp only; rw [(hf d).1]; exact hm2⟩, .inr ⟨?_, ?_, ?_⟩⟩
    · dsimp only
      rw [(hf d').2.2.1, (hf d).2.2.1, (hf d').2.2.2, (hf d).2.2.2, hid]
    · rw [(hf d').2.2.1, (hf d).2.2.1, hid]
    · rw [(hf d').2.2.2, (hf d).2.2.2, hid]
    · rw [(hf d').2.1, (hf d).2.1, hfl]) cfg hstep h1 h2 n w hq hq'
  refine ⟨vs, hres, ?_⟩
  intro pre v post m e hm
  obtain ⟨u, hu, ⟨hp, m', e1, e2⟩, -⟩ := h pre v post e ⟨m, hm⟩
  have e2 : v.target.schedulerNote = m' ++ ", b" := e2
  have : m = m' := by
    rw [hm] at e2
    have := congrArg String.toList e2
    rw [String.toList_append, String.toList_append] at this
    exact String.toList_injective (List.append_cancel_right this)
  subst this
  exact ⟨u, hu, e1, congrArg Prod.fst hp, congrArg Prod.snd hp⟩

end

/-! ### Examples -/

/-- A visit from the columns the detailer knows. -/
def pairVisit (o : Det.Obs) : Obs := { targetId := 0, ra := o.id, band := o.band, schedulerNote := o.note, flushBy := o.flush }

/-- A survey that takes two fields as pairs, and a queue that masks the second of them at first, if wanted. -/
def pairsE (hides : Bool) : Env ToyC ToySv Unit :=
  { hidesE hides with sv := { toyE.sv with gen := fun s _ => ((Det.takeAsPairs "r" none "g" [⟨1, "g", 30, "blob", "", "", "", 0⟩, ⟨0, "g", 30, "blob", "", "", "", 0⟩]).map pairVisit, s) } }

/-- Places and notes in the order of the visits. -/
def pairsOut (hides : Bool) : List (Option (ℚ × String)) :=
  (Sim.run (V := Obs.Visit Obs) (env toySite wholeKin 20 (fun s => ⟨s.mjd, none⟩) (fun k _ => k) (coreSched (pairsE hides) wholeRest))
    { duration := 1 / 10, startSize := 2, appendSize := 2, updateEvery := true } 20 hidesStart).st.result.map fun r => r.map fun v => (v.target.ra, v.target.schedulerNote)

/-- With and without the mask second visits follow the first ones; the last pair is not finished. -/
example : pairsOut true = [some (0, "blob, a"), some (1, "blob, a"), some (1, "blob, b"), some (0, "blob, b"), some (1, "blob, a")]
    ∧ pairsOut false = [some (1, "blob, a"), some (0, "blob, a"), some (1, "blob, b"), some (0, "blob, b"), some (1, "blob, a")] := by decide +kernel

/-- The assumptions of C246 are met by these simulations. -/
example : Obs.NonNeg wholeKin ∧ (∀ b, KeptRows (pairsE b) wholeKin fun o => ((o.ra, o.dec), o.schedulerNote)) ∧ (∀ h v, 0 ≤ (wholeRest.overhead h v).2)
    ∧ (∀ o, (pairVisit o).schedulerNote = o.note ∧ (pairVisit o).flushBy = o.flush ∧ (pairVisit o).ra = (fun i : ℕ => (i : ℚ)) o.id ∧ (pairVisit o).dec = (fun _ => (0 : ℚ)) o.id)
    ∧ (∀ b sv c, ∃ band e cur os, ((pairsE b).sv.gen sv c).1 = (Det.takeAsPairs band e cur os).map pairVisit ∧ ∀ o ∈ os, o.note.length ≤ 57)
    ∧ hidesStart.sched.1.qm.desired = [] ∧ hidesStart.sched.1.qm.need = [] := by
  refine ⟨?_, ?_, ?_, fun _ => ⟨rfl, rfl, rfl, rfl⟩, ?_, rfl, rfl⟩
  · intro k o t
    refine ⟨?_, by norm_num [wholeKin]⟩
    unfold wholeKin
    dsimp only
    split_ifs <;> simp
  · intro b
    refine ⟨fun _ _ _ => rfl, fun _ _ => rfl, fun _ _ l o ho => ⟨o, ho, rfl, rfl⟩, ?_⟩
    intro k t o o' h
    have h : some o = some o' := h
    cases h
    exact ⟨rfl, rfl⟩
  · intro h v
    norm_num [wholeRest]
  · intro b sv c
    exact ⟨_, _, _, _, rfl, by decide⟩

/-- Without masks no visit without expiry is ever hidden; with the mask that of the second field may be. -/
example : NeverHidden (pairsE false).q { targetId := 0, ra := 1 } ∧ ¬ NeverHidden (pairsE true).q { targetId := 0, ra := 1 } := by
  refine ⟨⟨fun a c h => absurd h (by show ¬ 1 < 1; decide), fun _ => .inr rfl⟩, ?_⟩
  intro h
  obtain ⟨r, hr, hf⟩ := h.1 () ⟨0, none⟩ (by decide)
  have e : some XReal.ninf = some r := by
    rw [← hr]
    decide +kernel
  cases e
  exact absurd hf (by decide)

end Verif
