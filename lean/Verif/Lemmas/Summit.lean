import Verif.Model.Summit
import Verif.Props.Core
import Verif.Props.IntRounded
import Mathlib.Data.List.GetD

namespace Verif
variable {C Sv A : Type}
open Core

namespace QM

theorem active_flush (q : QM A) : q.flush.active = [] := rfl

theorem active_setQueue (q : QM A) (l : List Obs) : (q.setQueue l).active = l := by
  unfold active setQueue
  simp only
  induction l with
  | nil => rfl
  | cons o l ih => simpa [List.replicate_succ] using ih

theorem active_append (q : QM A) (l : List Obs) (h : q.Aligned) : (q.append l).active = q.active ++ l := by
  have hl : ((l.zip (List.replicate l.length true)).filter (fun p => p.2)).map Prod.fst = l := by
    induction l with
    | nil => rfl
    | cons o l ih => simpa [List.replicate_succ] using ih
  unfold active append
  simp only
  rw [List.zip_append (show q.desired.length = q.need.length from (show q.need.length = q.desired.length from h).symm), List.filter_append, List.map_append, hl]

theorem append_aligned (q : QM A) (l : List Obs) (h : q.Aligned) : (q.append l).Aligned := by
  unfold Aligned append at *
  simp [h]

theorem active_mark (q : QM A) (o : Obs) : (q.mark o).active = q.active.filter (fun d => decide (d.targetId ≠ o.targetId)) := by
  unfold active mark
  simp only [zip_clearWhere]
  generalize q.desired.zip q.need = z
  induction z with
  | nil => rfl
  | cons p z ih =>
    obtain ⟨a, b⟩ := p
    cases b with
    | false => simpa using ih
    | true =>
      by_cases h : a.targetId = o.targetId
      · simpa [h] using ih
      · simpa [h] using ih

theorem active_addObs (E : QEnv C A) (q : QM A) (o : Obs) :
    (q.addObs E o).active = q.active.filter (fun d => decide (d.targetId ≠ o.targetId)) := by
  unfold addObs
  simp only
  by_cases h : q.desired.length > 0
  · rw [if_pos h]; exact active_mark q o
  · rw [if_neg h]
    have hd : q.desired = [] := List.length_eq_zero_iff.mp (by omega)
    unfold active
    simp [hd]

theorem nonePending_iff (q : QM A) (h : q.Aligned) : q.nonePending = true ↔ q.active = [] := by
  unfold nonePending active
  rw [List.map_eq_nil_iff, List.filter_eq_nil_iff, List.all_eq_true]
  constructor
  · intro hn p hp
    have := hn p.2 (List.of_mem_zip (a := p.1) (b := p.2) hp).2
    simpa using this
  · intro hn b hb
    obtain ⟨i, hi, rfl⟩ := List.getElem_of_mem hb
    have hd : i < q.desired.length := by rw [← show q.need.length = q.desired.length from h]; exact hi
    have : (q.desired[i], q.need[i]) ∈ q.desired.zip q.need := by
      rw [← List.getElem_zip (h := by simp [hi, hd])]
      exact List.getElem_mem _
    have := hn _ this
    simpa using this

/-- Never expires, whatever the conditions. -/
def Lasting (E : QEnv C A) (o : Obs) : Prop := ∀ c, E.mjdOf c ≤ o.flushBy ∨ o.flushBy = 0

theorem zip3_filter (d : List Obs) : ∀ (n v : List Bool), n.length = d.length → v.length = d.length →
    (∀ i : ℕ, n[i]? = some true → v[i]? = some true) →
    ((d.zip (n.zip v)).filter (fun x => x.2.1 && x.2.2)).map Prod.fst = ((d.zip n).filter (fun p => p.2)).map Prod.fst := by
  induction d with
  | nil => intro n v _ _ _; simp
  | cons o d ih =>
    intro n v hn hv hi
    rcases n with _ | ⟨b, n⟩
    · simp at hn
    rcases v with _ | ⟨x, v⟩
    · simp at hv
    have h0 := hi 0
    have ih' := ih n v (by simpa using hn) (by simpa using hv) (fun i => by simpa using hi (i + 1))
    cases b with
    | false => simpa using ih'
    | true =>
      have : x = true := by simpa using h0
      subst this
      simpa using ih'

theorem selectable_active (E : QEnv C A) (q : QM A) (c : C) (h : q.Aligned) (hm : (E.reward q.aux c).length ≤ 1)
    (hl : ∀ o ∈ q.active, Lasting E o) : q.selectable E c (E.mjdOf c) = q.active := by
  unfold selectable
  have hu : ∀ o, unmasked E q.aux c o = true := by
    intro o; unfold unmasked; simp only; rw [if_neg (by omega)]
  have : (fun x : Obs × Bool × Bool => x.2.1 && x.2.2 && unmasked E q.aux c x.1) = fun x => x.2.1 && x.2.2 := by
    funext x; rw [hu, Bool.and_true]
  rw [this]
  unfold active
  apply zip3_filter _ _ _ h (mjdVerdict_length _ _)
  intro i hi
  have hin : i < q.need.length := (List.getElem?_eq_some_iff.mp hi).1
  have hid : i < q.desired.length := by rw [← show q.need.length = q.desired.length from h]; exact hin
  have hact : q.desired[i] ∈ q.active := by
    unfold active
    rw [List.mem_map]
    refine ⟨(q.desired[i], true), ?_, rfl⟩
    rw [List.mem_filter]
    refine ⟨?_, rfl⟩
    have hz : (q.desired.zip q.need)[i]? = some (q.desired[i], true) := by
      rw [List.getElem?_zip_eq_some]; exact ⟨List.getElem?_eq_getElem hid, hi⟩
    exact List.mem_of_getElem? hz
  unfold mjdVerdict
  rw [List.getElem?_zipWith]
  rw [List.getElem?_eq_getElem hid]
  rcases hl _ hact c with h1 | h1
  · have hle := C16_le_complete Tol.default (q.desired.map (fun o => (E.mjdOf c, o.flushBy))) i (by simpa using hid) (by simpa using h1)
    rw [hle]; simp
  · have hlen : i < (leA Tol.default (q.desired.map (fun o => (E.mjdOf c, o.flushBy)))).length := by
      have := mjdVerdict_length q.desired (E.mjdOf c)
      unfold mjdVerdict at this
      rw [List.length_zipWith] at this
      omega
    rw [List.getElem?_eq_getElem hlen]
    simp [h1]

end QM

/-- Nothing stands between the queue and the caller: detailers return each visit as one visit,
the queue has no masks, and no generated visit expires in the period looked at. -/
structure Plain (E : Env C Sv A) : Prop where
  one : ∀ a c o, ∃ o', (E.q.detail a c [o]).1 = [o'] ∧ o'.targetId = o.targetId ∧ o'.flushBy = o.flushBy
  mask : ∀ a c, (E.q.reward a c).length ≤ 1
  lasting : ∀ sv c o, o ∈ (E.sv.gen sv c).1 → QM.Lasting E.q o

theorem Plain.request {E : Env C Sv A} (P : Plain E) (q : QM A) (c : C) (h : q.Aligned)
    (hl : ∀ o ∈ q.active, QM.Lasting E.q o) (x : Obs) (r : List Obs) (hx : q.active = x :: r) :
    ∃ o', (q.request E.q c false).1 = [o'] ∧ o'.targetId = x.targetId ∧ o'.flushBy = x.flushBy := by
  rw [QM.request_eq E.q q c false h]
  simp only [Bool.false_eq_true, if_false]
  rw [QM.selectable_active E.q q c h (P.mask _ _) hl, hx]
  simpa using P.one q.aux c x

theorem filled_flush {d : List (String × String)} {l l' : List Obs} (hf : List.Forall₂ (Filled d) l l') :
    ∀ o' ∈ l', ∃ o ∈ l, o'.flushBy = o.flushBy := by
  induction hf with
  | nil => intro o ho; cases ho
  | cons hx _ ih =>
    rename_i a b l1 l2 _
    intro o' ho
    rcases List.mem_cons.1 ho with rfl | ho
    · refine ⟨a, List.mem_cons_self, ?_⟩
      have := hx.2.2.2
      rw [← this]
    · obtain ⟨o, h1, h2⟩ := ih o' ho
      exact ⟨o, List.mem_cons_of_mem _ h1, h2⟩

theorem lasting_of_eq {E : QEnv C A} {o o' : Obs} (h : QM.Lasting E o) (e : o'.flushBy = o.flushBy) : QM.Lasting E o' := by
  intro c; rw [e]; exact h c

theorem range_sorted (n : Int) (k : ℕ) : ((List.range k).map (fun i : ℕ => n + i)).Pairwise (· ≤ ·) := by
  rw [List.pairwise_map]
  exact List.Pairwise.imp (fun h => by omega) List.pairwise_lt_range

/-- A queue whose visits are in order, never expire and are later than `lo`. -/
structure Good (E : Env C Sv A) (s : Core C Sv A) (lo : Int) : Prop where
  aligned : s.qm.Aligned
  lasting : ∀ o ∈ s.qm.active, QM.Lasting E.q o
  sorted : (s.qm.active.map Obs.targetId).Pairwise (· ≤ ·)
  above : ∀ o ∈ s.qm.active, lo < o.targetId
  counter : lo < s.counter

/-- A request: the first visit of the queue, or of the new queue if it was empty. -/
theorem Plain.core_request {E : Env C Sv A} (P : Plain E) {s a : Core C Sv A} {lo : Int} (hs : Good E s lo) {m : Option ℚ}
    {l : List Obs} {ev : List Ev} (h : s.request E m false = .ok (a, some l, ev)) :
    ∃ o, l = [o] ∧ lo < o.targetId ∧ QM.Lasting E.q o ∧ a.qm.Aligned ∧ (∀ x ∈ a.qm.active, QM.Lasting E.q x) ∧
      (a.qm.active.map Obs.targetId).Pairwise (· ≤ ·) ∧ (∀ x ∈ a.qm.active, o.targetId ≤ x.targetId) ∧
      (s.qm.active ≠ [] → a.qm.active = s.qm.active) ∧ a.tooIds = s.tooIds ∧ a.flushForNewToo = s.flushForNewToo := by
  have htoo := request_too h
  obtain ⟨c, s1, ev1, hc, hfirst, hrest⟩ := request_cases h
  -- the queue that is asked
  have h1 : s1.qm.Aligned ∧ (∀ x ∈ s1.qm.active, QM.Lasting E.q x) ∧ (s1.qm.active.map Obs.targetId).Pairwise (· ≤ ·) ∧
      (∀ x ∈ s1.qm.active, lo < x.targetId) ∧ (s.qm.active ≠ [] → s1.qm.active = s.qm.active) := by
    rcases hfirst with ⟨hp, hf⟩ | ⟨_, rfl, _⟩
    · have hnil := (QM.nonePending_iff s.qm hs.aligned).1 hp
      refine ⟨fillQueue_aligned hf, ?_, ?_, ?_, fun hne => absurd hnil hne⟩
      all_goals rcases fillQueue_spec hc hf with ⟨_, h2, _⟩ | ⟨i, j, tier, sv, filled, _, _, _, _, _, _, _, hfill, h2, _⟩
      · rw [h2, QM.active_flush]; simp
      · rw [h2, QM.active_setQueue]
        intro o ho
        obtain ⟨o1, ho1, he⟩ := filled_flush (fillFilters_forall _ _ _ _ hfill) o ho
        exact lasting_of_eq (P.lasting _ _ _ ho1) he
      · rw [h2, QM.active_flush]; simp
      · rw [h2, QM.active_setQueue, fillFilters_ids hfill, tagIds_ids]
        exact range_sorted _ _
      · rw [h2, QM.active_flush]; simp
      · rw [h2, QM.active_setQueue]
        intro o ho
        have hm : o.targetId ∈ filled.map Obs.targetId := List.mem_map_of_mem ho
        rw [fillFilters_ids hfill, tagIds_ids] at hm
        obtain ⟨k, _, hk⟩ := List.mem_map.1 hm
        have := hs.counter
        omega
    · exact ⟨hs.aligned, hs.lasting, hs.sorted, hs.above, fun _ => rfl⟩
  obtain ⟨ha, hla, hso, hab, heq⟩ := h1
  have hne : s1.qm.nonePending = false → s1.qm.active ≠ [] := by
    intro hp hnil
    rw [(QM.nonePending_iff s1.qm ha).2 hnil] at hp; cases hp
  rcases hrest with ⟨_, _, hn, _⟩ | ⟨hp, _, ha', hout, _⟩ | ⟨hp, hnil, _⟩
  · cases hn
  · obtain ⟨x, r, hx⟩ := List.exists_cons_of_ne_nil (hne hp)
    obtain ⟨o', ho', hid, hfl⟩ := P.request s1.qm c ha hla x r hx
    rw [ho'] at hout
    simp only [List.map_cons, List.map_nil, Option.some.injEq] at hout
    have hact : a.qm.active = s1.qm.active := by
      rw [ha']; unfold QM.active
      rw [(qrequest_queue E.q s1.qm c false).1, (qrequest_queue E.q s1.qm c false).2]
    have hxm : x ∈ s1.qm.active := by rw [hx]; exact List.mem_cons_self
    refine ⟨setNote o', hout, ?_, lasting_of_eq (hla x hxm) hfl, ?_, ?_, ?_, ?_, ?_, htoo.1, htoo.2⟩
    · rw [setNote_id, hid]; exact hab x hxm
    · rw [ha']
      exact aligned_of_eq (qrequest_queue E.q s1.qm c false).1 (qrequest_queue E.q s1.qm c false).2 ha
    · rw [hact]; exact hla
    · rw [hact]; exact hso
    · rw [hact]
      intro y hy
      rw [setNote_id, hid]
      rw [hx] at hy hso
      rcases List.mem_cons.1 hy with rfl | hy
      · exact le_refl _
      · exact (List.pairwise_cons.1 hso).1 _ (List.mem_map_of_mem hy)
    · intro h0; rw [hact]; exact heq h0
  · obtain ⟨x, r, hx⟩ := List.exists_cons_of_ne_nil (hne hp)
    obtain ⟨o', ho', _⟩ := P.request s1.qm c ha hla x r hx
    rw [ho'] at hnil; cases hnil

/-- Does this call of `update_conditions` empty the queue? -/
def flushes (E : Env C Sv A) (ids : List Int) (flag : Bool) (c : C) : Bool :=
  flag && ((E.toos c).getD []).any (fun t => !ids.contains t.1 && t.2)

/-- The alerts known after it. -/
def nowKnown (E : Env C Sv A) (ids : List Int) (flag : Bool) (c : C) : List Int :=
  if flag then ids ++ ((((E.toos c).getD []).filter (fun t => !ids.contains t.1)).map Prod.fst).dedup else ids

theorem update_spec (E : Env C Sv A) (s : Core C Sv A) (c : C) :
    (s.update E c).qm = (if flushes E s.tooIds s.flushForNewToo c then s.qm.flush else s.qm) ∧
    (s.update E c).tooIds = nowKnown E s.tooIds s.flushForNewToo c ∧ (s.update E c).flushForNewToo = s.flushForNewToo ∧
    (s.update E c).counter = s.counter := by
  have hc := tooStep_counter E s c
  unfold update
  refine ⟨?_, ?_, ?_, hc⟩
  all_goals
    simp only
    unfold tooStep
    try unfold flushes
    try unfold nowKnown
    cases hfl : s.flushForNewToo
    · simp_all
    · rcases E.toos c with _ | ts
      · simp_all
      · simp only [if_true, Option.getD_some, Bool.true_and]
        have e : (ts.filter (fun t => !s.tooIds.contains t.1)).any (fun t => t.2) = ts.any (fun t => !s.tooIds.contains t.1 && t.2) := by
          rw [List.any_filter]
        rw [e]
        split_ifs <;> simp_all [Core.flush]

theorem flushes_known (E : Env C Sv A) (ids : List Int) (flag : Bool) (c : C)
    (h : flag = true → ∀ t ∈ (E.toos c).getD [], t.1 ∈ ids) : flushes E ids flag c = false ∧ nowKnown E ids flag c = ids := by
  unfold flushes nowKnown
  cases flag with
  | false => simp
  | true =>
    have h := h rfl
    constructor
    · rw [Bool.true_and, List.any_eq_false]
      intro t ht
      simp [h t ht]
    · rw [if_pos rfl]
      have : ((E.toos c).getD []).filter (fun t => !ids.contains t.1) = [] := by
        rw [List.filter_eq_nil_iff]
        intro t ht
        simp [h t ht]
      rw [this]; simp

theorem nowKnown_all (E : Env C Sv A) (ids : List Int) (c : C) : ∀ t ∈ (E.toos c).getD [], t.1 ∈ nowKnown E ids true c := by
  intro t ht
  unfold nowKnown
  rw [if_pos rfl, List.mem_append]
  by_cases h : t.1 ∈ ids
  · exact Or.inl h
  · right
    rw [List.mem_dedup, List.mem_map]
    exact ⟨t, List.mem_filter.2 ⟨ht, by simpa using h⟩, rfl⟩

theorem addObs_core (E : Env C Sv A) (s : Core C Sv A) (o : Obs) :
    (s.addObs E o).1.qm.active = s.qm.active.filter (fun d => decide (d.targetId ≠ o.targetId)) ∧
    (s.addObs E o).1.tooIds = s.tooIds ∧ (s.addObs E o).1.flushForNewToo = s.flushForNewToo ∧
    s.counter ≤ (s.addObs E o).1.counter ∧ o.targetId < (s.addObs E o).1.counter ∧
    (s.qm.Aligned → (s.addObs E o).1.qm.Aligned) := by
  unfold addObs
  simp only
  have hb := bump_ge s.counter (backfillBand o).targetId
  rw [backfillBand_id] at hb ⊢
  refine ⟨?_, trivial, trivial, hb.1, hb.2, fun h => qaddObs_aligned E.q s.qm _ h⟩
  rw [QM.active_addObs, backfillBand_id]

theorem foldl_addObs_core (E : Env C Sv A) (l : List Obs) : ∀ s : Core C Sv A,
    (l.foldl (fun s o => (s.addObs E o).1) s).qm.active = s.qm.active.filter (fun d => decide (d.targetId ∉ l.map Obs.targetId)) ∧
    (l.foldl (fun s o => (s.addObs E o).1) s).tooIds = s.tooIds ∧
    (l.foldl (fun s o => (s.addObs E o).1) s).flushForNewToo = s.flushForNewToo ∧
    s.counter ≤ (l.foldl (fun s o => (s.addObs E o).1) s).counter ∧
    (∀ o ∈ l, o.targetId < (l.foldl (fun s o => (s.addObs E o).1) s).counter) ∧
    (s.qm.Aligned → (l.foldl (fun s o => (s.addObs E o).1) s).qm.Aligned) := by
  induction l with
  | nil => intro s; simp
  | cons o l ih =>
    intro s
    obtain ⟨h1, h2, h3, h4, h5, h6⟩ := ih (s.addObs E o).1
    obtain ⟨g1, g2, g3, g4, g5, g6⟩ := addObs_core E s o
    rw [List.foldl_cons]
    refine ⟨?_, h2.trans g2, h3.trans g3, le_trans g4 h4, ?_, fun h => h6 (g6 h)⟩
    · rw [h1, g1, List.filter_filter]
      apply List.filter_congr
      intro d _
      simp only [List.map_cons, List.mem_cons, not_or, ← Bool.decide_and]
      apply decide_eq_decide.2
      tauto
    · intro x hx
      rcases List.mem_cons.1 hx with rfl | hx
      · exact lt_of_lt_of_le g5 h4
      · exact h5 x hx

namespace Summit

theorem bisect_spec (l : List Int) (x : Int) (m : ℕ) (hm : ∀ i < l.length, l.getD i 0 ≤ x ↔ i < m) : ∀ (k lo hi : ℕ),
    lo ≤ m → m ≤ hi → hi ≤ l.length → hi - lo < k → bisect l x k lo hi = m := by
  intro k
  induction k with
  | zero => intro lo hi _ _ _ h; omega
  | succ k ih =>
    intro lo hi h1 h2 h3 h4
    unfold bisect
    by_cases hlt : lo < hi
    · rw [if_pos hlt]
      have hmid := hm ((lo + hi) / 2) (by omega)
      by_cases hx : l.getD ((lo + hi) / 2) 0 ≤ x
      · rw [if_pos hx]
        exact ih _ _ (by have := hmid.1 hx; omega) h2 h3 (by omega)
      · rw [if_neg hx]
        have : ¬ (lo + hi) / 2 < m := fun h => hx (hmid.2 h)
        exact ih _ _ h1 (by omega) (by omega) (by omega)
    · rw [if_neg hlt]; omega

/-- The oldest of increasing ids: exactly it is removed. -/
theorem searchRight_head (x : Int) (r : List Int) (h : (x :: r).Pairwise (· < ·)) : searchRight (x :: r) x = 1 := by
  unfold searchRight
  apply bisect_spec (x :: r) x 1 _ _ _ _ (by omega) (by simp) (le_refl _) (by omega)
  intro i hi
  rcases i with _ | i
  · simp
  · have hr : i < r.length := by simpa using hi
    have : x < r[i] := (List.pairwise_cons.1 h).1 _ (List.getElem_mem hr)
    simp only [List.getD_cons_succ]
    rw [List.getD_eq_getElem _ _ hr]
    constructor
    · intro h1; omega
    · intro h1; omega

end Summit
end Verif
