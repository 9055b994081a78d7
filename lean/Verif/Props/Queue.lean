import Verif.Lemmas.CoreFill

/-!
Properties C03, C04, C06, C10 at the level of the queue manager.
-/

namespace Verif
variable {C A : Type}

/-! ### Specification vocabulary -/

/-- The queue as one list of (visit, still needed?). -/
def rows (q : QM A) : List (Obs × Bool) := q.desired.zip q.need

/-- The visit has not expired at time `t` (a `flush_by_mjd` of 0 means "never"). -/
def Unexpired (t : ℚ) (o : Obs) : Prop := t ≤ o.flushBy ∨ o.flushBy = 0

instance (t : ℚ) (o : Obs) : Decidable (Unexpired t o) :=
  inferInstanceAs (Decidable (t ≤ o.flushBy ∨ o.flushBy = 0))

/-- The queue manager's map, if it is one, is finite at the visit's pixel. -/
def ClearSky (E : QEnv C A) (a : A) (c : C) (o : Obs) : Prop :=
  1 < (E.reward a c).length →
    ∃ q : ℚ, (E.reward a c)[E.hpid (E.reward a c).length o.ra o.dec]? = some (.fin q)

/-- No queued expiry time is within one part in 10^9 of the time `t` (about 5 seconds for
present-day dates). -/
def NoClose (t : ℚ) (l : List Obs) : Prop :=
  ∀ o ∈ l, 1 / 1000000000 * min |t| |o.flushBy| < |t - o.flushBy|

theorem unmasked_iff (E : QEnv C A) (a : A) (c : C) (o : Obs) :
    QM.unmasked E a c o = true ↔ ClearSky E a c o := by
  unfold QM.unmasked ClearSky
  simp only [gt_iff_lt]
  by_cases h : 1 < (E.reward a c).length
  · rw [if_pos h]
    cases hr : (E.reward a c)[E.hpid (E.reward a c).length o.ra o.dec]? with
    | none => simp [h]
    | some r => cases r <;> simp [h, XReal.isFinite]
  · rw [if_neg h]; simp [h]

/-- Away from the tolerance, the code's expiry test is the exact one. -/
theorem mjdVerdict_exact (l : List Obs) (t : ℚ) (h : NoClose t l) :
    QM.mjdVerdict l t = l.map (fun o => decide (Unexpired t o)) := by
  have hc : checkLimit Tol.default (l.map (fun o => (t, o.flushBy))) = l.map (fun o => (t, o.flushBy)) := by
    apply checkLimit_far Tol.default (by norm_num [Tol.default])
    · intro p hp
      obtain ⟨o, ho, rfl⟩ := List.mem_map.mp hp
      exact h o ho
    · intro om hom p hp h0
      have hb := minOrderOfMag_le hom hp
      obtain ⟨o, ho, rfl⟩ := List.mem_map.mp hp
      simp only at h0 hb ⊢
      have ht : t ≠ 0 := by
        rintro rfl
        unfold minOrderOfMag at hom
        have : (List.map Prod.fst (l.map (fun o => ((0 : ℚ), o.flushBy)))).filter (· ≠ 0) = [] := by
          rw [List.filter_eq_nil_iff]
          intro x hx
          simp only [List.map_map, List.mem_map, Function.comp] at hx
          obtain ⟨_, _, rfl⟩ := hx
          simp
        rw [this] at hom
        simp at hom
      have hf : o.flushBy = 0 := h0.resolve_left ht
      rw [hf]
      have h1 := le_trans (zpow10_mono (hb.1 ht)) (zpow_orderOfMag_le ht)
      have hpos : 0 < |t| := abs_pos.mpr ht
      simp only [sub_zero, Tol.default]
      nlinarith
  unfold QM.mjdVerdict leA
  rw [hc, List.map_map, List.zipWith_map_left, List.zipWith_self]
  apply List.map_congr_left
  intro o _
  rw [Bool.eq_iff_iff, decide_eq_true_iff, Bool.or_eq_true, decide_eq_true_iff]
  simp [Unexpired]

/-! ### C03: order, and no consumption -/

/-- C03 (a): the rows handed out with `whole_queue` are exactly the needed, unexpired,
unmasked rows, in queue order; without it, the first of them. (Times within the comparison
tolerance of an expiry time excluded; see C04.) -/
theorem C03_order (E : QEnv C A) (q : QM A) (c : C) (whole : Bool) (h : q.Aligned)
    (hfar : NoClose (E.mjdOf c) q.desired)
    [DecidablePred (ClearSky E q.aux c)] :
    (q.request E c whole).1 =
      (let good := ((rows q).filter (fun r => r.2 && decide (Unexpired (E.mjdOf c) r.1) &&
          decide (ClearSky E q.aux c r.1))).map Prod.fst
       let pick := if whole then good else good.take 1
       if pick = [] then [] else (E.detail q.aux c pick).1) := by
  have hsel : q.selectable E c (E.mjdOf c) = ((rows q).filter (fun r => r.2 && decide (Unexpired (E.mjdOf c) r.1) &&
          decide (ClearSky E q.aux c r.1))).map Prod.fst := by
    unfold QM.selectable rows
    rw [mjdVerdict_exact _ _ hfar]
    have : q.desired.zip (q.need.zip (q.desired.map (fun o => decide (Unexpired (E.mjdOf c) o)))) =
        (q.desired.zip q.need).map (fun r => (r.1, (r.2, decide (Unexpired (E.mjdOf c) r.1)))) := by
      apply List.ext_getElem
      · simp [show q.need.length = q.desired.length from h]
      · intro i h1 h2; simp
    rw [this, List.filter_map, List.map_map]
    congr 1
    apply List.filter_congr
    intro r _
    have hb : QM.unmasked E q.aux c r.1 = decide (ClearSky E q.aux c r.1) := by
      rw [Bool.eq_iff_iff, unmasked_iff, decide_eq_true_eq]
    simp only [Function.comp, hb]
  rw [QM.request_eq E q c whole h, hsel]
  simp only [gt_iff_lt, List.length_pos_iff]
  cases whole <;> simp only [Bool.false_eq_true, if_false, if_true] <;> split_ifs <;> simp_all

/-- C03 (b), with no restriction on times: every row that is needed, unexpired and unmasked
is among those handed to the detailers by a whole-queue request, the rows keep queue order,
and all are needed and unmasked. -/
theorem C03_sound_complete (E : QEnv C A) (q : QM A) (c : C) (h : q.Aligned) :
    ∃ good : List Obs, good.Sublist q.active ∧
      (∀ o b, (o, b) ∈ rows q → b = true → Unexpired (E.mjdOf c) o → ClearSky E q.aux c o → o ∈ good) ∧
      (∀ o ∈ good, ClearSky E q.aux c o) ∧
      (q.request E c true).1 = (if good = [] then [] else (E.detail q.aux c good).1) ∧
      (q.request E c false).1 = (if good = [] then [] else (E.detail q.aux c (good.take 1)).1) := by
  have hv := QM.mjdVerdict_length q.desired (E.mjdOf c)
  have hz : q.desired.zip (q.need.zip (QM.mjdVerdict q.desired (E.mjdOf c))) =
      ((q.desired.zip q.need).zip (QM.mjdVerdict q.desired (E.mjdOf c))).map (fun x => (x.1.1, (x.1.2, x.2))) := by
    apply List.ext_getElem
    · simp [show q.need.length = q.desired.length from h]
    · intro i h1 h2; simp
  refine ⟨q.selectable E c (E.mjdOf c), ?_, ?_, ?_, ?_, ?_⟩
  · unfold QM.selectable QM.active
    have h1 : ((q.desired.zip (q.need.zip (QM.mjdVerdict q.desired (E.mjdOf c)))).filter
        (fun x => x.2.1 && x.2.2 && QM.unmasked E q.aux c x.1)).Sublist
        ((q.desired.zip (q.need.zip (QM.mjdVerdict q.desired (E.mjdOf c)))).filter (fun x => x.2.1)) := by
      apply List.monotone_filter_right
      intro x hx
      simp only [Bool.and_eq_true] at hx
      exact hx.1.1
    have h2 : ((q.desired.zip q.need).filter (fun p => p.2)).map Prod.fst =
        ((q.desired.zip (q.need.zip (QM.mjdVerdict q.desired (E.mjdOf c)))).filter (fun x => x.2.1)).map Prod.fst := by
      have h3 : q.desired.zip q.need = (q.desired.zip (q.need.zip (QM.mjdVerdict q.desired (E.mjdOf c)))).map
          (fun x => (x.1, x.2.1)) := by
        apply List.ext_getElem
        · simp [hv, show q.need.length = q.desired.length from h]
        · intro i h1 h2; simp
      rw [h3, List.filter_map, List.map_map]; rfl
    rw [h2]; exact h1.map _
  · intro o b hm hb hu hs
    subst hb
    unfold rows at hm
    obtain ⟨i, hi, hget⟩ := List.getElem_of_mem hm
    rw [List.getElem_zip] at hget
    simp only [Prod.mk.injEq] at hget
    have hid : i < q.desired.length := by simp at hi; exact hi.1
    have hin : i < q.need.length := by simp at hi; exact hi.2
    unfold QM.selectable
    rw [List.mem_map]
    refine ⟨(o, (true, true)), ?_, rfl⟩
    rw [List.mem_filter]
    refine ⟨?_, by simp [(unmasked_iff E q.aux c o).mpr hs]⟩
    have hverd : (QM.mjdVerdict q.desired (E.mjdOf c))[i]? = some true := by
      unfold QM.mjdVerdict
      rw [List.getElem?_zipWith]
      rcases hu with hu | hu
      · have := C16_le_complete' q.desired (E.mjdOf c) i hid (by rw [hget.1]; exact hu)
        rw [this, List.getElem?_eq_getElem hid]; simp
      · have hl : i < (leA Tol.default (q.desired.map (fun o => (E.mjdOf c, o.flushBy)))).length := by
          have := hv; unfold QM.mjdVerdict at this; rw [List.length_zipWith] at this; omega
        rw [List.getElem?_eq_getElem hl, List.getElem?_eq_getElem hid, hget.1]
        simp [hu]
    have : (q.desired.zip (q.need.zip (QM.mjdVerdict q.desired (E.mjdOf c))))[i]? = some (o, (true, true)) := by
      rw [List.getElem?_zip_eq_some, List.getElem?_zip_eq_some]
      refine ⟨?_, ?_, hverd⟩
      · rw [List.getElem?_eq_getElem hid, hget.1]
      · rw [List.getElem?_eq_getElem hin, hget.2]
    exact List.mem_of_getElem? this
  · intro o ho
    obtain ⟨_, _, _, _, hu⟩ := QM.selectable_mem E q c _ ho
    exact (unmasked_iff E q.aux c o).mp hu
  · rw [QM.request_eq E q c true h]
    simp only [if_true, gt_iff_lt, List.length_pos_iff]
    split_ifs <;> simp_all
  · rw [QM.request_eq E q c false h]
    simp only [Bool.false_eq_true, if_false, gt_iff_lt, List.length_pos_iff]
    split_ifs <;> simp_all
where
  C16_le_complete' (l : List Obs) (t : ℚ) (i : Nat) (hi : i < l.length) (h : t ≤ l[i].flushBy) :
      (leA Tol.default (l.map (fun o => (t, o.flushBy))))[i]? = some true := by
    unfold leA checkLimit
    split
    · simp [hi, h]
    · simp only
      split
      · simp only [List.map_map, List.getElem?_map, List.getElem?_eq_getElem hi, Option.map_some,
          Function.comp, Int.cast_le, Option.some.injEq, decide_eq_true_eq]
        exact roundHalfEven_mono (by linarith)
      · simp [hi, h]

/-- C03 (c): a request leaves the queue rows and their flags as they were. -/
theorem C03_not_consuming (E : QEnv C A) (q : QM A) (c : C) (whole : Bool) :
    rows (q.request E c whole).2 = rows q := by
  unfold rows
  rw [(Core.qrequest_queue E q c whole).1, (Core.qrequest_queue E q c whole).2]

/-- C03 (d): with stateless detailers, asking again under the same conditions gives the same
answer. -/
theorem C03_repeatable (E : QEnv C A) (q : QM A) (c : C) (whole : Bool) (h : q.Aligned)
    (hdet : ∀ a c l, (E.detail a c l).2 = a) :
    (q.request E c whole).2.request E c whole = q.request E c whole := by
  have hq : (q.request E c whole).2 = q := by
    rw [QM.request_eq E q c whole h]
    simp only
    cases whole <;> simp only [Bool.false_eq_true, if_false, if_true] <;> split_ifs <;> simp [hdet]
  rw [hq]

/-! A concrete environment: conditions are a time; the map has three pixels and the visit's
RA is its pixel; pixel 2 is masked. -/

/-- Test environment. -/
def toyQ : QEnv ℚ Unit where
  mjdOf := id
  reward := fun _ _ => [.fin 0, .fin 1, .ninf]
  hpid := fun _ ra _ => ra.num.toNat
  detail := fun a _ l => (l, a)
  addObs := fun a _ => a
  addArr := fun a _ => a

/-- Test queue: a completed, an expired, a masked and two good visits. -/
def toyQueue : QM Unit where
  desired := [{ targetId := 1, flushBy := 60010 }, { targetId := 2, flushBy := 59990 },
    { targetId := 3, ra := 2 }, { targetId := 4, ra := 1 }, { targetId := 5, flushBy := 60001 }]
  need := [false, true, true, true, true]
  aux := ()

example : toyQueue.Aligned ∧ NoClose (toyQ.mjdOf 60000) toyQueue.desired := by
  unfold QM.Aligned NoClose; decide +kernel

example : ((toyQueue.request toyQ 60000 true).1.map Obs.targetId = [4, 5]) ∧
    ((toyQueue.request toyQ 60000 false).1.map Obs.targetId = [4]) := by decide +kernel

/-! ### C04: expiry -/

/-- Two queued visits, expiring at 60000.10 and 60000.20. -/
def expiryQueue : QM Unit where
  desired := [{ targetId := 1, flushBy := 60000.10 }, { targetId := 2, flushBy := 60000.20 }]
  need := [true, true]
  aux := ()

/-- C04 fails for the code: at 60000.20 the first visit expired 0.1 days (2.4 hours) ago, and
is still handed out, because the second visit's expiry time is close to now and the
comparison then rounds every time to whole days. -/
theorem C04_violated :
    ((expiryQueue.request { toyQ with reward := fun _ _ => [.fin 0] } 60000.20 false).1.map
      (fun o => (o.targetId, o.flushBy))) = [(1, 60000.10)] ∧ ¬ Unexpired 60000.20 expiryQueue.desired[0] := by
  decide +kernel

/-- C04, what holds away from the tolerance: every row handed to the detailers is unexpired.
Missing for the full property: a time within one part in 10^9 of some queued expiry time. -/
theorem C04_unexpired_partial (E : QEnv C A) (q : QM A) (c : C) (whole : Bool) (h : q.Aligned)
    (hfar : NoClose (E.mjdOf c) q.desired)
    (hdet : ∀ a c l, ∀ o ∈ (E.detail a c l).1, ∃ o' ∈ l, o'.flushBy = o.flushBy) :
    ∀ o ∈ (q.request E c whole).1, Unexpired (E.mjdOf c) o := by
  have hsel : ∀ o ∈ q.selectable E c (E.mjdOf c), Unexpired (E.mjdOf c) o := by
    intro o ho
    obtain ⟨i, hd, _, hv, _⟩ := QM.selectable_mem E q c _ ho
    rw [mjdVerdict_exact _ _ hfar, List.getElem?_map, hd] at hv
    simpa using hv
  intro o ho
  rw [QM.request_eq E q c whole h] at ho
  have key : ∀ l, (∀ x ∈ l, x ∈ q.selectable E c (E.mjdOf c)) →
      ∀ x ∈ (E.detail q.aux c l).1, Unexpired (E.mjdOf c) x := by
    intro l hl x hx
    obtain ⟨o', ho', hf⟩ := hdet _ _ _ x hx
    have := hsel o' (hl o' ho')
    unfold Unexpired at *
    rw [← hf]; exact this
  cases whole <;> simp only [if_true, if_false, Bool.false_eq_true] at ho <;> split at ho
  · exact key _ (fun x hx => List.mem_of_mem_take hx) o ho
  · simp at ho
  · exact key _ (fun x hx => hx) o ho
  · simp at ho

/-- C04, unconditional bound: a visit handed out is never more than one day past its expiry
time. -/
theorem C04_at_most_one_day (E : QEnv C A) (q : QM A) (c : C) (whole : Bool) (h : q.Aligned)
    (hdet : ∀ a c l, ∀ o ∈ (E.detail a c l).1, ∃ o' ∈ l, o'.flushBy = o.flushBy) :
    ∀ o ∈ (q.request E c whole).1, E.mjdOf c ≤ o.flushBy + 1 ∨ o.flushBy = 0 := by
  have hsel : ∀ o ∈ q.selectable E c (E.mjdOf c), E.mjdOf c ≤ o.flushBy + 1 ∨ o.flushBy = 0 := by
    intro o ho
    obtain ⟨i, hd, _, hv, _⟩ := QM.selectable_mem E q c _ ho
    unfold QM.mjdVerdict at hv
    rw [List.getElem?_zipWith, hd] at hv
    have hin : (q.desired.map (fun o => (E.mjdOf c, o.flushBy)))[i]? = some (E.mjdOf c, o.flushBy) := by
      rw [List.getElem?_map, hd]; rfl
    by_cases h0 : o.flushBy = 0
    · exact Or.inr h0
    · left
      have hle : (leA Tol.default (q.desired.map (fun o => (E.mjdOf c, o.flushBy))))[i]? = some true := by
        cases hx : (leA Tol.default (q.desired.map (fun o => (E.mjdOf c, o.flushBy))))[i]? with
        | none => rw [hx] at hv; cases hv
        | some b => rw [hx] at hv; simpa [h0] using hv
      unfold leA at hle
      rw [List.getElem?_map] at hle
      have exact_case : Option.map (fun p : ℚ × ℚ => decide (p.1 ≤ p.2))
          (q.desired.map (fun o => (E.mjdOf c, o.flushBy)))[i]? = some true → E.mjdOf c ≤ o.flushBy + 1 := by
        intro hx
        rw [hin] at hx
        simp only [Option.map_some, Option.some.injEq, decide_eq_true_eq] at hx
        linarith
      unfold checkLimit at hle
      split at hle
      · exact exact_case hle
      · simp only at hle
        split at hle
        · rw [List.getElem?_map, hin] at hle
          simp only [Option.map_some, Option.some.injEq, decide_eq_true_eq] at hle
          have h1 := abs_le.mp (roundHalfEven_near (E.mjdOf c - ⌊min (E.mjdOf c) o.flushBy⌋ * Tol.default.scale))
          have h2 := abs_le.mp (roundHalfEven_near (o.flushBy - ⌊min (E.mjdOf c) o.flushBy⌋ * Tol.default.scale))
          linarith [h1.1, h1.2, h2.1, h2.2]
        · exact exact_case hle
  intro o ho
  rw [QM.request_eq E q c whole h] at ho
  have key : ∀ l, (∀ x ∈ l, x ∈ q.selectable E c (E.mjdOf c)) →
      ∀ x ∈ (E.detail q.aux c l).1, E.mjdOf c ≤ x.flushBy + 1 ∨ x.flushBy = 0 := by
    intro l hl x hx
    obtain ⟨o', ho', hf⟩ := hdet _ _ _ x hx
    rw [← hf]; exact hsel o' (hl o' ho')
  cases whole <;> simp only [if_true, if_false, Bool.false_eq_true] at ho <;> split at ho
  · exact key _ (fun x hx => List.mem_of_mem_take hx) o ho
  · simp at ho
  · exact key _ (fun x hx => hx) o ho
  · simp at ho

/-! ### C06: masks -/

/-- C06 (a): every visit handed out lies on unmasked sky (detailers may change other columns
but not the position). -/
theorem C06_unmasked (E : QEnv C A) (q : QM A) (c : C) (whole : Bool) (h : q.Aligned)
    (hdet : ∀ a c l, ∀ o ∈ (E.detail a c l).1, ∃ o' ∈ l, o'.ra = o.ra ∧ o'.dec = o.dec) :
    ∀ o ∈ (q.request E c whole).1, ClearSky E q.aux c o := by
  intro o ho
  rw [QM.request_eq E q c whole h] at ho
  have key : ∀ l, (∀ x ∈ l, x ∈ q.selectable E c (E.mjdOf c)) →
      ∀ x ∈ (E.detail q.aux c l).1, ClearSky E q.aux c x := by
    intro l hl x hx
    obtain ⟨o', ho', h1, h2⟩ := hdet _ _ _ x hx
    obtain ⟨_, _, _, _, hu⟩ := QM.selectable_mem E q c _ (hl o' ho')
    have := (unmasked_iff E q.aux c o').mp hu
    unfold ClearSky at *
    rw [← h1, ← h2]; exact this
  cases whole <;> simp only [if_true, if_false, Bool.false_eq_true] at ho <;> split at ho
  · exact key _ (fun x hx => List.mem_of_mem_take hx) o ho
  · simp at ho
  · exact key _ (fun x hx => hx) o ho
  · simp at ho

/-- A scalar −inf from the queue manager's basis functions (everything infeasible) masks
nothing: only a map is consulted (queue_manager.py 137). -/
theorem C06_scalar_not_a_mask :
    ((toyQueue.request { toyQ with reward := fun _ _ => [.ninf] } 60000 true).1.map Obs.targetId) = [3, 4, 5] := by
  decide +kernel

/-! ### C10: the queue as a list of rows -/

/-- C10: every operation is the obvious one on the list of rows, given one flag per row. -/
theorem C10_refines (E : QEnv C A) (q : QM A) (h : q.Aligned) :
    rows q.flush = [] ∧
    (∀ l, rows (q.append l) = rows q ++ l.map (fun o => (o, true))) ∧
    (∀ l, rows (q.setQueue l) = l.map (fun o => (o, true))) ∧
    (∀ o, rows (q.mark o) = (rows q).map (fun r => if r.1.targetId = o.targetId then (r.1, false) else r)) ∧
    (∀ o, rows (q.addObs E o) = (rows q).map (fun r => if r.1.targetId = o.targetId then (r.1, false) else r)) ∧
    (∀ l, rows (q.addArr E l) =
      (rows q).map (fun r => if r.1.targetId ∈ l.map Obs.targetId then (r.1, false) else r)) ∧
    q.active = ((rows q).filter (fun r => r.2)).map Prod.fst := by
  have hzr : ∀ l : List Obs, l.zip (List.replicate l.length true) = l.map (fun o => (o, true)) := by
    intro l; induction l with
    | nil => rfl
    | cons a l ih => simp [List.replicate_succ, ih]
  have hmark : ∀ o, rows (q.mark o) = (rows q).map (fun r => if r.1.targetId = o.targetId then (r.1, false) else r) := by
    intro o
    unfold rows QM.mark
    simp only
    rw [QM.zip_clearWhere]
    apply List.map_congr_left
    intro r _
    by_cases hr : r.1.targetId = o.targetId <;> simp [hr]
  refine ⟨rfl, ?_, ?_, hmark, ?_, ?_, rfl⟩
  · intro l
    unfold rows QM.append
    simp only
    rw [List.zip_append h.symm, hzr]
  · intro l; exact hzr l
  · intro o
    rw [← hmark]
    unfold QM.addObs
    simp only
    split
    · rfl
    · rename_i hl
      have : q.desired = [] := List.length_eq_zero_iff.mp (by omega)
      unfold rows QM.mark; simp [this]
  · intro l
    unfold QM.addArr
    split
    · unfold rows
      simp only
      rw [QM.zip_clearWhere]
      apply List.map_congr_left
      intro r _
      by_cases hr : r.1.targetId ∈ l.map Obs.targetId
      · have : l.any (fun o => decide (r.1.targetId = o.targetId)) = true := by
          rw [List.any_eq_true]
          obtain ⟨o, ho, he⟩ := List.mem_map.mp hr
          exact ⟨o, ho, by simp [he]⟩
        simp [hr, this]
      · have : l.any (fun o => decide (r.1.targetId = o.targetId)) = false := by
          rw [List.any_eq_false]
          intro o ho hc
          exact hr (List.mem_map.mpr ⟨o, ho, by simpa using (of_decide_eq_true hc).symm⟩)
        simp [hr, this]
    · rename_i hl
      have : q.desired = [] := List.length_eq_zero_iff.mp (by omega)
      unfold rows; simp [this]

end Verif
