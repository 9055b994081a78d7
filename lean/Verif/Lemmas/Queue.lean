import Verif.Model.Queue
import Verif.Lemmas.IntRounded
import Mathlib.Data.List.Basic

namespace Verif

/-- Selecting by index from a list equals filtering the list zipped with the flags. -/
theorem filter_range_filterMap {α : Type} (l : List α) (p : Nat → Bool) :
    ((List.range l.length).filter p).filterMap (fun i => l[i]?) =
      ((l.zip ((List.range l.length).map p)).filter (fun x => x.2)).map Prod.fst := by
  induction l using List.reverseRecOn with
  | nil => simp
  | append_singleton l a ih =>
    have hlen : (l ++ [a]).length = l.length + 1 := by simp
    rw [hlen, List.range_succ, List.filter_append, List.filterMap_append, List.map_append,
      List.zip_append (by simp), List.filter_append, List.map_append]
    congr 1
    · rw [← ih]
      apply List.filterMap_congr
      intro i hi
      have : i < l.length := by
        have := (List.mem_filter.mp hi).1
        simpa using this
      simp [List.getElem?_append_left this]
    · by_cases h : p l.length <;> simp [h]

namespace QM
variable {C A : Type}

/-- Queue bookkeeping is aligned: one flag per row. -/
def Aligned (q : QM A) : Prop := q.need.length = q.desired.length

theorem clearWhere_length (f : Obs → Bool) (os : List Obs) (bs : List Bool) :
    (clearWhere f os bs).length = bs.length := by
  induction os generalizing bs with
  | nil => cases bs <;> simp [clearWhere]
  | cons o os ih => cases bs <;> simp [clearWhere, ih]

theorem zip_clearWhere (f : Obs → Bool) (os : List Obs) (bs : List Bool) :
    os.zip (clearWhere f os bs) = (os.zip bs).map (fun p => (p.1, p.2 && !f p.1)) := by
  induction os generalizing bs with
  | nil => simp
  | cons o os ih =>
    cases bs with
    | nil => simp [clearWhere]
    | cons b bs =>
      simp only [clearWhere, List.zip_cons_cons, List.map_cons, ih]
      by_cases h : f o <;> simp [h]

theorem mjdVerdict_length (d : List Obs) (m : ℚ) : (mjdVerdict d m).length = d.length := by
  unfold mjdVerdict leA checkLimit
  split
  · simp
  · simp only; split <;> simp

/-- Is this visit unmasked for the queue manager's current map? -/
def unmasked (E : QEnv C A) (a : A) (c : C) (o : Obs) : Bool :=
  let reward := E.reward a c
  if reward.length > 1 then
    match reward[E.hpid reward.length o.ra o.dec]? with
    | some r => r.isFinite
    | none => false
  else true

/-- The rows that may be handed out. -/
def selectable (E : QEnv C A) (q : QM A) (c : C) (mjd : ℚ) : List Obs :=
  ((q.desired.zip (q.need.zip (mjdVerdict q.desired mjd))).filter
    (fun x => x.2.1 && x.2.2 && unmasked E q.aux c x.1)).map Prod.fst

theorem findValid_eq (E : QEnv C A) (q : QM A) (c : C) (mjd : ℚ) (h : q.Aligned) :
    q.findValid E c mjd = (List.range q.desired.length).filter (fun i =>
      (q.need[i]? == some true) && ((mjdVerdict q.desired mjd)[i]? == some true) &&
      (match q.desired[i]? with | some o => unmasked E q.aux c o | none => false)) := by
  unfold findValid
  simp only
  split
  · rename_i hr
    rw [List.filter_filter, List.filter_filter]
    apply List.filter_congr
    intro i hi
    have hi' : i < q.desired.length := by simpa using hi
    have hn : i < q.need.length := by rw [h]; exact hi'
    simp only [List.getElem?_eq_getElem hi', unmasked, hr, if_true]
    have : ((List.range q.need.length).filter (fun i => q.need[i]? == some true)).contains i
        = (q.need[i]? == some true) := by
      rw [Bool.eq_iff_iff, List.contains_iff_mem, List.mem_filter]
      simp [hn]
    rw [this]
    ac_rfl
  · rename_i hr
    rw [List.filter_filter]
    apply List.filter_congr
    intro i hi
    have hi' : i < q.desired.length := by simpa using hi
    have hn : i < q.need.length := by rw [h]; exact hi'
    have : ((List.range q.need.length).filter (fun i => q.need[i]? == some true)).contains i
        = (q.need[i]? == some true) := by
      rw [Bool.eq_iff_iff, List.contains_iff_mem, List.mem_filter]
      simp [hn]
    rw [this]
    simp only [List.getElem?_eq_getElem hi', unmasked, hr, if_false, Bool.and_true]

theorem selected_eq (E : QEnv C A) (q : QM A) (c : C) (mjd : ℚ) (h : q.Aligned) :
    (q.findValid E c mjd).filterMap (fun i => q.desired[i]?) = q.selectable E c mjd := by
  rw [findValid_eq E q c mjd h, filter_range_filterMap]
  unfold selectable
  have hz : q.desired.zip ((List.range q.desired.length).map (fun i =>
      (q.need[i]? == some true) && ((mjdVerdict q.desired mjd)[i]? == some true) &&
      (match q.desired[i]? with | some o => unmasked E q.aux c o | none => false))) =
      (q.desired.zip (q.need.zip (mjdVerdict q.desired mjd))).map
        (fun x => (x.1, x.2.1 && x.2.2 && unmasked E q.aux c x.1)) := by
    apply List.ext_getElem
    · simp [mjdVerdict_length, show q.need.length = q.desired.length from h]
    · intro i h1 h2
      have hi : i < q.desired.length := by
        simp at h1; exact h1
      have hn : i < q.need.length := by rw [show q.need.length = q.desired.length from h]; exact hi
      have hv : i < (mjdVerdict q.desired mjd).length := by rw [mjdVerdict_length]; exact hi
      simp [List.getElem?_eq_getElem hi, List.getElem?_eq_getElem hn, List.getElem?_eq_getElem hv]
  rw [hz, List.filter_map, List.map_map]
  rfl

theorem selectable_mem (E : QEnv C A) (q : QM A) (c : C) (mjd : ℚ) {o : Obs}
    (ho : o ∈ q.selectable E c mjd) :
    ∃ i : Nat, q.desired[i]? = some o ∧ q.need[i]? = some true ∧
      (mjdVerdict q.desired mjd)[i]? = some true ∧ unmasked E q.aux c o = true := by
  unfold selectable at ho
  obtain ⟨⟨o', n, v⟩, hx, rfl⟩ := List.mem_map.mp ho
  obtain ⟨hmem, hb⟩ := List.mem_filter.mp hx
  simp only [Bool.and_eq_true] at hb
  obtain ⟨i, hi, hget⟩ := List.getElem_of_mem hmem
  rw [List.getElem_zip, List.getElem_zip] at hget
  simp only [Prod.mk.injEq] at hget
  refine ⟨i, ?_, ?_, ?_, hb.2⟩
  · rw [← hget.1]; exact List.getElem?_eq_getElem _
  · rw [← hb.1.1, ← hget.2.1]; exact List.getElem?_eq_getElem _
  · rw [← hb.1.2, ← hget.2.2]; exact List.getElem?_eq_getElem _

/-- The rows passed to the detailers by `request`. -/
theorem request_eq (E : QEnv C A) (q : QM A) (c : C) (whole : Bool) (h : q.Aligned) :
    q.request E c whole =
      (let sel := q.selectable E c (E.mjdOf c)
       let sel := if whole then sel else sel.take 1
       if sel.length > 0 then ((E.detail q.aux c sel).1, { q with aux := (E.detail q.aux c sel).2 })
       else ([], q)) := by
  have hkey : ∀ l : List Nat, (∀ i ∈ l, i < q.desired.length) →
      (if l.length > 1 then l.take 1 else l).filterMap (fun i => q.desired[i]?) =
      (l.filterMap (fun i => q.desired[i]?)).take 1 := by
    intro l hl
    match l with
    | [] => simp
    | [a] => 
      have := hl a (by simp)
      simp [List.getElem?_eq_getElem this]
    | a :: b :: t =>
      have := hl a (by simp)
      simp [List.getElem?_eq_getElem this]
  have hfv : ∀ i ∈ q.findValid E c (E.mjdOf c), i < q.desired.length := by
    intro i hi
    rw [findValid_eq E q c _ h] at hi
    have := (List.mem_filter.mp hi).1
    simpa using this
  unfold request
  simp only
  cases whole
  · simp only [Bool.false_eq_true, if_false]
    rw [hkey _ hfv, selected_eq E q c _ h]
    split
    · rfl
    · rename_i hz
      have : (List.take 1 (q.selectable E c (E.mjdOf c))) = [] := by
        apply List.length_eq_zero_iff.mp; omega
      rw [this]
  · simp only [if_true]
    rw [selected_eq E q c _ h]
    split
    · rfl
    · rename_i hz
      have : (q.selectable E c (E.mjdOf c)) = [] := by
        apply List.length_eq_zero_iff.mp; omega
      rw [this]

end QM
end Verif
