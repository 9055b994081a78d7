import Verif.Model.Bins
import Verif.Spec.Bins

/-!
# Statistics by bins (C143)
-/

namespace Verif

open Bins

theorem slice_sorted {V : Type} (L : List (ℕ × V)) (h : (L.map (·.1)).Pairwise (· ≤ ·)) (u : ℕ) :
    ((L.map (·.2)).take (right (L.map (·.1)) u)).drop (left (L.map (·.1)) u) = (L.filter (fun x => decide (x.1 = u))).map (·.2) := by
  induction L with
  | nil => simp [left, right]
  | cons a L ih =>
    simp only [List.map_cons, List.pairwise_cons, List.mem_map, forall_exists_index, and_imp, forall_apply_eq_imp_iff₂] at h
    obtain ⟨h1, h2⟩ := h
    have ih := ih h2
    rcases Nat.lt_trichotomy a.1 u with hlt | heq | hgt
    · have e1 : left ((a :: L).map (·.1)) u = left (L.map (·.1)) u + 1 := by
        unfold left
        rw [List.map_cons, List.takeWhile_cons_of_pos (by simpa using hlt)]
        rfl
      have e2 : right ((a :: L).map (·.1)) u = right (L.map (·.1)) u + 1 := by
        unfold right
        rw [List.map_cons, List.takeWhile_cons_of_pos (by simpa using hlt.le)]
        rfl
      rw [e1, e2, List.map_cons, List.take_succ_cons, List.drop_succ_cons, ih, List.filter_cons_of_neg (by simp; omega)]
    · have e1 : left ((a :: L).map (·.1)) u = 0 := by
        unfold left
        rw [List.map_cons, List.takeWhile_cons_of_neg (by simp; omega)]
        rfl
      have e2 : right ((a :: L).map (·.1)) u = right (L.map (·.1)) u + 1 := by
        unfold right
        rw [List.map_cons, List.takeWhile_cons_of_pos (by simp; omega)]
        rfl
      have e3 : left (L.map (·.1)) u = 0 := by
        unfold left
        cases L with
        | nil => rfl
        | cons b L =>
          rw [List.map_cons, List.takeWhile_cons_of_neg]
          · rfl
          · have := h1 b List.mem_cons_self
            simp; omega
      rw [e1, e2, List.map_cons, List.take_succ_cons, List.drop_zero, List.filter_cons_of_pos (by simpa using heq), List.map_cons, ← ih, e3, List.drop_zero]
    · have e2 : right ((a :: L).map (·.1)) u = 0 := by
        unfold right
        rw [List.map_cons, List.takeWhile_cons_of_neg (by simp; omega)]
        rfl
      rw [e2, List.take_zero, List.drop_nil]
      symm
      rw [List.map_eq_nil_iff, List.filter_eq_nil_iff]
      intro x hx
      rcases List.mem_cons.1 hx with rfl | hx
      · simp; omega
      · have := h1 x hx
        simp; omega

theorem pick_filterMap {V : Type} {a : List V} : ∀ {order : List ℕ} {L : List V}, pick a order = some L → L = order.filterMap (fun i => a[i]?) := by
  intro order
  induction order with
  | nil => intro L h; simp [pick] at h; simp [h]
  | cons i order ih =>
    intro L h
    unfold pick at h ih
    rw [List.mapM_cons] at h
    simp only [Option.bind_eq_bind, Option.bind_eq_some_iff, Option.pure_def] at h
    obtain ⟨x, hx, L', hL', e⟩ := h
    simp only [Option.some.injEq] at e
    subst e
    rw [List.filterMap_cons_some hx, ih hL']

theorem pick_zip {V : Type} {ids : List ℕ} {values : List V} (hl : ids.length = values.length) : ∀ {order : List ℕ}, (∀ i ∈ order, i < ids.length) →
    ∃ L, pick (ids.zip values) order = some L ∧ pick ids order = some (L.map (·.1)) ∧ pick values order = some (L.map (·.2)) := by
  intro order
  unfold pick
  induction order with
  | nil => intro _; exact ⟨[], by simp⟩
  | cons i order ih =>
    intro h
    obtain ⟨L, h1, h2, h3⟩ := ih (fun j hj => h j (List.mem_cons_of_mem _ hj))
    have hi := h i List.mem_cons_self
    have hi' : i < values.length := by omega
    have hz : i < (ids.zip values).length := by rw [List.length_zip]; omega
    refine ⟨(ids[i], values[i]) :: L, ?_, ?_, ?_⟩
    · rw [List.mapM_cons, List.getElem?_eq_getElem hz, h1, List.getElem_zip]
      rfl
    · rw [List.mapM_cons, List.getElem?_eq_getElem hi, h2]
      rfl
    · rw [List.mapM_cons, List.getElem?_eq_getElem hi', h3]
      rfl

theorem filterMap_range_self {V : Type} (a : List V) : (List.range a.length).filterMap (fun i => a[i]?) = a := by
  induction a using List.reverseRecOn with
  | nil => rfl
  | append_singleton l x ih =>
    rw [List.length_append, List.length_singleton, List.range_succ, List.filterMap_append]
    have e : (List.range l.length).filterMap (fun i => (l ++ [x])[i]?) = (List.range l.length).filterMap (fun i => l[i]?) := by
      apply List.filterMap_congr
      intro i hi
      rw [List.getElem?_append_left (List.mem_range.1 hi)]
    rw [e, ih]
    simp

/-- C143. Every bin that has a value is there once, the bins rise, and the statistic of a bin is over exactly its values, in some order. -/
theorem C143_stat {V R : Type} (ids : List ℕ) (values : List V) (order : List ℕ) (stat : List V → R) (hl : ids.length = values.length) (ho : IsOrder ids order) :
    ∃ rows, binned ids values order stat = some rows ∧ (rows.map (·.1)).Pairwise (· < ·) ∧ (∀ u, u ∈ rows.map (·.1) ↔ u ∈ ids) ∧
      ∀ x ∈ rows, ∃ l, l.Perm (valuesIn ids values x.1) ∧ x.2 = stat l := by
  obtain ⟨hp, hs⟩ := ho
  obtain ⟨L, h1, h2, h3⟩ := pick_zip hl (order := order) (fun i hi => List.mem_range.1 (hp.mem_iff.1 hi))
  have hL : L.Perm (ids.zip values) := by
    rw [pick_filterMap h1]
    have := (hp.filterMap (fun i => (ids.zip values)[i]?))
    have hlen : (ids.zip values).length = ids.length := by rw [List.length_zip]; omega
    rw [← hlen, filterMap_range_self] at this
    exact this
  have hsort : (L.map (·.1)).Pairwise (· ≤ ·) := by
    rw [pick_filterMap h2]
    exact hs
  refine ⟨_, by unfold binned; rw [h2, h3], ?_, ?_, ?_⟩
  · rw [List.map_map]
    have : ((fun x : ℕ × R => x.1) ∘ fun u => (u, stat (((L.map (·.2)).take (right (L.map (·.1)) u)).drop (left (L.map (·.1)) u)))) = id := rfl
    rw [this, List.map_id]
    unfold unique
    have hnd : (ids.dedup.insertionSort (· ≤ ·)).Nodup := (List.perm_insertionSort _ _).nodup_iff.2 (List.nodup_dedup _)
    have hle := List.pairwise_insertionSort (· ≤ ·) ids.dedup
    exact hle.imp₂ (fun a b h1 h2 => lt_of_le_of_ne h1 h2) hnd
  · intro u
    rw [List.map_map]
    have : ((fun x : ℕ × R => x.1) ∘ fun u => (u, stat (((L.map (·.2)).take (right (L.map (·.1)) u)).drop (left (L.map (·.1)) u)))) = id := rfl
    rw [this, List.map_id]
    unfold unique
    rw [List.mem_insertionSort, List.mem_dedup]
  · intro x hx
    obtain ⟨u, -, rfl⟩ := List.mem_map.1 hx
    refine ⟨_, ?_, rfl⟩
    rw [slice_sorted L hsort]
    exact (hL.filter _).map _

/-- C143. With a statistic that does not depend on the order of its values, the result does not depend on how equal bins are sorted. -/
theorem C143_order {V R : Type} (ids : List ℕ) (values : List V) (o1 o2 : List ℕ) (stat : List V → R) (hl : ids.length = values.length)
    (h1 : IsOrder ids o1) (h2 : IsOrder ids o2) (hs : ∀ l l' : List V, l.Perm l' → stat l = stat l') : binned ids values o1 stat = binned ids values o2 stat := by
  obtain ⟨r1, e1, s1, m1, v1⟩ := C143_stat ids values o1 stat hl h1
  obtain ⟨r2, e2, s2, m2, v2⟩ := C143_stat ids values o2 stat hl h2
  have hk : ∀ r : List (ℕ × R), (∀ x ∈ r, ∃ l, l.Perm (valuesIn ids values x.1) ∧ x.2 = stat l) → r = (r.map (·.1)).map (fun u => (u, stat (valuesIn ids values u))) := by
    intro r hr
    rw [List.map_map]
    conv_lhs => rw [← List.map_id r]
    apply List.map_congr_left
    intro x hx
    obtain ⟨l, hl, e⟩ := hr x hx
    exact Prod.ext rfl (e.trans (hs _ _ hl))
  have hfst : r1.map (·.1) = r2.map (·.1) := by
    apply List.Perm.eq_of_pairwise (le := (· < ·)) (fun a b _ _ h h' => absurd h (not_lt.2 h'.le)) s1 s2
    rw [List.perm_ext_iff_of_nodup (s1.imp (fun h => ne_of_lt h)) (s2.imp (fun h => ne_of_lt h))]
    intro u
    rw [m1, m2]
  rw [e1, e2, hk r1 v1, hk r2 v2, hfst]

theorem foldl_put_length {V : Type} (rows : List (ℕ × V)) : ∀ m : List V, (rows.foldl put m).length = m.length := by
  induction rows with
  | nil => intro m; rfl
  | cons x rows ih => intro m; rw [List.foldl_cons, ih]; simp [put]

theorem foldl_put_other {V : Type} {p : ℕ} : ∀ {rows : List (ℕ × V)} (m : List V), p ∉ rows.map (·.1) → (rows.foldl put m)[p]? = m[p]? := by
  intro rows
  induction rows with
  | nil => intro m _; rfl
  | cons x rows ih =>
    intro m h
    simp only [List.map_cons, List.mem_cons, not_or] at h
    rw [List.foldl_cons, ih _ h.2]
    unfold put
    rw [List.getElem?_set_ne (Ne.symm h.1)]

theorem foldl_put_mem {V : Type} {x : ℕ × V} : ∀ {rows : List (ℕ × V)} (m : List V), (rows.map (·.1)).Nodup → x ∈ rows → x.1 < m.length → (rows.foldl put m)[x.1]? = some x.2 := by
  intro rows
  induction rows with
  | nil => intro m _ h _; simp at h
  | cons y rows ih =>
    intro m hn hx hl
    simp only [List.map_cons, List.nodup_cons] at hn
    rw [List.foldl_cons]
    rcases List.mem_cons.1 hx with rfl | hx
    · rw [foldl_put_other _ hn.1]
      unfold put
      rw [List.getElem?_set_self hl]
    · exact ih _ hn.2 hx (by unfold put; rw [List.length_set]; exact hl)

/-- C143. A map has one value per pixel: that of the values with positions in the pixel, and the value for filling in a pixel without any or
with `nan`. -/
theorem C143_map {V : Type} (npix : ℕ) (ids : List ℕ) (values : List V) (order : List ℕ) (reduce : List V → Option V) (fill : Option V)
    (hl : ids.length = values.length) (ho : IsOrder ids order) :
    ∃ out, healbin npix ids values order reduce fill = some out ∧ out.length = npix ∧
      ∀ p < npix, (p ∈ ids → ∃ l, l.Perm (valuesIn ids values p) ∧ out[p]? = some (match reduce l with | some v => some v | none => fill)) ∧
        (p ∉ ids → out[p]? = some fill) := by
  obtain ⟨rows, e, hs, hm, hv⟩ := C143_stat ids values order reduce hl ho
  refine ⟨_, by unfold healbin; rw [e]; rfl, ?_, ?_⟩
  · rw [List.length_map, foldl_put_length, List.length_replicate]
  · intro p hp
    constructor
    · intro hpi
      obtain ⟨x, hx, rfl⟩ := List.mem_map.1 ((hm p).2 hpi)
      obtain ⟨l, hl, e2⟩ := hv x hx
      refine ⟨l, hl, ?_⟩
      rw [List.getElem?_map, foldl_put_mem _ (hs.imp (fun h => ne_of_lt h)) hx (by rw [List.length_replicate]; exact hp), e2]
      unfold fillNan
      cases reduce l <;> rfl
    · intro hpi
      rw [List.getElem?_map, foldl_put_other _ (fun h => hpi ((hm p).1 h)), List.getElem?_replicate_of_lt hp]
      unfold fillNan
      cases fill <;> rfl

example : IsOrder [3, 1, 3, 0] [3, 1, 2, 0] ∧ binned [3, 1, 3, 0] [10, 20, 30, 40] [3, 1, 2, 0] List.sum = some [(0, 40), (1, 20), (3, 40)] ∧
    healbin 5 [3, 1, 3, 0] [10, 20, 30, 40] [3, 1, 2, 0] (fun l => some l.sum) none = some [some 40, some 20, none, some 40, none] := by
  refine ⟨⟨?_, ?_⟩, ?_, ?_⟩ <;> decide +kernel

end Verif
