import Verif.Model.Chunk
import Verif.Props.Detailers

/-!
Property C81: visits in chunks of hour angle.
-/

namespace Verif

open Det

/-! ### Specification -/

/-- Within the list no band is left and taken up again. -/
def Grouped (r : List Obs) : Prop :=
  ∀ a x b y d, r = a ++ x :: (b ++ y :: d) → x.band = y.band → ∀ z ∈ b, z.band = x.band

/-- A visit that is setting. -/
def Setting (ha : Obs → ℚ) (o : Obs) : Prop := 0 < ha o ∧ ha o < 12

/-- The first visit of each band is the one farthest west of those setting, or of all if none is. -/
def WestFirst (ha : Obs → ℚ) (r : List Obs) : Prop :=
  ∀ b o, (ofBand b r).head? = some o →
    ((∃ x ∈ ofBand b r, Setting ha x) → Setting ha o ∧ ∀ x ∈ ofBand b r, Setting ha x → ha x ≤ ha o) ∧
    ((¬ ∃ x ∈ ofBand b r, Setting ha x) → ∀ x ∈ ofBand b r, ha x ≤ ha o)

/-- Chunks one after the other, beginning in the given band: each starts in the band in which the one
before ended, if it has visits in it. -/
def Smooth (ha : Obs → ℚ) : String → List (List Obs) → Prop
  | _, [] => True
  | prev, c :: cs => Grouped c ∧ WestFirst ha c ∧ (∀ o, c.head? = some o → (∃ x ∈ c, x.band = prev) → o.band = prev) ∧
      ∃ last, c.getLast? = some last ∧ Smooth ha last.band cs

/-- The chunks have one size, but for the last one, which may be smaller. -/
def EvenSizes (chunks : List (List Obs)) : Prop :=
  ∃ m, (∀ x ∈ (chunks.map List.length).dropLast, x = m) ∧ ∀ x ∈ chunks.map List.length, x ≤ m

/-- What one call should give: all visits above the limit, once each, in chunks of even size from west to east. -/
def ByHourAngle (cfg : Chunk.Cfg) (alt ha : Obs → ℚ) (cur : String) (os r : List Obs) : Prop :=
  r.Perm (os.filter (fun o => decide (cfg.altLimit < alt o))) ∧
  (r.length ≤ cfg.nMin → r.Pairwise (fun a b => ha b ≤ ha a)) ∧
  (cfg.nMin < r.length → ∃ chunks : List (List Obs), r = chunks.flatten ∧
    chunks.Pairwise (fun c d => ∀ a ∈ c, ∀ b ∈ d, ha b ≤ ha a) ∧ Smooth ha cur chunks ∧ EvenSizes chunks ∧
    (chunks.length = 1 ∨ ∃ a ∈ r, ∃ b ∈ r, (chunks.length : ℚ) < (ha a - ha b) / cfg.width + 1))

/-! ### Proof -/

open Chunk

theorem maxOf_spec (l : List ℚ) (h : l ≠ []) : maxOf l ∈ l ∧ ∀ x ∈ l, x ≤ maxOf l := by
  cases l with
  | nil => exact absurd rfl h
  | cons a l =>
    have key : ∀ (l : List ℚ) (a : ℚ), (l.foldl max a = a ∨ l.foldl max a ∈ l) ∧ a ≤ l.foldl max a ∧ ∀ x ∈ l, x ≤ l.foldl max a := by
      intro l
      induction l with
      | nil => intro a; simp
      | cons b l ih =>
        intro a
        obtain ⟨i1, i2, i3⟩ := ih (max a b)
        rw [List.foldl_cons]
        refine ⟨?_, le_trans (le_max_left _ _) i2, ?_⟩
        · rcases i1 with h | h
          · rcases le_total a b with hab | hab
            · right; rw [h, max_eq_right hab]; simp
            · left; rw [h, max_eq_left hab]
          · right; exact List.mem_cons_of_mem _ h
        · intro x hx
          rcases List.mem_cons.1 hx with rfl | hx
          · exact le_trans (le_max_right _ _) i2
          · exact i3 x hx
    obtain ⟨k1, k2, k3⟩ := key l a
    unfold maxOf
    dsimp only
    refine ⟨?_, ?_⟩
    · rcases k1 with h | h
      · rw [h]; simp
      · exact List.mem_cons_of_mem _ h
    · intro x hx
      rcases List.mem_cons.1 hx with rfl | hx
      · exact k2
      · exact k3 x hx

theorem minOf_mem (l : List ℚ) (h : l ≠ []) : minOf l ∈ l := by
  cases l with
  | nil => exact absurd rfl h
  | cons a l =>
    unfold minOf
    dsimp only
    induction l generalizing a with
    | nil => simp
    | cons b l ih =>
      rw [List.foldl_cons]
      have := ih (min a b) (by simp)
      rcases List.mem_cons.1 this with h | h
      · rw [h]
        rcases le_total a b with hab | hab
        · rw [min_eq_left hab]; simp
        · rw [min_eq_right hab]; simp
      · simp [h]

theorem start_spec (ha : Obs → ℚ) (l : List Obs) (hne : l ≠ []) :
    (start ha l).Perm l ∧ ∃ o, (start ha l).head? = some o ∧
      ((∃ x ∈ l, Setting ha x) → Setting ha o ∧ ∀ x ∈ l, Setting ha x → ha x ≤ ha o) ∧
      ((¬ ∃ x ∈ l, Setting ha x) → ∀ x ∈ l, ha x ≤ ha o) := by
  unfold start
  dsimp only
  refine ⟨List.rotate_perm _ _, ?_⟩
  have hset : ∀ h, h ∈ (l.map ha).filter (fun h => decide (0 < h) && decide (h < 12)) ↔ ∃ x ∈ l, Setting ha x ∧ ha x = h := by
    intro h
    rw [List.mem_filter, List.mem_map]
    unfold Setting
    constructor
    · rintro ⟨⟨x, hx, rfl⟩, h2⟩
      simp only [Bool.and_eq_true, decide_eq_true_iff] at h2
      exact ⟨x, hx, h2, rfl⟩
    · rintro ⟨x, hx, h2, rfl⟩
      refine ⟨⟨x, hx, rfl⟩, by simpa using h2⟩
  generalize hT : (if (l.map ha).filter (fun h => decide (0 < h) && decide (h < 12)) = [] then maxOf (l.map ha)
    else maxOf ((l.map ha).filter (fun h => decide (0 < h) && decide (h < 12)))) = target
  have hmem : ∃ x ∈ l, (ha x == target) = true := by
    subst hT
    by_cases hs : (l.map ha).filter (fun h => decide (0 < h) && decide (h < 12)) = []
    · rw [if_pos hs]
      obtain ⟨x, hx, e⟩ := List.mem_map.1 (maxOf_spec (l.map ha) (by simpa using hne)).1
      exact ⟨x, hx, by simpa using e⟩
    · rw [if_neg hs]
      obtain ⟨x, hx, _, e⟩ := (hset _).1 (maxOf_spec _ hs).1
      exact ⟨x, hx, by simpa using e⟩
  have hlt := List.findIdx_lt_length_of_exists hmem
  have ht := List.findIdx_getElem (w := hlt)
  rw [beq_iff_eq] at ht
  have hhead : (l.rotate (l.findIdx (fun o => ha o == target))).head? = some (l[l.findIdx (fun o => ha o == target)]) := by
    rw [List.head?_rotate hlt, List.getElem?_eq_getElem hlt]
  generalize l[l.findIdx (fun o => ha o == target)] = o at *
  refine ⟨o, hhead, ?_⟩
  rw [ht]
  clear hhead hlt hmem
  subst hT
  by_cases hs : (l.map ha).filter (fun h => decide (0 < h) && decide (h < 12)) = []
  · have hno : ¬ ∃ x ∈ l, Setting ha x := by
      rintro ⟨x, hx, h⟩
      have := (hset (ha x)).2 ⟨x, hx, h, rfl⟩
      rw [hs] at this; simp at this
    refine ⟨fun h => absurd h hno, fun _ x hx => ?_⟩
    rw [if_pos hs]
    exact (maxOf_spec (l.map ha) (by simpa using hne)).2 _ (List.mem_map_of_mem hx)
  · rw [if_neg hs] at ht ⊢
    have hm := maxOf_spec _ hs
    obtain ⟨x0, hx0, hx0s, e0⟩ := (hset _).1 hm.1
    refine ⟨fun _ => ⟨?_, ?_⟩, fun h => absurd ⟨x0, hx0, hx0s⟩ h⟩
    · unfold Setting at hx0s ⊢
      rw [ht, ← e0]; exact hx0s
    · intro x hx hxs
      exact hm.2 _ ((hset _).2 ⟨x, hx, hxs, rfl⟩)

/-- Routes have each visit once (C31). -/
def GoodRoute (spatial : List Obs → List ℕ) : Prop := ∀ l, l ≠ [] → (spatial l).Perm (List.range l.length)

theorem reorder_perm {is : List ℕ} {l : List Obs} (h : is.Perm (List.range l.length)) : (is.filterMap (fun i => l[i]?)).Perm l := by
  have h1 := h.filterMap (fun i => l[i]?)
  have h2 : (List.range l.length).filterMap (fun i => l[i]?) = l := by
    clear h h1
    induction l with
    | nil => rfl
    | cons a l ih =>
      rw [List.length_cons, List.range_succ_eq_map, List.filterMap_cons]
      simp only [List.getElem?_cons_zero, List.filterMap_map]
      congr 1
  rw [h2] at h1
  exact h1

theorem ofOne_spec {spatial : List Obs → List ℕ} (hs : GoodRoute spatial) (ha : Obs → ℚ) (os : List Obs) (c : Char) :
    (ofOne spatial ha os c).Perm (ofBand (String.singleton c) os) ∧
    ∀ o, (ofOne spatial ha os c).head? = some o →
      ((∃ x ∈ ofOne spatial ha os c, Setting ha x) → Setting ha o ∧ ∀ x ∈ ofOne spatial ha os c, Setting ha x → ha x ≤ ha o) ∧
      ((¬ ∃ x ∈ ofOne spatial ha os c, Setting ha x) → ∀ x ∈ ofOne spatial ha os c, ha x ≤ ha o) := by
  unfold ofOne
  dsimp only
  rw [show os.filter (fun o => o.band == String.singleton c) = ofBand (String.singleton c) os from rfl]
  by_cases h : ofBand (String.singleton c) os = []
  · rw [if_pos h, h]
    exact ⟨List.Perm.refl _, by simp⟩
  · rw [if_neg h]
    have hp := reorder_perm (hs _ h)
    have hne : (spatial (ofBand (String.singleton c) os)).filterMap (fun i => (ofBand (String.singleton c) os)[i]?) ≠ [] := by
      intro e; rw [e] at hp; exact h hp.nil_eq.symm
    obtain ⟨k1, o, k2, k3, k4⟩ := start_spec ha _ hne
    refine ⟨k1.trans hp, ?_⟩
    intro o' ho'
    rw [k2] at ho'
    cases ho'
    simp only [k1.mem_iff]
    exact ⟨k3, k4⟩

theorem ofOne_band {spatial : List Obs → List ℕ} (hs : GoodRoute spatial) (ha : Obs → ℚ) (os : List Obs) (c : Char) :
    ∀ o ∈ ofOne spatial ha os c, o.band = String.singleton c := by
  intro o ho
  have := (ofOne_spec hs ha os c).1.mem_iff.1 ho
  have := (List.mem_filter.1 this).2
  simpa using this

/-- Every visit is in a band of the order. -/
def Covered (order : List Char) (os : List Obs) : Prop := ∀ o ∈ os, ∃ c ∈ order, o.band = String.singleton c

theorem flatMap_perm (w : List Char) (hw : w.Nodup) (os : List Obs) (hc : Covered w os) :
    (w.flatMap (fun c => ofBand (String.singleton c) os)).Perm os := by
  apply perm_of_ofBand
  intro b
  by_cases hb : ∃ a ∈ w, b = String.singleton a
  · obtain ⟨a, ha, rfl⟩ := hb
    exact ofBand_flatMap w hw os a ha
  · have e1 : ofBand b os = [] := by
      unfold ofBand
      rw [List.filter_eq_nil_iff]
      intro o ho he
      obtain ⟨a, ha, h⟩ := hc o ho
      rw [beq_iff_eq] at he
      exact hb ⟨a, ha, he ▸ h⟩
    rw [e1]
    unfold ofBand
    rw [List.filter_eq_nil_iff]
    intro o ho he
    rw [List.mem_flatMap] at ho
    obtain ⟨ch, hch, ho⟩ := ho
    have := (List.mem_filter.1 ho).2
    rw [beq_iff_eq] at this he
    exact hb ⟨ch, hch, he ▸ this⟩

theorem ofBand_blocks (f : Char → List Obs) (hf : ∀ c, ∀ o ∈ f c, o.band = String.singleton c) (w : List Char) (hw : w.Nodup) (b : String) :
    ofBand b (w.flatMap f) = [] ∨ ∃ c ∈ w, ofBand b (w.flatMap f) = f c := by
  induction w with
  | nil => left; rfl
  | cons a w ih =>
    rw [List.nodup_cons] at hw
    rw [List.flatMap_cons]
    have app : ofBand b (f a ++ w.flatMap f) = ofBand b (f a) ++ ofBand b (w.flatMap f) := by
      unfold ofBand; rw [List.filter_append]
    rw [app]
    by_cases h : b = String.singleton a
    · have e1 : ofBand b (f a) = f a := by
        unfold ofBand
        rw [List.filter_eq_self]
        intro o ho
        rw [hf a o ho, h]; simp
      have e2 : ofBand b (w.flatMap f) = [] := by
        unfold ofBand
        rw [List.filter_eq_nil_iff]
        intro o ho he
        obtain ⟨c, hc, ho⟩ := List.mem_flatMap.1 ho
        rw [beq_iff_eq, hf c o ho, h] at he
        exact hw.1 (singleton_inj he ▸ hc)
      right
      exact ⟨a, by simp, by rw [e1, e2, List.append_nil]⟩
    · have e1 : ofBand b (f a) = [] := by
        unfold ofBand
        rw [List.filter_eq_nil_iff]
        intro o ho he
        rw [beq_iff_eq, hf a o ho] at he
        exact h he.symm
      rw [e1, List.nil_append]
      rcases ih hw.2 with h | ⟨c, hc, h⟩
      · left; exact h
      · right; exact ⟨c, List.mem_cons_of_mem _ hc, h⟩

theorem grouped_blocks (f : Char → List Obs) (hf : ∀ c, ∀ o ∈ f c, o.band = String.singleton c) (w : List Char) (hw : w.Nodup) :
    Grouped (w.flatMap f) := by
  have hp : (w.flatMap f).Pairwise (fun a b => place w a ≤ place w b) := by
    rw [List.pairwise_flatMap]
    constructor
    · intro a _
      apply List.pairwise_of_forall_mem_list
      intro x hx y hy
      unfold place; rw [hf a x hx, hf a y hy]
    · have hp : w.Pairwise (fun a b => (w.map String.singleton).idxOf (String.singleton a) ≤
          (w.map String.singleton).idxOf (String.singleton b)) := by
        rw [List.pairwise_iff_getElem]
        intro i j hi hj hij
        have hn : (w.map String.singleton).Nodup := hw.map (fun a b hab => singleton_inj hab)
        have gi : String.singleton w[i] = (w.map String.singleton)[i]'(by simpa using hi) := by simp
        have gj : String.singleton w[j] = (w.map String.singleton)[j]'(by simpa using hj) := by simp
        rw [gi, gj, hn.idxOf_getElem, hn.idxOf_getElem]
        omega
      apply hp.imp
      intro a b hab x hx y hy
      unfold place; rw [hf a x hx, hf b y hy]
      exact hab
  intro a x b y d e hxy z hz
  have hx : x ∈ w.flatMap f := by rw [e]; simp
  rw [e, List.pairwise_append, List.pairwise_cons, List.pairwise_append] at hp
  obtain ⟨_, ⟨h1, _, _, h2⟩, _⟩ := hp
  have p1 := h1 z (by simp [hz])
  have p2 := h2 z hz y (by simp)
  have p3 : place w z = place w x := by
    have : place w y = place w x := by unfold place; rw [hxy]
    omega
  obtain ⟨c, hc, hx⟩ := List.mem_flatMap.1 hx
  unfold place at p3
  exact ((List.idxOf_inj (by rw [hf c x hx]; exact List.mem_map_of_mem hc)).1 p3.symm).symm

/-- The order of bands: each once, and at least those configured. -/
def GoodOrder (cfg : Cfg) (order : List Char) : Prop := order.Nodup ∧ ∀ c ∈ cfg.orig, c ∈ order

theorem bandFirst_spec (c : Char) (order : List Char) : bandFirst (String.singleton c) order = c :: order.filter (· ≠ c) := by
  unfold bandFirst
  rw [show (String.singleton c).toList = [c] by simp, removeSub_single]; rfl

theorem bandFirst_good {cfg : Cfg} {order : List Char} (c : Char) (h : GoodOrder cfg order) :
    GoodOrder cfg (bandFirst (String.singleton c) order) := by
  rw [bandFirst_spec]
  refine ⟨?_, ?_⟩
  · rw [List.nodup_cons]
    exact ⟨by rw [List.mem_filter]; simp, h.1.filter _⟩
  · intro a ha
    by_cases e : a = c
    · simp [e]
    · exact List.mem_cons_of_mem _ (List.mem_filter.2 ⟨h.2 a ha, by simpa using e⟩)

theorem bandSpatial_spec {cfg : Cfg} {spatial : List Obs → List ℕ} (hs : GoodRoute spatial) (ha : Obs → ℚ) (c : Char) (order : List Char)
    (ho : GoodOrder cfg (c :: order)) (os : List Obs) (hne : os ≠ []) (hc : Covered cfg.orig os) :
    ∃ r, bandSpatial spatial ha (c :: order) os = some r ∧ r.Perm os ∧ Grouped r ∧ WestFirst ha r ∧
      ∀ o, r.head? = some o → (∃ x ∈ r, x.band = String.singleton c) → o.band = String.singleton c := by
  unfold bandSpatial
  dsimp only
  have hp : ((c :: order).flatMap (ofOne spatial ha os)).Perm os := by
    refine (List.Perm.flatMap_left (g := fun c => ofBand (String.singleton c) os) _ (fun a _ => (ofOne_spec hs ha os a).1)).trans ?_
    apply flatMap_perm _ ho.1
    intro o hoo
    obtain ⟨a, h1, h2⟩ := hc o hoo
    exact ⟨a, ho.2 a h1, h2⟩
  have hrne : (c :: order).flatMap (ofOne spatial ha os) ≠ [] := by
    intro e; rw [e] at hp; exact hne hp.nil_eq.symm
  rw [if_neg hrne]
  have hf := ofOne_band hs ha os
  refine ⟨_, rfl, hp, grouped_blocks _ hf _ ho.1, ?_, ?_⟩
  · intro b o hh
    rcases ofBand_blocks _ hf _ ho.1 b with h | ⟨a, _, h⟩
    · rw [h] at hh; cases hh
    · rw [h] at hh ⊢
      exact (ofOne_spec hs ha os a).2 o hh
  · intro o hh ⟨x, hx, hxb⟩
    rw [List.flatMap_cons] at hh hx
    have hfirst : ofOne spatial ha os c ≠ [] := by
      intro e
      rw [e, List.nil_append] at hx
      obtain ⟨a, h1, h2⟩ := List.mem_flatMap.1 hx
      have := singleton_inj ((hf a x h2).symm.trans hxb)
      exact (List.nodup_cons.1 ho.1).1 (this ▸ h1)
    rw [List.head?_append_of_ne_nil _ hfirst] at hh
    exact hf c o (List.mem_of_head? hh)

theorem chunkLoop_spec {cfg : Cfg} (horig : cfg.orig.Nodup) {spatial : List Obs → List ℕ} (hs : GoodRoute spatial) (ha : Obs → ℚ) :
    ∀ (cs : List (List Obs)) (c : Char) (order : List Char), GoodOrder cfg (c :: order) → (∀ x ∈ cs, Covered cfg.orig x) →
    ∃ order' rs, chunkLoop cfg spatial ha (c :: order) cs = some (order', rs.flatten) ∧ GoodOrder cfg order' ∧
      List.Forall₂ List.Perm rs (cs.filter (fun x => decide (x ≠ []))) ∧ Smooth ha (String.singleton c) rs := by
  intro cs
  induction cs with
  | nil => intro c order ho _; exact ⟨_, [], rfl, ho, List.Forall₂.nil, trivial⟩
  | cons x cs ih =>
    intro c order ho hc
    have hcs : ∀ x ∈ cs, Covered cfg.orig x := fun y hy => hc y (List.mem_cons_of_mem _ hy)
    unfold chunkLoop
    by_cases hx : x = []
    · rw [if_pos hx, List.filter_cons_of_neg (by simpa using hx)]
      exact ih c order ho hcs
    · rw [if_neg hx, List.filter_cons_of_pos (by simpa using hx)]
      obtain ⟨r, h1, h2, h3, h4, h5⟩ := bandSpatial_spec hs ha c order ho x hx (hc x (by simp))
      rw [h1]
      dsimp only
      have hrne : r ≠ [] := by
        intro e; rw [e] at h2; exact hx h2.nil_eq.symm
      have hl : r.getLast? = some (r.getLast hrne) := List.getLast?_eq_some_getLast hrne
      rw [hl]
      dsimp only
      obtain ⟨a, _, ha'⟩ := hc x (by simp) (r.getLast hrne) (h2.mem_iff.1 (List.getLast_mem hrne))
      have hg : GoodOrder cfg (bandFirst (String.singleton a) cfg.orig) := bandFirst_good a ⟨horig, fun _ h => h⟩
      rw [ha']
      have hbf := bandFirst_spec a cfg.orig
      rw [hbf] at hg ⊢
      obtain ⟨order', rs, i1, i2, i3, i4⟩ := ih a _ hg hcs
      rw [i1]
      refine ⟨order', r :: rs, rfl, i2, List.Forall₂.cons h2 i3, h3, h4, h5, _, hl, ?_⟩
      rw [ha']; exact i4

theorem slices_flatten (n k : ℕ) (os : List Obs) : (slices n k os).flatten = os ∧ (slices n k os).length = k + 1 := by
  induction k generalizing os with
  | zero => simp [slices]
  | succ k ih => simp [slices, ih]

theorem slices_even (n : ℕ) : ∀ (k : ℕ) (os : List Obs), os.length ≤ n * (k + 1) →
    (∀ x ∈ (((slices n k os).filter (fun x => decide (x ≠ []))).map List.length).dropLast, x = n) ∧
      ∀ x ∈ ((slices n k os).filter (fun x => decide (x ≠ []))).map List.length, x ≤ n := by
  intro k
  induction k with
  | zero =>
    intro os h
    unfold slices
    by_cases ho : os = []
    · simp [ho]
    · simp [ho]; omega
  | succ k ih =>
    intro os h
    unfold slices
    obtain ⟨i1, i2⟩ := ih (os.drop n) (by rw [List.length_drop]; have : n * (k + 1 + 1) = n * (k + 1) + n := by ring
                                          omega)
    by_cases ho : os.take n = []
    · rw [List.filter_cons_of_neg (by rw [ho]; simp)]; exact ⟨i1, i2⟩
    · rw [List.filter_cons_of_pos (p := fun x : List Obs => decide (x ≠ [])) (decide_eq_true ho), List.map_cons]
      refine ⟨?_, ?_⟩
      · generalize hl : ((slices n k (os.drop n)).filter (fun x => decide (x ≠ []))).map List.length = l at *
        cases l with
        | nil => simp
        | cons a l =>
          rw [List.dropLast_cons_of_ne_nil (by simp)]
          intro x hx
          rcases List.mem_cons.1 hx with rfl | hx
          · by_cases hn : n ≤ os.length
            · rw [List.length_take]; omega
            · exfalso
              have hd : os.drop n = [] := List.drop_eq_nil_of_le (by omega)
              have hf := (slices_flatten n k (os.drop n)).1
              rw [hd, List.flatten_eq_nil_iff] at hf
              have : (slices n k (os.drop n)).filter (fun x => decide (x ≠ [])) = [] := by
                rw [hd, List.filter_eq_nil_iff]; intro y hy; simp [hf y hy]
              rw [this] at hl; simp at hl
          · exact i1 x hx
      · intro x hx
        rcases List.mem_cons.1 hx with rfl | hx
        · rw [List.length_take]; omega
        · exact i2 x hx

theorem forall₂_perm_lengths {rs cs : List (List Obs)} (h : List.Forall₂ List.Perm rs cs) : rs.map List.length = cs.map List.length := by
  induction h with
  | nil => rfl
  | cons h1 _ ih => rw [List.map_cons, List.map_cons, h1.length_eq, ih]

theorem pairwise_chunks {R : Obs → Obs → Prop} : ∀ (cs : List (List Obs)), cs.flatten.Pairwise R →
    cs.Pairwise (fun c d => ∀ a ∈ c, ∀ b ∈ d, R a b) := by
  intro cs
  induction cs with
  | nil => intro _; exact List.Pairwise.nil
  | cons c cs ih =>
    intro h
    rw [List.flatten_cons, List.pairwise_append] at h
    rw [List.pairwise_cons]
    refine ⟨?_, ih h.2.1⟩
    intro d hd a haa b hb
    exact h.2.2 a haa b (List.mem_flatten.2 ⟨d, hd, hb⟩)

theorem forall₂_perm_pairwise {R : Obs → Obs → Prop} {rs cs : List (List Obs)} (h : List.Forall₂ List.Perm rs cs)
    (hp : cs.Pairwise (fun c d => ∀ a ∈ c, ∀ b ∈ d, R a b)) : rs.Pairwise (fun c d => ∀ a ∈ c, ∀ b ∈ d, R a b) := by
  induction h with
  | nil => exact List.Pairwise.nil
  | @cons r c rs cs h1 h2 ih =>
    rw [List.pairwise_cons] at hp ⊢
    refine ⟨?_, ih hp.2⟩
    intro d hd a haa b hb
    obtain ⟨d', hd', hdd⟩ : ∃ d' ∈ cs, d.Perm d' := by
      clear ih hp
      induction h2 with
      | nil => simp at hd
      | @cons x y xs ys k1 k2 ih2 =>
        rcases List.mem_cons.1 hd with rfl | hd
        · exact ⟨y, by simp, k1⟩
        · obtain ⟨d', k3, k4⟩ := ih2 hd
          exact ⟨d', List.mem_cons_of_mem _ k3, k4⟩
    exact hp.1 d' hd' a (h1.mem_iff.1 haa) b (hdd.mem_iff.1 hb)

theorem forall₂_perm_flatten {rs cs : List (List Obs)} (h : List.Forall₂ List.Perm rs cs) : rs.flatten.Perm cs.flatten := by
  induction h with
  | nil => exact List.Perm.refl _
  | cons h1 _ ih => rw [List.flatten_cons, List.flatten_cons]; exact h1.append ih

theorem flatten_nonempty (cs : List (List Obs)) : (cs.filter (fun x => decide (x ≠ []))).flatten = cs.flatten := by
  induction cs with
  | nil => rfl
  | cons c cs ih =>
    by_cases h : c = []
    · rw [List.filter_cons_of_neg (by simpa using h), ih, h]; rfl
    · rw [List.filter_cons_of_pos (by simpa using h), List.flatten_cons, List.flatten_cons, ih]

/-- One call. -/
theorem call_spec (cfg : Cfg) (horig : cfg.orig.Nodup) (spatial : List Obs → List ℕ) (hs : GoodRoute spatial)
    (alt ha : Obs → ℚ) (c : Char) (order : List Char) (ho : GoodOrder cfg order) (os : List Obs)
    (hup : ∃ o ∈ os, cfg.altLimit < alt o) (hc : Covered cfg.orig os) :
    ∃ order' r, call cfg spatial alt ha (String.singleton c) order os = some (order', r) ∧ GoodOrder cfg order' ∧
      ByHourAngle cfg alt ha (String.singleton c) os r := by
  unfold call
  dsimp only
  have hperm : (westToEast cfg alt ha os).Perm (os.filter (fun o => decide (cfg.altLimit < alt o))) := by
    unfold westToEast; exact List.perm_insertionSort _ _
  have hsorted : (westToEast cfg alt ha os).Pairwise (fun a b => ha b ≤ ha a) := by
    unfold westToEast
    have : Std.Total (fun a b : Obs => ha b ≤ ha a) := ⟨fun a b => le_total _ _⟩
    have : IsTrans Obs (fun a b : Obs => ha b ≤ ha a) := ⟨fun a b c h1 h2 => le_trans h2 h1⟩
    exact List.pairwise_insertionSort _ _
  generalize westToEast cfg alt ha os = sorted at *
  have hne : sorted ≠ [] := by
    obtain ⟨o, h1, h2⟩ := hup
    intro e
    have := hperm.mem_iff.2 (List.mem_filter.2 ⟨h1, by simpa using h2⟩)
    rw [e] at this; simp at this
  rw [if_neg hne]
  by_cases hn : sorted.length ≤ cfg.nMin
  · rw [if_pos hn]
    exact ⟨order, sorted, rfl, ho, hperm, fun _ => hsorted, fun h => absurd hn (by omega)⟩
  · rw [if_neg hn, bandFirst_spec]
    have hg := bandFirst_good c ho
    rw [bandFirst_spec] at hg
    have hcov : Covered cfg.orig sorted := by
      intro o hoo
      exact hc o (List.mem_filter.1 (hperm.mem_iff.1 hoo)).1
    have hfl : (chunksOf (setBins cfg.width (sorted.map ha)) sorted).flatten = sorted := by
      unfold chunksOf
      split
      · exact (slices_flatten _ _ _).1
      · simp
    have hcc : ∀ x ∈ chunksOf (setBins cfg.width (sorted.map ha)) sorted, Covered cfg.orig x := by
      intro x hx o hoo
      apply hcov o
      rw [← hfl]
      exact List.mem_flatten.2 ⟨x, hx, hoo⟩
    obtain ⟨order', rs, h1, h2, h3, h4⟩ := chunkLoop_spec horig hs ha _ c _ hg hcc
    rw [h1]
    have hp : rs.flatten.Perm sorted := by
      have := forall₂_perm_flatten h3
      rwa [flatten_nonempty, hfl] at this
    refine ⟨order', rs.flatten, rfl, h2, hp.trans hperm, ?_, ?_⟩
    · intro h; rw [hp.length_eq] at h; exact absurd h hn
    · intro _
      refine ⟨rs, rfl, ?_, h4, ?_, ?_⟩
      · apply forall₂_perm_pairwise h3
        apply pairwise_chunks
        rw [flatten_nonempty, hfl]
        exact hsorted
      · unfold EvenSizes
        rw [forall₂_perm_lengths h3]
        unfold chunksOf
        split
        · rename_i hb
          refine ⟨_, slices_even _ _ _ ?_⟩
          have hb' : (0 : ℚ) < (setBins cfg.width (sorted.map ha) : ℤ) := by exact_mod_cast (by omega : (0:ℤ) < setBins cfg.width (sorted.map ha))
          have h1 := Int.le_ceil ((sorted.length : ℚ) / (setBins cfg.width (sorted.map ha) : ℤ))
          rw [div_le_iff₀ hb'] at h1
          have h2 : (0 : ℤ) ≤ ⌈(sorted.length : ℚ) / (setBins cfg.width (sorted.map ha) : ℤ)⌉ :=
            Int.ceil_nonneg (div_nonneg (Nat.cast_nonneg _) hb'.le)
          have h3 : ((sorted.length : ℤ) : ℚ) ≤ ((⌈(sorted.length : ℚ) / (setBins cfg.width (sorted.map ha) : ℤ)⌉ * setBins cfg.width (sorted.map ha) : ℤ) : ℚ) := by
            push_cast; exact h1
          have h4 : (sorted.length : ℤ) ≤ ⌈(sorted.length : ℚ) / (setBins cfg.width (sorted.map ha) : ℤ)⌉ * setBins cfg.width (sorted.map ha) := by
            exact_mod_cast h3
          zify
          rw [Int.toNat_of_nonneg h2, Int.toNat_of_nonneg (by omega)]
          calc (sorted.length : ℤ) ≤ _ := h4
            _ = _ := by ring
        · refine ⟨sorted.length, ?_, ?_⟩ <;> simp [hne]
      · have hlen := h3.length_eq
        have hle := List.length_filter_le (fun x : List Obs => decide (x ≠ [])) (chunksOf (setBins cfg.width (sorted.map ha)) sorted)
        have hpos : 0 < rs.length := by
          rw [List.length_pos_iff]
          rintro rfl
          exact hne hp.nil_eq.symm
        by_cases hb : 1 < setBins cfg.width (sorted.map ha)
        · right
          have hk : (chunksOf (setBins cfg.width (sorted.map ha)) sorted).length = (setBins cfg.width (sorted.map ha)).toNat := by
            unfold chunksOf
            rw [if_pos hb, (slices_flatten _ _ _).2]
            omega
          have hmne : sorted.map ha ≠ [] := by simpa using hne
          obtain ⟨a, ham, hae⟩ := List.mem_map.1 (maxOf_spec _ hmne).1
          obtain ⟨b, hbm, hbe⟩ := List.mem_map.1 (minOf_mem _ hmne)
          refine ⟨a, hp.mem_iff.2 ham, b, hp.mem_iff.2 hbm, ?_⟩
          rw [hae, hbe]
          have hq : ((rs.length : ℤ) : ℚ) ≤ ((setBins cfg.width (sorted.map ha) : ℤ) : ℚ) := by
            exact_mod_cast (by omega : (rs.length : ℤ) ≤ setBins cfg.width (sorted.map ha))
          have hceil : ((setBins cfg.width (sorted.map ha) : ℤ) : ℚ) < (maxOf (sorted.map ha) - minOf (sorted.map ha)) / cfg.width + 1 := by
            unfold setBins
            exact Int.ceil_lt_add_one _
          calc (rs.length : ℚ) = ((rs.length : ℤ) : ℚ) := by norm_cast
            _ ≤ _ := hq
            _ < _ := hceil
        · left
          have hk : (chunksOf (setBins cfg.width (sorted.map ha)) sorted).length = 1 := by
            unfold chunksOf; rw [if_neg hb]; rfl
          omega

/-- A call: altitudes, hour angles, current band and visits. -/
structure ChunkCall where
  alt : Obs → ℚ
  ha : Obs → ℚ
  cur : Char
  os : List Obs

/-- The answers to a sequence of calls. -/
def chunkRun (cfg : Cfg) (spatial : List Obs → List ℕ) : List Char → List ChunkCall → Option (List (List Obs))
  | _, [] => some []
  | order, c :: cs =>
    match call cfg spatial c.alt c.ha (String.singleton c.cur) order c.os with
    | none => none
    | some (order', r) => (chunkRun cfg spatial order' cs).map (fun rs => r :: rs)

/-- **C81 (partial).** In every sequence of calls of a detailer with distinct bands configured, each with at
least one visit above the altitude limit and all visits in bands configured: every call returns
the visits above the limit, once each, in chunks from west to east; within a chunk the visits of
a band are together, starting in the west, and no band is changed where it need not be. -/
theorem C81_chunks_partial (cfg : Cfg) (horig : cfg.orig.Nodup) (spatial : List Obs → List ℕ) (hs : GoodRoute spatial)
    (calls : List ChunkCall) (hup : ∀ c ∈ calls, ∃ o ∈ c.os, cfg.altLimit < c.alt o) (hc : ∀ c ∈ calls, Covered cfg.orig c.os) :
    ∃ rs, chunkRun cfg spatial cfg.orig calls = some rs ∧
      List.Forall₂ (fun c r => ByHourAngle cfg c.alt c.ha (String.singleton c.cur) c.os r) calls rs := by
  have key : ∀ (calls : List ChunkCall) (order : List Char), GoodOrder cfg order →
      (∀ c ∈ calls, ∃ o ∈ c.os, cfg.altLimit < c.alt o) → (∀ c ∈ calls, Covered cfg.orig c.os) →
      ∃ rs, chunkRun cfg spatial order calls = some rs ∧
        List.Forall₂ (fun c r => ByHourAngle cfg c.alt c.ha (String.singleton c.cur) c.os r) calls rs := by
    intro calls
    induction calls with
    | nil => intro _ _ _ _; exact ⟨[], rfl, List.Forall₂.nil⟩
    | cons c cs ih =>
      intro order ho hup hc
      obtain ⟨order', r, h1, h2, h3⟩ := call_spec cfg horig spatial hs c.alt c.ha c.cur order ho c.os (hup c (by simp)) (hc c (by simp))
      obtain ⟨rs, i1, i2⟩ := ih order' h2 (fun x hx => hup x (List.mem_cons_of_mem _ hx)) (fun x hx => hc x (List.mem_cons_of_mem _ hx))
      refine ⟨r :: rs, ?_, List.Forall₂.cons h3 i2⟩
      unfold chunkRun
      rw [h1]
      dsimp only
      rw [i1]; rfl
  exact key calls cfg.orig ⟨horig, fun _ h => h⟩ hup hc

/-- Settings for the examples: visits are at altitude 10 times their number, the hour angle is 6 less
their number, and the route is the order given. -/
def cfgC : Cfg := { altLimit := 15, orig := ['g', 'r'], nMin := 3, width := 3 }

example : (chunkRun cfgC (fun l => List.range l.length) cfgC.orig
    [⟨fun o => 10 * o.id, fun o => 6 - o.id, 'r', [ob 1 "g", ob 2 "g", ob 3 "r", ob 4 "g", ob 5 "g", ob 6 "r", ob 7 "g"]⟩]).map
    (List.map (List.map Obs.id)) = some [[3, 2, 4, 5, 7, 6]] := by decide +kernel

/-- **C81 fails** if no visit is above the limit: the detailer raises instead of returning no visits. -/
theorem C81_raises : call cfgC (fun l => List.range l.length) (fun _ => 0) (fun _ => 0) "r" cfgC.orig [ob 1 "g"] = none := by decide +kernel

/-- **C81 fails** for a visit in a band not configured: it is lost, although above the limit. -/
theorem C81_violated : (call cfgC (fun l => List.range l.length) (fun _ => 20) (fun _ => 0) "r" cfgC.orig
    [ob 1 "g", ob 2 "z", ob 3 "r", ob 4 "g"]).map (fun p => p.2.map Obs.id) = some [3, 1, 4] := by decide +kernel

/-- Visits of one bin of hour angle come before those of bins further east: of two visits more than the width of
a bin apart the western one is first. -/
def BinsInOrder : Prop :=
  ∀ (cfg : Cfg) (spatial : List Obs → List ℕ) (alt ha : Obs → ℚ) (cur : String) (os : List Obs) (order : List Char) (r : List Obs),
    call cfg spatial alt ha cur cfg.orig os = some (order, r) → r.Pairwise (fun b a => ha a - ha b ≤ cfg.width)

/-- **C81 fails** for bins of hour angle: the chunks are of equal number of visits, not of equal width, so a visit may
come before one of a bin further west. -/
theorem C81_bins_violated : ¬ BinsInOrder := by
  intro h
  have := h { altLimit := 15, orig := ['g', 'r'], nMin := 3, width := 5 } (fun l => List.range l.length) (fun _ => 20)
    (fun o => if o.id = 1 then 6 else - o.id) "r" [ob 1 "g", ob 2 "r", ob 3 "g", ob 4 "r", ob 5 "r"] ['r', 'g']
    [ob 2 "r", ob 1 "g", ob 3 "g", ob 4 "r", ob 5 "r"] (by decide +kernel)
  revert this
  decide +kernel

/-- The hour angle is the sidereal time less the right ascension, in whole days, between -12 and 12. -/
theorem C81_hour_angle (lmst ra : ℚ) : -12 < hourAngle lmst ra ∧ hourAngle lmst ra ≤ 12 ∧ ∃ k : ℤ, hourAngle lmst ra = lmst - ra + 24 * k := by
  unfold hourAngle
  dsimp only
  have h1 := Int.floor_le ((lmst - ra) / 24)
  have h2 := Int.lt_floor_add_one ((lmst - ra) / 24)
  rw [le_div_iff₀ (by norm_num)] at h1
  rw [div_lt_iff₀ (by norm_num)] at h2
  split
  · refine ⟨by linarith, by linarith, -⌊(lmst - ra) / 24⌋ - 1, by push_cast; ring⟩
  · refine ⟨by linarith, by linarith, -⌊(lmst - ra) / 24⌋, by push_cast; ring⟩

example : hourAngle 1 23 = 2 ∧ hourAngle 23 1 = -2 := by decide +kernel

end Verif
