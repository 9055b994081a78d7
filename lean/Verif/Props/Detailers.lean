import Verif.Model.Detailers
import Verif.Spec.Features
import Verif.Props.IntRounded
import Mathlib.Data.List.Rotate
import Mathlib.Data.List.Dedup
import Mathlib.Data.List.Nodup

/-!
Properties C39 to C41, C73 and C74: detailers which reorder, repeat or cut the visits.
-/

namespace Verif

open Det Feat

/-! ### C39: sorting by band -/

/-- The order in which bands are to be visited: the one given, or that of their first visits; the
current band first, if so configured. -/
def wantedBands (order : Option (List Char)) (loadedFirst : Bool) (cur : Char) (os : List Obs) : List Char :=
  let base := match order with
    | none => ((os.map (fun o => o.band.toList.headD ' ')).reverse.dedup).reverse
    | some l => l
  if loadedFirst then cur :: base.filter (· ≠ cur) else base

theorem removeSub_single (c : Char) (s : List Char) : removeSub [c] s = s.filter (· ≠ c) := by
  induction s with
  | nil => unfold removeSub; rfl
  | cons a s ih =>
    unfold removeSub
    by_cases h : a = c
    · subst h; simp [ih]
    · rw [if_neg, ih, List.filter_cons_of_pos (by simpa using h)]
      rintro ⟨_, hp⟩
      rw [List.cons_prefix_cons] at hp
      exact h hp.1.symm

/-- A band of one letter. -/
def IsLetter (s : String) : Prop := ∃ c, s = String.singleton c

theorem singleton_inj {a b : Char} (h : String.singleton a = String.singleton b) : a = b := by
  have := congrArg String.toList h; simpa using this

theorem bandsSeen_letters (os : List Obs) (h : ∀ o ∈ os, IsLetter o.band) :
    (bandsSeen os).flatMap String.toList = ((os.map (fun o => o.band.toList.headD ' ')).reverse.dedup).reverse := by
  have e : os.map Obs.band = (os.map (fun o => o.band.toList.headD ' ')).map String.singleton := by
    rw [List.map_map]
    apply List.map_congr_left
    intro o ho
    obtain ⟨c, hc⟩ := h o ho
    simp [hc]
  unfold bandsSeen
  rw [e, ← List.map_reverse, List.dedup_map_of_injective (fun a b hab => singleton_inj hab), ← List.map_reverse,
    List.flatMap_map]
  simp

theorem wanted_eq (order : Option (List Char)) (lf : Bool) (c : Char) (os : List Obs) (h : ∀ o ∈ os, IsLetter o.band) :
    bandString order lf (String.singleton c) os = wantedBands order lf c os := by
  unfold bandString wantedBands
  cases order with
  | none => rw [bandsSeen_letters os h]; cases lf <;> simp [removeSub_single]
  | some o => cases lf <;> simp [removeSub_single]

/-- The visits of one band. -/
def ofBand (b : String) (os : List Obs) : List Obs := os.filter (fun o => o.band == b)

theorem ofBand_flatMap (w : List Char) (hw : w.Nodup) (os : List Obs) (c : Char) (hc : c ∈ w) :
    ofBand (String.singleton c) (w.flatMap (fun ch => os.filter (fun o => o.band == String.singleton ch))) =
      ofBand (String.singleton c) os := by
  have other : ∀ l : List Char, c ∉ l → ofBand (String.singleton c)
      (l.flatMap (fun ch => os.filter (fun o => o.band == String.singleton ch))) = [] := by
    intro l hl
    unfold ofBand
    rw [List.filter_eq_nil_iff]
    intro o ho
    rw [List.mem_flatMap] at ho
    obtain ⟨ch, hch, ho⟩ := ho
    have := (List.mem_filter.1 ho).2
    intro he
    rw [beq_iff_eq] at this he
    exact hl (singleton_inj (this.symm.trans he) ▸ hch)
  induction w with
  | nil => simp at hc
  | cons a w ih =>
    rw [List.nodup_cons] at hw
    rw [List.flatMap_cons]
    have app : ∀ x y, ofBand (String.singleton c) (x ++ y) = ofBand (String.singleton c) x ++ ofBand (String.singleton c) y := by
      intro x y; unfold ofBand; rw [List.filter_append]
    rw [app]
    by_cases h : c = a
    · subst h
      rw [other w hw.1]
      unfold ofBand
      rw [List.filter_filter]; simp
    · rw [ih hw.2 (by simpa [h] using hc)]
      have : ofBand (String.singleton c) (os.filter (fun o => o.band == String.singleton a)) = [] := by
        unfold ofBand
        rw [List.filter_filter, List.filter_eq_nil_iff]
        intro o _ ho
        simp only [Bool.and_eq_true, beq_iff_eq] at ho
        exact h (singleton_inj (ho.1.symm.trans ho.2))
      rw [this, List.nil_append]

/-- Where a visit's band is in the wanted order. -/
def place (w : List Char) (o : Obs) : ℕ := (w.map String.singleton).idxOf o.band

theorem perm_of_ofBand {r os : List Obs} (h : ∀ b, ofBand b r = ofBand b os) : r.Perm os := by
  rw [List.perm_iff_count]
  intro o
  have := congrArg (List.count o) (h o.band)
  unfold ofBand at this
  rw [List.count_filter (by simp), List.count_filter (by simp)] at this
  exact this

/-- **C39 (partial), sorting by band.** Provided the order names every band of the visits once: the
result has the visits of each band unchanged and in their order, so it is a permutation, and the
bands follow each other in the wanted order. -/
theorem C39_band_sort_partial (order : Option (List Char)) (lf : Bool) (c : Char) (os : List Obs) (hne : os ≠ [])
    (hl : ∀ o ∈ os, IsLetter o.band) (hnd : ∀ l, order = some l → l.Nodup)
    (hall : ∀ l, order = some l → ∀ o ∈ os, ∃ a ∈ l, o.band = String.singleton a) :
    ∃ r, bandSort order lf (String.singleton c) os = some r ∧ r.Perm os ∧ (∀ b, ofBand b r = ofBand b os) ∧
      r.Pairwise (fun a b => place (wantedBands order lf c os) a ≤ place (wantedBands order lf c os) b) := by
  unfold bandSort
  by_cases h1 : (bandsSeen os).length = 1
  · rw [if_pos h1]
    refine ⟨os, rfl, List.Perm.refl _, fun _ => rfl, ?_⟩
    obtain ⟨b, hb⟩ := List.length_eq_one_iff.1 h1
    have same : ∀ o ∈ os, o.band = b := by
      intro o ho
      have : o.band ∈ bandsSeen os := by unfold bandsSeen; simp; exact ⟨o, ho, rfl⟩
      rw [hb] at this
      simpa using this
    apply List.pairwise_of_forall_mem_list
    intro x hx y hy
    unfold place
    rw [same x hx, same y hy]
  · rw [if_neg h1]
    dsimp only
    rw [wanted_eq order lf c os hl]
    have hw : (wantedBands order lf c os).Nodup := by
      have hbase : ∀ base : List Char, base.Nodup →
          (if lf then c :: base.filter (· ≠ c) else base).Nodup := by
        intro base hb
        cases lf with
        | false => exact hb
        | true =>
          simp only [if_true, List.nodup_cons]
          refine ⟨?_, hb.filter _⟩
          rw [List.mem_filter]; simp
      unfold wantedBands
      cases order with
      | none => exact hbase _ (List.nodup_reverse.2 (List.nodup_dedup _))
      | some l => exact hbase l (hnd l rfl)
    have hmem : ∀ o ∈ os, ∃ a ∈ wantedBands order lf c os, o.band = String.singleton a := by
      intro o ho
      have hbase : ∀ base : List Char, ∀ a ∈ base, a ∈ (if lf then c :: base.filter (· ≠ c) else base) := by
        intro base a ha
        cases lf with
        | false => exact ha
        | true =>
          simp only [if_true, List.mem_cons, List.mem_filter]
          by_cases h : a = c
          · exact .inl h
          · exact .inr ⟨ha, by simpa using h⟩
      unfold wantedBands
      cases order with
      | none =>
        obtain ⟨a, ha⟩ := hl o ho
        refine ⟨a, hbase _ a ?_, ha⟩
        simp only [List.mem_reverse, List.mem_dedup, List.mem_map]
        exact ⟨o, ho, by simp [ha]⟩
      | some l =>
        obtain ⟨a, h1, h2⟩ := hall l rfl o ho
        exact ⟨a, hbase l a h1, h2⟩
    obtain ⟨o0, hrest⟩ := List.exists_mem_of_ne_nil os hne
    have hwne : wantedBands order lf c os ≠ [] := by
      obtain ⟨a, ha, _⟩ := hmem o0 hrest
      intro h; rw [h] at ha; simp at ha
    rw [if_neg hwne]
    generalize wantedBands order lf c os = w at *
    have hband : ∀ b, ofBand b (w.flatMap (fun ch => os.filter (fun o => o.band == String.singleton ch))) = ofBand b os := by
      intro b
      by_cases hb : ∃ a ∈ w, b = String.singleton a
      · obtain ⟨a, ha, rfl⟩ := hb
        exact ofBand_flatMap w hw os a ha
      · have e1 : ofBand b os = [] := by
          unfold ofBand
          rw [List.filter_eq_nil_iff]
          intro o ho he
          obtain ⟨a, ha, h⟩ := hmem o ho
          rw [beq_iff_eq] at he
          exact hb ⟨a, ha, he ▸ h⟩
        rw [e1]
        unfold ofBand
        rw [List.filter_eq_nil_iff]
        intro o ho he
        rw [List.mem_flatMap] at ho
        obtain ⟨ch, hch, ho⟩ := ho
        have := (List.mem_filter.1 ho).2
        rw [beq_iff_eq] at this he
        exact hb ⟨ch, hch, he ▸ this⟩
    refine ⟨_, rfl, perm_of_ofBand hband, hband, ?_⟩
    rw [List.pairwise_flatMap]
    constructor
    · intro a _
      apply List.pairwise_of_forall_mem_list
      intro x hx y hy
      have h1 := (List.mem_filter.1 hx).2
      have h2 := (List.mem_filter.1 hy).2
      rw [beq_iff_eq] at h1 h2
      unfold place; rw [h1, h2]
    · have hp : w.Pairwise (fun a b => (w.map String.singleton).idxOf (String.singleton a) ≤
          (w.map String.singleton).idxOf (String.singleton b)) := by
        rw [List.pairwise_iff_getElem]
        intro i j hi hj hij
        have hn : (w.map String.singleton).Nodup := hw.map (fun a b hab => singleton_inj hab)
        have gi : String.singleton w[i] = (w.map String.singleton)[i]'(by simpa using hi) := by simp
        have gj : String.singleton w[j] = (w.map String.singleton)[j]'(by simpa using hj) := by simp
        rw [gi, gj, hn.idxOf_getElem, hn.idxOf_getElem]
        omega
      apply hp.imp
      intro a b hab x hx y hy
      have h1 := (List.mem_filter.1 hx).2
      have h2 := (List.mem_filter.1 hy).2
      rw [beq_iff_eq] at h1 h2
      unfold place; rw [h1, h2]
      exact hab

/-- For the examples. -/
def ob (id : ℕ) (band : String) : Obs :=
  { id := id, band := band, exptime := 30, note := "n", target := "", program := "p", reason := "", flush := 10 }

example : (bandSort none true "r" [ob 1 "g", ob 2 "r", ob 3 "i", ob 4 "g"]).map (List.map Obs.id) = some [2, 1, 4, 3] := by
  decide +kernel

example : (∀ o ∈ [ob 1 "g", ob 2 "r"], IsLetter o.band) := by
  intro o ho
  simp only [List.mem_cons, List.not_mem_nil, or_false] at ho
  rcases ho with rfl | rfl
  · exact ⟨'g', by decide +kernel⟩
  · exact ⟨'r', by decide +kernel⟩

/-- **C39 fails** when the order leaves out a band: its visits are lost. -/
theorem C39_lost_violated :
    (bandSort (some ['g', 'i']) false "r" [ob 1 "g", ob 2 "r", ob 3 "i"]).map (List.map Obs.id) = some [1, 3] := by
  decide +kernel

/-- **C39 fails** when the order names a band twice: its visits are repeated. -/
theorem C39_doubled_violated :
    (bandSort (some ['g', 'r', 'g']) false "r" [ob 1 "g", ob 2 "r"]).map (List.map Obs.id) = some [1, 2, 1] := by
  decide +kernel

/-! ### C39: rolling -/

/-- **C39, rolling to the current band.** The result is the list started at its first visit in the
current band, or the list itself if there is none. -/
theorem C39_roll (cur : String) (os : List Obs) :
    (∃ a o b, os = a ++ o :: b ∧ o.band = cur ∧ (∀ x ∈ a, x.band ≠ cur) ∧ rollBandMatch cur os = o :: b ++ a) ∨
    ((∀ x ∈ os, x.band ≠ cur) ∧ rollBandMatch cur os = os) := by
  unfold rollBandMatch
  cases h : os.findIdx? (fun o => o.band == cur) with
  | none =>
    right
    rw [List.findIdx?_eq_none_iff] at h
    exact ⟨fun x hx => by simpa using h x hx, rfl⟩
  | some i =>
    left
    rw [List.findIdx?_eq_some_iff_getElem] at h
    obtain ⟨hi, h1, h2⟩ := h
    refine ⟨os.take i, os[i], os.drop (i + 1), ?_, by simpa using h1, ?_, ?_⟩
    · rw [← List.drop_eq_getElem_cons hi, List.take_append_drop]
    · intro x hx
      obtain ⟨j, hj, rfl⟩ := List.mem_iff_getElem.1 hx
      rw [List.length_take] at hj
      rw [List.getElem_take]
      simpa using h2 j (by omega)
    · dsimp only
      rw [List.rotate_eq_drop_append_take (le_of_lt hi), List.drop_eq_getElem_cons hi]

example : (rollBandMatch "r" [ob 1 "g", ob 2 "r", ob 3 "r"]).map Obs.id = [2, 3, 1] := by decide +kernel

theorem argmin_spec (f : ℕ → ℚ) (l : List ℕ) : l ≠ [] → ∃ i ∈ l, argmin f l = some i ∧ ∀ j ∈ l, f i ≤ f j := by
  induction l with
  | nil => intro h; exact absurd rfl h
  | cons a l ih =>
    intro _
    unfold argmin
    by_cases hl : l = []
    · subst hl; exact ⟨a, by simp, rfl, by simp⟩
    · obtain ⟨i, hi, he, hmin⟩ := ih hl
      rw [he]
      dsimp only
      split
      · next h =>
        refine ⟨i, by simp [hi], rfl, ?_⟩
        intro j hj
        rcases List.mem_cons.1 hj with rfl | hj
        · exact h.le
        · exact hmin j hj
      · next h =>
        refine ⟨a, by simp, rfl, ?_⟩
        intro j hj
        rcases List.mem_cons.1 hj with rfl | hj
        · exact le_refl _
        · exact (not_lt.1 h).trans (hmin j hj)

theorem mem_setAt {fl : List Bool} {i : ℕ} : i ∈ setAt fl ↔ fl[i]? = some true := by
  unfold setAt
  rw [List.mem_filter, List.mem_range]
  constructor
  · rintro ⟨h1, h2⟩
    rw [List.getD_eq_getElem?_getD, List.getElem?_eq_getElem h1] at h2
    rw [List.getElem?_eq_getElem h1]
    simpa using h2
  · intro h
    obtain ⟨hi, he⟩ := List.getElem?_eq_some_iff.1 h
    exact ⟨hi, by rw [List.getD_eq_getElem?_getD, h]; rfl⟩

/-- Comparison of an array with one limit, when all entries are clear of it. -/
theorem leA_clear (xs : List ℚ) (g : ℚ) (hg : g ≠ 0) (h : ∀ x ∈ xs, x ≠ 0 ∧ Clear g x) :
    leA Tol.default (xs.map (fun x => (x, g))) = xs.map (fun x => decide (x ≤ g)) := by
  have := (C16_elementwise_partial Tol.default (by unfold Tol.default; norm_num) (xs.map (fun x => (x, g)))
    (by
      intro p hp
      obtain ⟨x, hx, rfl⟩ := List.mem_map.1 hp
      exact ⟨(h x hx).1, hg⟩)
    (by
      intro p hp
      obtain ⟨x, hx, rfl⟩ := List.mem_map.1 hp
      have hc := (h x hx).2
      unfold Clear at hc
      refine lt_of_le_of_lt ?_ hc
      exact mul_le_mul_of_nonneg_left (min_le_right _ _) (by unfold Tol.default; norm_num))).2.2
  rw [this, List.map_map]; rfl

/-- **C39, closest in altitude.** The list is started at another place; the first visit is within the
altitude band if one is, and no visit which is (or none being, no visit at all) is closer to where the
telescope points. -/
theorem C39_close_alt_partial (alt dist : Obs → ℚ) (telAlt altBand : ℚ) (os : List Obs) (hne : os ≠ [])
    (hb : altBand ≠ 0) (hclear : ∀ o ∈ os, |alt o - telAlt| ≠ 0 ∧ Clear altBand |alt o - telAlt|) :
    ∃ a o b, os = a ++ o :: b ∧ closeAlt alt dist telAlt altBand os = some (o :: b ++ a) ∧
      ((∃ x ∈ os, |alt x - telAlt| ≤ altBand) →
        |alt o - telAlt| ≤ altBand ∧ ∀ x ∈ os, |alt x - telAlt| ≤ altBand → dist o ≤ dist x) ∧
      ((∀ x ∈ os, altBand < |alt x - telAlt|) → ∀ x ∈ os, dist o ≤ dist x) := by
  unfold closeAlt
  have e : leA Tol.default (os.map (fun o => (|alt o - telAlt|, altBand))) =
      os.map (fun o => decide (|alt o - telAlt| ≤ altBand)) := by
    have := leA_clear (os.map (fun o => |alt o - telAlt|)) altBand hb (by
      intro x hx
      obtain ⟨o, ho, rfl⟩ := List.mem_map.1 hx
      exact hclear o ho)
    rw [List.map_map, List.map_map] at this
    exact this
  rw [e]
  dsimp only
  have hin : ∀ i, i ∈ setAt (os.map (fun o => decide (|alt o - telAlt| ≤ altBand))) ↔
      ∃ h : i < os.length, |alt os[i] - telAlt| ≤ altBand := by
    intro i
    rw [mem_setAt, List.getElem?_map]
    constructor
    · intro h
      cases hg : os[i]? with
      | none => rw [hg] at h; simp at h
      | some o =>
        obtain ⟨hi, rfl⟩ := List.getElem?_eq_some_iff.1 hg
        rw [hg] at h
        exact ⟨hi, by simpa using h⟩
    · rintro ⟨hi, h⟩
      rw [List.getElem?_eq_getElem hi]; simpa using h
  generalize setAt (os.map (fun o => decide (|alt o - telAlt| ≤ altBand))) = ib at *
  have hcand : (if ib = [] then List.range os.length else ib) ≠ [] := by
    split
    · simp only [ne_eq, List.range_eq_nil, List.length_eq_zero_iff]; exact hne
    · assumption
  obtain ⟨i, hi, he, hmin⟩ := argmin_spec (fun i => (os.map dist).getD i 0) _ hcand
  rw [he]
  have hlen : i < os.length := by
    split at hi
    · simpa using hi
    · exact ((hin i).1 hi).1
  have hd : ∀ j (hj : j < os.length), (os.map dist).getD j 0 = dist os[j] := by
    intro j hj; rw [List.getD_eq_getElem?_getD, List.getElem?_map, List.getElem?_eq_getElem hj]; rfl
  refine ⟨os.take i, os[i], os.drop (i + 1), ?_, ?_, ?_, ?_⟩
  · rw [← List.drop_eq_getElem_cons hlen, List.take_append_drop]
  · dsimp only; rw [List.drop_eq_getElem_cons hlen]
  · rintro ⟨x, hx, hxb⟩
    obtain ⟨j, hj, rfl⟩ := List.mem_iff_getElem.1 hx
    have hne' : ib ≠ [] := by
      intro h; have := (hin j).2 ⟨hj, hxb⟩; rw [h] at this; simp at this
    rw [if_neg hne'] at hi hmin
    refine ⟨((hin i).1 hi).2, ?_⟩
    intro y hy hyb
    obtain ⟨k, hk, rfl⟩ := List.mem_iff_getElem.1 hy
    have := hmin k ((hin k).2 ⟨hk, hyb⟩)
    rwa [hd i hlen, hd k hk] at this
  · intro hno y hy
    obtain ⟨k, hk, rfl⟩ := List.mem_iff_getElem.1 hy
    have hnil : ib = [] := by
      rw [List.eq_nil_iff_forall_not_mem]
      intro j hj
      obtain ⟨hj', hb'⟩ := (hin j).1 hj
      exact absurd hb' (not_le.2 (hno _ (List.getElem_mem hj')))
    rw [if_pos hnil] at hmin
    have := hmin k (by simpa using hk)
    rwa [hd i hlen, hd k hk] at this

example : (closeAlt (fun o => (o.id : ℚ)) (fun o => 100 - (o.id : ℚ)) (1 / 2) 5 [ob 1 "g", ob 9 "r", ob 2 "r"]).map
    (List.map Obs.id) = some [2, 1, 9] := by decide +kernel

/-- **C39 fails** for the closest visit when one is at the limit of the altitude band: visits outside
are taken to be inside. -/
theorem C39_close_alt_violated :
    (closeAlt (fun o => (o.id : ℚ) / 5) (fun o => 100 - (o.id : ℚ)) 0 (1 / 5) [ob 1 "g", ob 2 "r"]).map
    (List.map Obs.id) = some [2, 1] := by decide +kernel

end Verif
