import Verif.Model.Details
import Verif.Spec.Features
import Verif.Lemmas.Features
import Mathlib.Analysis.SpecialFunctions.Log.Base
import Mathlib.Tactic.Linarith
import Mathlib.Tactic.NormNum

/-!
# Start sequences, columns set by detailers, depth aimed at (C153-C155)
-/

namespace Verif

open Dtl Feat

/-! ### C153 -/

/-- A completed visit that counts as one of the sequence. -/
def OfSequence (c : Start) (v : Vis) : Prop := (∀ p ∈ c.program, v.program = p) ∧ (∀ n ∈ c.note, v.note = n) ∧ c.dist v.ra v.dec ≤ c.angle

theorem matching_one_eq (c : Start) (s : Option Vis) (v : Vis) [Decidable (OfSequence c v)] (ha : c.angle = 7 / 2) (hb : c.dist v.ra v.dec ≠ 7 / 2) :
    Matching.one c.cfg s v = if OfSequence c v then some v else s := by
  have hp : Matching.progOk c.cfg v = true ↔ ∀ p ∈ c.program, v.program = p := by
    unfold Matching.progOk Start.cfg
    cases hc : c.program with
    | none => simp
    | some p => simp
  have hn : Matching.noteOk c.cfg v = true ↔ ∀ p ∈ c.note, v.note = p := by
    unfold Matching.noteOk Start.cfg
    cases hc : c.note with
    | none => simp
    | some p => simp
  have hnear : c.cfg.near = some (c.dist, 7 / 2) := rfl
  unfold Matching.one
  rw [hnear]
  dsimp only
  by_cases h1 : Matching.progOk c.cfg v = true
  · by_cases h2 : Matching.noteOk c.cfg v = true
    · by_cases h3 : c.dist v.ra v.dec ≤ c.angle
      · have h4 : ¬ (7 / 2 ≤ c.dist v.ra v.dec) := by
          intro h
          rw [ha] at h3
          exact hb (le_antisymm h3 h)
        rw [if_pos (show OfSequence c v from ⟨hp.1 h1, hn.1 h2, h3⟩)]
        simp [h1, h2, h4]
      · have h4 : 7 / 2 ≤ c.dist v.ra v.dec := by
          rw [ha] at h3
          exact (not_le.1 h3).le
        rw [if_neg (fun h : OfSequence c v => h3 h.2.2)]
        simp [h1, h2, h4]
    · rw [if_neg (fun h : OfSequence c v => h2 (hn.2 h.2.1))]
      simp [h1, h2]
  · rw [if_neg (fun h : OfSequence c v => h1 (hp.2 h.1))]
    simp [h1]

/-- C153. The sequence is put in front of the visits exactly when none of its visits was completed within the time given. Missing here: radii other than the one built in, and visits exactly at it. -/
theorem C153_start_partial (c : Start) (ha : c.angle = 7 / 2) (h : List Vis) (hc : Chrono h) (hb : ∀ v ∈ h, c.dist v.ra v.dec ≠ 7 / 2) (now : ℚ) (hnow : c.hours / 24 ≤ now) (os : List O) :
    ((∃ v ∈ h, OfSequence c v ∧ now - v.mjd < c.hours / 24) → c.call (h.foldl (Matching.one c.cfg) none) now os = os) ∧
      ((¬ ∃ v ∈ h, OfSequence c v ∧ now - v.mjd < c.hours / 24) → c.call (h.foldl (Matching.one c.cfg) none) now os = c.visits ++ os) := by
  classical
  have key : (h.foldl (Matching.one c.cfg) none = none ∧ ∀ v ∈ h, ¬ OfSequence c v) ∨
      ∃ w ∈ h, h.foldl (Matching.one c.cfg) none = some w ∧ OfSequence c w ∧ ∀ v ∈ h, OfSequence c v → v.mjd ≤ w.mjd := by
    induction h using List.reverseRecOn with
    | nil => exact .inl ⟨rfl, fun v hv => by cases hv⟩
    | append_singleton h v ih =>
      have hc' := List.pairwise_append.1 hc
      rw [List.foldl_append]
      show (Matching.one c.cfg (h.foldl (Matching.one c.cfg) none) v = none ∧ _) ∨ ∃ w ∈ h ++ [v], Matching.one c.cfg (h.foldl (Matching.one c.cfg) none) v = some w ∧ _
      rw [matching_one_eq c _ v ha (hb v (by simp))]
      split_ifs with hv
      · right
        refine ⟨v, by simp, rfl, hv, ?_⟩
        intro u hu _
        rcases List.mem_append.1 hu with hu | hu
        · exact (hc'.2.2 u hu v (by simp)).1
        · rw [List.mem_singleton.1 hu]
      · rcases ih hc'.1 (fun u hu => hb u (by simp [hu])) with ⟨h1, h2⟩ | ⟨w, hw, h1, h2, h3⟩
        · left
          refine ⟨h1, ?_⟩
          intro u hu
          rcases List.mem_append.1 hu with hu | hu
          · exact h2 u hu
          · rw [List.mem_singleton.1 hu]
            exact hv
        · right
          refine ⟨w, by simp [hw], h1, h2, ?_⟩
          intro u hu hs
          rcases List.mem_append.1 hu with hu | hu
          · exact h3 u hu hs
          · rw [List.mem_singleton.1 hu] at hs
            exact absurd hs hv
  unfold Start.call
  rcases key with ⟨h1, h2⟩ | ⟨w, hw, h1, h2, h3⟩
  · rw [h1]
    dsimp only
    rw [sub_zero, if_pos hnow]
    refine ⟨?_, fun _ => rfl⟩
    rintro ⟨v, hv, hs, _⟩
    exact absurd hs (h2 v hv)
  · rw [h1]
    dsimp only
    constructor
    · rintro ⟨v, hv, hs, ht⟩
      have := h3 v hv hs
      exact if_neg (by linarith)
    · intro hno
      apply if_pos
      by_contra hlt
      exact hno ⟨w, hw, h2, by linarith⟩

/-- C153. The visits of the sequence that are put in front count as visits of the sequence, when a program and a note are given, so that they are not asked for again once completed. -/
theorem C153_counted (c : Start) (p n : String) (hp : c.program = some p) (hn : c.note = some n) (hpl : p.toList.length ≤ 60) (hnl : n.toList.length ≤ 60) (o : O) (ho : o ∈ c.visits) :
    o.program = p ∧ o.note = n := by
  unfold Start.visits at ho
  obtain ⟨x, _, rfl⟩ := List.mem_map.1 ho
  have hcut : ∀ s : String, s.toList.length ≤ 60 → Script.cut s = s := by
    intro s hs
    unfold Script.cut
    rw [List.take_of_length_le hs]
    simp
  rw [hp, hn]
  exact ⟨hcut p hpl, hcut n hnl⟩

def demoO : O := ⟨7, "r", "r", 1, 30, "", "", "BLOCK-1", 0, 0⟩
def demoV : Vis := ⟨1, 100, 1, "r", "starting_sequence", "", none, 20, 5, 0, []⟩

/-- C153 does not hold for another radius: with ten degrees asked for, a visit five degrees away an hour ago is not seen and the sequence is asked for again. Without a program the visits of
the sequence lose the one they had. -/
theorem C153_radius_violated :
    let c : Start := ⟨[demoO], 10, 5, none, some "starting_sequence", fun ra _ => ra⟩
    OfSequence c demoV ∧ c.call ([demoV].foldl (Matching.one c.cfg) none) (100 + 1 / 24) [] = c.visits ∧ c.visits.map O.program = ["None"] := by
  refine ⟨⟨?_, ?_, ?_⟩, ?_, ?_⟩
  · intro p hp
    cases hp
  · intro n hn
    cases hn
    rfl
  · show (5 : ℚ) ≤ 10
    norm_num
  · decide +kernel
  · decide +kernel

example : let c : Start := ⟨[demoO], 7 / 2, 5, none, some "starting_sequence", fun ra _ => ra - 4⟩
    c.angle = 7 / 2 ∧ Chrono [demoV] ∧ c.dist demoV.ra demoV.dec ≠ 7 / 2 ∧ c.hours / 24 ≤ 101 ∧
      c.call ([demoV].foldl (Matching.one c.cfg) none) (100 + 1 / 24) [] = [] ∧ c.call ([demoV].foldl (Matching.one c.cfg) none) 101 [] = c.visits := by
  refine ⟨rfl, List.pairwise_singleton _ _, by decide +kernel, by decide +kernel, by decide +kernel, by decide +kernel⟩

/-! ### C154 -/

theorem map_at (os : List O) (i : ℕ) (o : O) (ho : os[i]? = some o) (f : O → O) : (os.map f)[i]? = some (f o) := by
  rw [List.getElem?_map, ho]
  rfl

/-- All columns but one agree. -/
def SameBut (f : O → O) (a b : O) : Prop := f a = f b

/-- C154. The filter of each visit is the one of its band in the table, or the band itself; with the usual table it is the band. Nothing else changes. -/
theorem C154_filter (t : Option (List (String × String))) (os : List O) (i : ℕ) (o : O) (ho : os[i]? = some o) (hb : o.band.toList.length ≤ 10) :
    (bandToFilter t os).length = os.length ∧ ∃ o', (bandToFilter t os)[i]? = some o' ∧ SameBut (fun x => { x with filter := "" }) o' o ∧
      (t = none → o'.filter = o.band) ∧ (∀ table, t = some table → (∀ x ∈ table, x.1 ≠ o.band) → o'.filter = o.band) ∧
      (∀ table, t = some table → (table.map Prod.fst).Nodup → ∀ f, (o.band, f) ∈ table → f.toList.length ≤ 10 → o'.filter = f) := by
  have hcut : ∀ s : String, s.toList.length ≤ 10 → String.ofList (s.toList.take 10) = s := by
    intro s hs
    rw [List.take_of_length_le hs]
    simp
  unfold bandToFilter
  refine ⟨List.length_map _, _, map_at os i o ho _, rfl, ?_, ?_, ?_⟩
  · rintro rfl
    have : (lookup (bandTable none) o.band).getD o.band = o.band := by
      unfold lookup bandTable
      cases hf : (["u", "g", "r", "i", "z", "y"].map fun b => (b, b)).find? (fun x => x.1 == o.band) with
      | none => rfl
      | some x =>
        have h1 := List.find?_some hf
        have h2 := List.mem_of_find?_eq_some hf
        obtain ⟨b, _, rfl⟩ := List.mem_map.1 h2
        simpa using h1
    show String.ofList (((lookup (bandTable none) o.band).getD o.band).toList.take 10) = o.band
    rw [this]
    exact hcut _ hb
  · rintro table rfl hne
    have : lookup (bandTable (some table)) o.band = none := by
      unfold lookup bandTable
      rw [Option.map_eq_none_iff, List.find?_eq_none]
      intro x hx
      simpa using hne x hx
    show String.ofList (((lookup (bandTable (some table)) o.band).getD o.band).toList.take 10) = o.band
    rw [this]
    exact hcut _ hb
  · rintro table rfl hnd f hf hl
    have : lookup (bandTable (some table)) o.band = some f := by
      unfold lookup bandTable
      dsimp only
      cases hx : table.find? (fun x => x.1 == o.band) with
      | none =>
        have := List.find?_eq_none.1 hx _ hf
        simp at this
      | some x =>
        have h1 : x.1 = o.band := by simpa using List.find?_some hx
        have h2 := List.mem_of_find?_eq_some hx
        have : x = (o.band, f) := List.inj_on_of_nodup_map hnd h2 hf h1
        rw [this]
        rfl
    show String.ofList (((lookup (bandTable (some table)) o.band).getD o.band).toList.take 10) = f
    rw [this]
    exact hcut _ hl

/-- C154. Numbers of exposures are set for exactly the visits of the band. -/
theorem C154_nexp (band : String) (n : ℕ) (e : Option ℚ) (os : List O) (i : ℕ) (o : O) (ho : os[i]? = some o) :
    ∃ o', (bandNexp band n e os)[i]? = some o' ∧ (o.band ≠ band → o' = o) ∧
      (o.band = band → o'.nexp = n ∧ (e = none → o'.exptime = o.exptime) ∧ (∀ x, e = some x → o'.exptime = x) ∧ SameBut (fun x => { x with nexp := 0, exptime := 0 }) o' o) := by
  unfold bandNexp
  refine ⟨_, map_at os i o ho _, ?_, ?_⟩
  · intro h
    exact if_neg h
  · intro h
    rw [if_pos h]
    refine ⟨rfl, ?_, ?_, rfl⟩
    · rintro rfl
      rfl
    · rintro x rfl
      rfl

/-- C154. Exactly the visits within the radius are marked, by their target name and at the end of their note. Missing here: notes that do not leave room for the mark. -/
theorem C154_tag_partial (dist : ℚ → ℚ → ℚ) (r : ℚ) (target mark : String) (os : List O) (i : ℕ) (o : O) (ho : os[i]? = some o) (ht : target.toList.length ≤ 60)
    (hm : o.note.toList.length + mark.toList.length ≤ 60) :
    ∃ o', (tagRadial dist r target mark os)[i]? = some o' ∧ (r < dist o.ra o.dec → o' = o) ∧
      (dist o.ra o.dec ≤ r → o'.target = target ∧ o'.note = o.note ++ mark ∧ SameBut (fun x => { x with note := "", target := "" }) o' o) := by
  have hcut : ∀ s : String, s.toList.length ≤ 60 → Script.cut s = s := by
    intro s hs
    unfold Script.cut
    rw [List.take_of_length_le hs]
    simp
  unfold tagRadial
  refine ⟨_, map_at os i o ho _, ?_, ?_⟩
  · intro h
    exact if_neg (not_le.2 h)
  · intro h
    rw [if_pos h]
    refine ⟨hcut _ ht, hcut _ ?_, rfl⟩
    rw [String.toList_append, List.length_append]
    exact hm

/-- C154 does not hold for long notes: the mark is cut off. -/
theorem C154_tag_violated :
    (tagRadial (fun _ _ => 1) 2 "deep" ", deep area" [{ demoO with note := "a note of a visit that is as long as the column for the note" }]).map O.note =
      ["a note of a visit that is as long as the column for the note"] := by decide +kernel

/-- C154. For an alert the band is changed for exactly the visits in the first band, when the distance is known and below the limit, the moon is not bright if that is asked for, and the
new band is mounted if that is asked for; otherwise nothing changes. -/
theorem C154_alert (first last : String) (limit : ℚ) (check dark : Bool) (moon : ℚ) (mounted : List String) (alert : Option Alert) (os : List O) :
    ((∃ a d, alert = some a ∧ a.distance = some d ∧ d < limit ∧ (dark = true → moon ≤ 50) ∧ (check = true → last ∈ mounted)) →
      bandPick first last limit check dark moon mounted alert os = os.map fun o => if o.band = first then { o with band := last } else o) ∧
    ((¬ ∃ a d, alert = some a ∧ a.distance = some d ∧ d < limit ∧ (dark = true → moon ≤ 50) ∧ (check = true → last ∈ mounted)) →
      bandPick first last limit check dark moon mounted alert os = os) := by
  unfold bandPick
  cases alert with
  | none =>
    refine ⟨?_, fun _ => rfl⟩
    rintro ⟨a, d, h, _⟩
    cases h
  | some a =>
    cases hd : a.distance with
    | none =>
      simp only [Option.bind_some, hd]
      refine ⟨?_, fun _ => trivial⟩
      rintro ⟨a', d, h, h', _⟩
      cases h
      rw [hd] at h'
      cases h'
    | some d =>
      simp only [Option.bind_some, hd]
      constructor
      · rintro ⟨a', d', h, h', h1, h2, h3⟩
        cases h
        rw [hd] at h'
        cases h'
        rw [if_neg, if_pos h1, if_pos]
        · cases hc : check with
          | false => rfl
          | true => simp [h3 hc]
        · intro h
          rw [Bool.and_eq_true, decide_eq_true_eq] at h
          have := h2 h.1
          linarith
      · intro hno
        split_ifs with h1 h2 h3
        · rfl
        · exfalso
          apply hno
          refine ⟨a, d, rfl, hd, h2, ?_, ?_⟩
          · intro hdark
            by_contra hm
            apply h1
            rw [hdark]
            simpa using hm
          · intro hc
            rw [hc] at h3
            simpa using h3
        · rfl
        · rfl

example : (demoO.band.toList.length ≤ 10) ∧ (bandToFilter (some [("r", "r_03")]) [demoO, { demoO with band := "g" }]).map O.filter = ["r_03", "g"] ∧
    (tagRadial (fun ra _ => ra) 2 "deep" ", deep area" [{ demoO with note := "survey" }, { demoO with ra := 3 }]).map O.note = ["survey, deep area", ""] ∧
    (bandNexp "r" 2 (some 29) [demoO, { demoO with band := "g" }]).map O.nexp = [2, 1] := by
  refine ⟨by decide, by decide +kernel, by decide +kernel, by decide +kernel⟩

example : bandPick "i" "z" 10 true true 30 ["r", "z"] (some ⟨some 5⟩) [demoO, { demoO with band := "i" }] = [demoO, { demoO with band := "z" }] := by decide +kernel

/-! ### C155 -/

/-- C155. An exposure of the time aimed at reaches the target depth: depth grows by 1.25 magnitudes for ten times the time. A shallower sky asks for a longer time. -/
theorem C155_depth (target base d d' : ℝ) (hb : 0 < base) :
    d + 1.25 * Real.logb 10 (wanted target base d / base) = target ∧ (d' < d → wanted target base d < wanted target base d') ∧ wanted target base target = base := by
  unfold wanted
  refine ⟨?_, ?_, ?_⟩
  · rw [mul_div_cancel_left₀ _ hb.ne', Real.logb_rpow (by norm_num) (by norm_num)]
    ring
  · intro h
    apply mul_lt_mul_of_pos_left _ hb
    apply Real.rpow_lt_rpow_of_exponent_lt (by norm_num)
    apply div_lt_div_of_pos_right _ (by norm_num)
    linarith
  · rw [sub_self, zero_div, Real.rpow_zero, mul_one]

/-- C155. The depth used is that of the pixel of the visit, or where that is masked the mean of its neighbours that are not. Missing here: pixels with fewer than eight neighbours. -/
theorem C155_masked_partial (depth : List (Option ℝ)) (p : ℕ) (around : List ℕ) :
    (∀ d, depth[p]? = some (some d) → depthAt depth p (around.map some) = some d) ∧
      (depth[p]? = some none → ∀ vals, vals = around.filterMap (fun q => (depth[q]?).join) → vals ≠ [] → depthAt depth p (around.map some) = some (vals.sum / vals.length)) := by
  unfold depthAt
  constructor
  · intro d h
    rw [h]
    rfl
  · intro h vals hv hne
    rw [h]
    dsimp only [Option.join_some]
    rw [List.filterMap_map]
    have : around.filterMap (valueAt depth ∘ some) = vals := by
      rw [hv]
      rfl
    rw [this, if_neg hne]

/-- C155 does not hold where a pixel has seven neighbours: the last pixel of the map is taken for the missing one. -/
theorem C155_corner_violated : depthAt [none, some 24, some 20] 0 [some 1, none] = some 22 ∧ depthAt [none, some 24, some 20] 0 [some 1] = some 24 := by
  have h : [some 1, none].filterMap (valueAt [none, some (24 : ℝ), some 20]) = [24, 20] := rfl
  have h' : [some 1].filterMap (valueAt [none, some (24 : ℝ), some 20]) = [24] := rfl
  unfold depthAt
  constructor
  · show (if _ then none else _) = _
    rw [h, if_neg (by simp)]
    norm_num
  · show (if _ then none else _) = _
    rw [h', if_neg (by simp)]
    norm_num

end Verif
