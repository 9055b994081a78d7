import Verif.Props.Features

/-!
Property C34: features that keep the latest visit, or its time, give the same value for a
history loaded in bulk or visit by visit.
-/

namespace Verif

open Feat

/-! ### LastObservation, LastObservationMjd -/

/-- C34, latest visit with a band and a note: bulk and single loading agree, and give the last
visit that matches. -/
theorem C34_last_observation (c : LastObs.Cfg) (h1 h2 : List Vis) :
    LastObs.bulk c (h1.foldl (LastObs.one c) none) h2 = (h1 ++ h2).foldl (LastObs.one c) none ∧
    (h1 ++ h2).foldl (LastObs.one c) none =
      ((h1 ++ h2).filter (fun v => decide (InBand c.band v) && decide (∀ n ∈ c.note, isIn n v.note))).getLast? := by
  have hb : ∀ (h : List Vis) s, LastObs.bulk c s h = h.foldl (LastObs.one c) s := by
    intro h s
    apply bulk_eq_foldl (LastObs.one c) (LastObs.bulk c) (fun _ => True) s rfl (fun _ _ _ => trivial) _ _ trivial
    intro h v _
    unfold LastObs.bulk LastObs.one
    rw [getLast?_filter_snoc]
    by_cases hw : LastObs.wanted c v = true
    · simp [hw]
    · simp [hw]
  refine ⟨by rw [hb, List.foldl_append], ?_⟩
  rw [← hb]
  have hw : ∀ v, LastObs.wanted c v = (decide (InBand c.band v) && decide (∀ n ∈ c.note, isIn n v.note)) := by
    intro v
    unfold LastObs.wanted InBand
    rw [Bool.eq_iff_iff]
    cases c.band <;> cases c.note <;> simp
  unfold LastObs.bulk
  rw [show LastObs.wanted c = fun v => (decide (InBand c.band v) && decide (∀ n ∈ c.note, isIn n v.note)) from funext hw]
  cases ((h1 ++ h2).filter
    (fun v => decide (InBand c.band v) && decide (∀ n ∈ c.note, isIn n v.note))).getLast? <;> rfl

/-- C34, time of the latest visit with a band and a note. -/
theorem C34_last_mjd (c : LastObs.Cfg) (h1 h2 : List Vis) :
    LastObs.bulkMjd c (h1.foldl (LastObs.oneMjd c) none) h2 = (h1 ++ h2).foldl (LastObs.oneMjd c) none ∧
    (h1 ++ h2).foldl (LastObs.oneMjd c) none = ((h1 ++ h2).foldl (LastObs.one c) none).map Vis.mjd := by
  have hb : ∀ (h : List Vis) s, LastObs.bulkMjd c s h = h.foldl (LastObs.oneMjd c) s := by
    intro h s
    apply bulk_eq_foldl (LastObs.oneMjd c) (LastObs.bulkMjd c) (fun _ => True) s rfl (fun _ _ _ => trivial) _ _ trivial
    intro h v _
    unfold LastObs.bulkMjd LastObs.oneMjd
    rw [getLast?_filter_snoc]
    by_cases hw : LastObs.wanted c v = true
    · simp [hw]
    · simp [hw]
  have hm : ∀ (h : List Vis) (s : Option Vis), h.foldl (LastObs.oneMjd c) (s.map Vis.mjd) =
      (h.foldl (LastObs.one c) s).map Vis.mjd := by
    intro h
    induction h with
    | nil => intro s; rfl
    | cons v h ih =>
      intro s
      simp only [List.foldl_cons]
      rw [← ih]
      congr 1
      unfold LastObs.oneMjd LastObs.one
      by_cases hw : LastObs.wanted c v = true <;> simp [hw]
  exact ⟨by rw [hb, List.foldl_append], hm (h1 ++ h2) none⟩

/-! ### LastObserved -/

theorem rows_times (g : Vis → Bool) (p : ℕ) : ∀ h : List Vis, Footprints h →
    (((rows h).filter (fun r => g r.2)).filter (fun r => r.1 == p)).map (fun r => r.2.mjd) =
      (h.filter (fun v => g v && decide (p ∈ v.pix))).map Vis.mjd := by
  intro h
  induction h with
  | nil => intro _; simp [rows]
  | cons v h ih =>
    intro hf
    have e : rows (v :: h) = rows [v] ++ rows h := rows_append [v] h
    have hn : v.pix.Nodup := hf v (by simp)
    rw [e, List.filter_append, List.filter_append, List.map_append, ih (fun u hu => hf u (List.mem_cons_of_mem _ hu)), rows_one]
    by_cases hg : g v = true
    · have h1 : (v.pix.map (fun p => (p, v))).filter (fun r => g r.2) = v.pix.map (fun p => (p, v)) := by
        rw [List.filter_eq_self]
        intro r hr
        obtain ⟨q, _, rfl⟩ := List.mem_map.1 hr
        exact hg
      rw [h1, List.filter_map]
      have h2 : v.pix.filter ((fun r : ℕ × Vis => r.1 == p) ∘ fun p => (p, v)) = if p ∈ v.pix then [p] else [] := by
        have : ((fun r : ℕ × Vis => r.1 == p) ∘ fun p => (p, v)) = fun q => q == p := rfl
        rw [this, List.filter_beq]
        by_cases hp : p ∈ v.pix
        · rw [if_pos hp, List.count_eq_one_of_mem hn hp]; rfl
        · rw [if_neg hp, List.count_eq_zero_of_not_mem hp]; rfl
      rw [h2]
      by_cases hp : p ∈ v.pix <;> simp [hg, hp]
    · have h1 : (v.pix.map (fun p => (p, v))).filter (fun r => g r.2) = [] := by
        rw [List.filter_eq_nil_iff]
        intro r hr
        obtain ⟨q, _, rfl⟩ := List.mem_map.1 hr
        exact hg
      rw [h1]
      simp [hg]

/-- C34, time of the latest visit of each pixel: bulk and single loading agree. Missing: times that are not
positive, band names of several letters (`C34_last_observed_bands_violated`). -/
theorem C34_last_observed_partial (b : Option String) (h1 h2 : List Vis) (hc : Chrono (h1 ++ h2)) (hl : Letters b h2)
    (hf : Footprints h2) (hpos : ∀ v ∈ h2, 0 < v.mjd) (fill : ℕ → Option ℚ) :
    LastObserved.bulk b (h1.foldl (LastObserved.one b) fill) h2 = (h1 ++ h2).foldl (LastObserved.one b) fill := by
  rw [List.foldl_append]
  generalize h1.foldl (LastObserved.one b) fill = s
  apply bulk_eq_foldl (LastObserved.one b) (LastObserved.bulk b)
    (fun h => Chrono h ∧ Letters b h ∧ Footprints h ∧ ∀ v ∈ h, 0 < v.mjd) s
  · funext p; simp [LastObserved.bulk, rows]
  · rintro h v ⟨a1, a2, a3, a4⟩
    exact ⟨(chrono_snoc a1).1, ⟨a2.1, fun u hu => a2.2 u (by simp [hu])⟩, fun u hu => a3 u (by simp [hu]),
      fun u hu => a4 u (by simp [hu])⟩
  · rintro h v ⟨a1, a2, a3, a4⟩
    have hband : LastObserved.bandOne b v = LastObserved.bandBulk b v := by
      unfold LastObserved.bandOne LastObserved.bandBulk
      cases hb : b with
      | none => rfl
      | some x => exact isIn_letters (a2.2 v (by simp)) (a2.1 x (by rw [hb]; rfl))
    funext p
    have e1 := rows_times (LastObserved.bandBulk b) p (h ++ [v]) a3
    have e2 := rows_times (LastObserved.bandBulk b) p h (fun u hu => a3 u (by simp [hu]))
    unfold LastObserved.one
    rw [hband]
    unfold LastObserved.bulk
    rw [e1]
    by_cases hw : (LastObserved.bandBulk b v && decide (p ∈ v.pix)) = true
    · have hmax : ((List.filter (fun v => LastObserved.bandBulk b v && decide (p ∈ v.pix)) (h ++ [v])).map Vis.mjd).max? =
          some v.mjd := by
        rw [List.max?_eq_some_iff]
        constructor
        · exact List.mem_map.2 ⟨v, List.mem_filter.2 ⟨by simp, hw⟩, rfl⟩
        · intro t ht
          obtain ⟨u, hu, rfl⟩ := List.mem_map.1 ht
          rcases List.mem_append.1 (List.mem_of_mem_filter hu) with hu | hu
          · exact ((chrono_snoc a1).2 u hu).1
          · rw [List.mem_singleton.1 hu]
      rw [hmax]
      simp only [Bool.and_eq_true, decide_eq_true_eq] at hw
      rw [if_pos hw.1]
      simp only
      rw [if_pos (a4 v (by simp)), if_pos hw.2]
    · have hsame : List.filter (fun v => LastObserved.bandBulk b v && decide (p ∈ v.pix)) (h ++ [v]) =
          List.filter (fun v => LastObserved.bandBulk b v && decide (p ∈ v.pix)) h := by
        rw [List.filter_append]
        simp only [List.filter_cons, List.filter_nil]
        rw [if_neg hw, List.append_nil]
      rw [hsame]
      by_cases hb : LastObserved.bandBulk b v = true
      · have hp : p ∉ v.pix := fun hp => hw (by simp [hb, hp])
        rw [if_pos hb, if_neg hp, e2]
      · rw [if_neg hb, e2]
  · exact ⟨chrono_pair hc, hl, hf, hpos⟩

/-- C34 fails for the code with a string of several bands. -/
theorem C34_last_observed_bands_violated :
    LastObserved.one (some "gr") (fun _ => none) (vis 1 10 1 "r" "a" [7]) 7 = some 10 ∧
    LastObserved.bulk (some "gr") (fun _ => none) [vis 1 10 1 "r" "a" [7]] 7 = none := by
  decide +kernel

/-! ### LastNObsTimes -/

/-- The times of the visits that count for a pixel. -/
def timesOf (c : LastNObs.Cfg) (p : ℕ) (h : List Vis) : List ℚ :=
  (h.filter (fun v => LastNObs.bandBulk c v && decide (p ∈ v.pix))).map Vis.mjd

theorem lastN_foldl (c : LastNObs.Cfg) (p : ℕ) : ∀ (h : List Vis) (s : ℕ → List ℚ), Letters c.band h → s p ≠ [] →
    h.foldl (LastNObs.one c) s p = (s p ++ timesOf c p h).drop (timesOf c p h).length := by
  intro h
  induction h with
  | nil => intro s _ _; simp [timesOf]
  | cons v h ih =>
    intro s hl hs
    have hl' : Letters c.band h := ⟨hl.1, fun u hu => hl.2 u (by simp [hu])⟩
    have hband : LastNObs.bandOne c v = LastNObs.bandBulk c v := by
      unfold LastNObs.bandOne LastNObs.bandBulk
      cases hb : c.band with
      | none => rfl
      | some x => exact isIn_letters (hl.2 v (by simp)) (hl.1 x (by rw [hb]; rfl))
    rw [List.foldl_cons]
    by_cases hw : (LastNObs.bandBulk c v && decide (p ∈ v.pix)) = true
    · have ht : timesOf c p (v :: h) = v.mjd :: timesOf c p h := by
        simp only [timesOf, List.filter_cons, hw, if_true, List.map_cons]
      have ho : LastNObs.one c s v p = (s p).tail ++ [v.mjd] := by
        simp only [Bool.and_eq_true, decide_eq_true_eq] at hw
        unfold LastNObs.one
        rw [hband, if_pos hw.1, if_pos hw.2]
      rw [ih _ hl' (by rw [ho]; simp), ho, ht]
      obtain ⟨a, l, hal⟩ := List.exists_cons_of_ne_nil hs
      rw [hal]
      simp
    · have ht : timesOf c p (v :: h) = timesOf c p h := by
        simp only [timesOf, List.filter_cons, hw]
        rfl
      have ho : LastNObs.one c s v p = s p := by
        unfold LastNObs.one
        rw [hband]
        by_cases hb : LastNObs.bandBulk c v = true
        · have hp : p ∉ v.pix := fun hp => hw (by simp [hb, hp])
          rw [if_pos hb, if_neg hp]
        · rw [if_neg hb]
      rw [ih _ hl' (by rw [ho]; exact hs), ho, ht]

theorem setFromEnd_foldl (f : ℕ → ℚ) : ∀ (k : ℕ) (col : List ℚ), k ≤ col.length →
    (List.range' 1 k).foldl (fun col i => LastNObs.setFromEnd col i (f i)) col =
      col.take (col.length - k) ++ ((List.range k).map (fun j => f (k - j))) := by
  intro k
  induction k with
  | zero => intro col _; simp
  | succ k ih =>
    intro col hk
    rw [List.range'_1_concat, List.foldl_append, ih col (by omega)]
    simp only [List.foldl_cons, List.foldl_nil, LastNObs.setFromEnd]
    apply List.ext_getElem
    · simp; omega
    · intro j hj1 hj2
      simp only [List.length_append, List.length_take, List.length_map, List.length_range, List.length_set] at hj1 hj2 ⊢
      rw [List.getElem_set]
      have hlen : min (col.length - k) col.length + k - (1 + k) = col.length - (k + 1) := by omega
      by_cases h1 : min (col.length - k) col.length + k - (1 + k) = j
      · rw [if_pos h1, List.getElem_append_right (by simp; omega)]
        simp only [List.getElem_map, List.getElem_range, List.length_take]
        congr 1
        omega
      · rw [if_neg h1]
        by_cases h2 : j < col.length - (k + 1)
        · rw [List.getElem_append_left (by simp; omega), List.getElem_append_left (by simp; omega)]
          simp
        · rw [List.getElem_append_right (by simp; omega), List.getElem_append_right (by simp; omega)]
          simp only [List.getElem_map, List.getElem_range, List.length_take]
          congr 1
          omega

/-- The latest times, padded with zeros, one by one. -/
theorem drop_padded (n : ℕ) (ts : List ℚ) : (List.replicate n 0 ++ ts).drop ts.length =
    (List.range n).map (fun j => LastNObs.largest (n - j) ts) := by
  apply List.ext_getElem
  · simp
  · intro j h1 h2
    have hj : j < n := by simpa using h2
    simp only [List.getElem_drop, List.getElem_map, List.getElem_range, LastNObs.largest]
    by_cases h : ts.length < n - j
    · rw [if_pos h, List.getElem_append_left (by simp; omega)]
      simp
    · rw [if_neg h, List.getElem_append_right (by simp; omega)]
      rw [List.getD_eq_getElem?_getD, List.getElem?_eq_getElem (by omega), Option.getD_some]
      simp only [List.length_replicate]
      congr 1
      omega

/-- C34, the latest times of each pixel: a whole history loaded in bulk gives the same as
visit by visit, namely the `n` latest times, oldest first, after zeros for missing ones. Missing: bulk
loading after earlier visits (`C34_last_n_after_history_violated`), `n = 0`
(`C34_last_n_zero_violated`), band names of several letters. -/
theorem C34_last_n_times_partial (c : LastNObs.Cfg) (hn : 1 ≤ c.n) (h : List Vis) (hl : Letters c.band h)
    (hf : Footprints h) :
    LastNObs.bulk c (LastNObs.init c) h = h.foldl (LastNObs.one c) (LastNObs.init c) ∧
    ∀ p, h.foldl (LastNObs.one c) (LastNObs.init c) p =
      (List.replicate c.n 0 ++ timesOf c p h).drop (timesOf c p h).length := by
  have hi : ∀ p, LastNObs.init c p = List.replicate c.n 0 := by
    intro p; unfold LastNObs.init; rw [max_eq_right hn]
  have hone : ∀ p, h.foldl (LastNObs.one c) (LastNObs.init c) p =
      (List.replicate c.n 0 ++ timesOf c p h).drop (timesOf c p h).length := by
    intro p
    rw [lastN_foldl c p h _ hl (by rw [hi]; simp; omega), hi]
  refine ⟨?_, hone⟩
  funext p
  rw [hone p]
  unfold LastNObs.bulk
  by_cases hd : (rows h).filter (fun r => LastNObs.bandBulk c r.2) = []
  · simp only [hd, if_true]
    have : timesOf c p h = [] := by
      unfold timesOf
      rw [← rows_times (LastNObs.bandBulk c) p h hf, hd]; rfl
    rw [this, hi]; simp
  · simp only [if_neg hd]
    rw [rows_times (LastNObs.bandBulk c) p h hf]
    have := setFromEnd_foldl (fun i => LastNObs.largest i (timesOf c p h)) c.n (LastNObs.init c p) (by rw [hi]; simp)
    unfold timesOf at this
    rw [this, hi]
    simp only [List.length_replicate, Nat.sub_self, List.take_zero, List.nil_append]
    have := drop_padded c.n (timesOf c p h)
    unfold timesOf at this ⊢
    rw [this]

/-- C34 fails for the code when a batch follows earlier visits: those are forgotten, even
for pixels the batch does not cover. -/
theorem C34_last_n_after_history_violated :
    let c : LastNObs.Cfg := ⟨none, 2⟩
    let h1 := [vis 1 10 1 "r" "a" [7], vis 2 11 2 "r" "a" [7]]
    let h2 := [vis 3 12 3 "r" "a" [8]]
    (h1 ++ h2).foldl (LastNObs.one c) (LastNObs.init c) 7 = [10, 11] ∧
    LastNObs.bulk c (h1.foldl (LastNObs.one c) (LastNObs.init c)) h2 7 = [0, 0] := by
  decide +kernel

/-- C34 fails for the code when no times are to be kept: one is. -/
theorem C34_last_n_zero_violated :
    LastNObs.one ⟨none, 0⟩ (LastNObs.init ⟨none, 0⟩) (vis 1 10 1 "r" "a" [7]) 7 = [10] ∧
    LastNObs.bulk ⟨none, 0⟩ (LastNObs.init ⟨none, 0⟩) [vis 1 10 1 "r" "a" [7]] 7 = [0] := by
  decide +kernel

/-! ### LastObservedMatching -/

/-- C34, latest visit with a program, a note and near a position. Missing: visits exactly at the
radius (`C34_matching_radius_violated`). -/
theorem C34_matching_partial (c : Matching.Cfg) (h1 h2 : List Vis)
    (hr : ∀ n ∈ c.near, ∀ v ∈ h2, n.1 v.ra v.dec ≠ n.2) :
    Matching.bulk c (h1.foldl (Matching.one c) none) h2 = (h1 ++ h2).foldl (Matching.one c) none := by
  rw [List.foldl_append]
  generalize h1.foldl (Matching.one c) none = s
  apply bulk_eq_foldl (Matching.one c) (Matching.bulk c) (fun h => ∀ n ∈ c.near, ∀ v ∈ h, n.1 v.ra v.dec ≠ n.2) s rfl
  · intro h v h1 n hn u hu
    exact h1 n hn u (by simp [hu])
  · intro h v h1
    unfold Matching.bulk Matching.one
    simp only [List.filter_filter]
    rw [getLast?_filter_snoc]
    cases hnear : c.near with
    | none =>
      by_cases h2 : Matching.progOk c v = true <;> by_cases h3 : Matching.noteOk c v = true <;> simp [h2, h3]
    | some n =>
      obtain ⟨d, r⟩ := n
      have hne := h1 (d, r) (by rw [hnear]; rfl) v (by simp)
      simp only at hne
      by_cases h4 : d v.ra v.dec ≤ r
      · have h5 : ¬ r ≤ d v.ra v.dec := fun h => hne (le_antisymm h4 h)
        by_cases h2 : Matching.progOk c v = true <;> by_cases h3 : Matching.noteOk c v = true <;> simp [h2, h3, h4, h5]
      · have h5 : r ≤ d v.ra v.dec := le_of_lt (not_le.1 h4)
        by_cases h2 : Matching.progOk c v = true <;> by_cases h3 : Matching.noteOk c v = true <;> simp [h2, h3, h4, h5]
  · exact hr

/-- C34 fails for the code for a visit exactly at the radius. -/
theorem C34_matching_radius_violated :
    let c : Matching.Cfg := ⟨none, none, some (fun _ _ => 1, 1)⟩
    (Matching.one c none (vis 1 10 1 "r" "a" [7])).isSome = false ∧
    (Matching.bulk c none [vis 1 10 1 "r" "a" [7]]).isSome = true := by
  decide +kernel

example : (∀ v ∈ night12, 0 < v.mjd) ∧ night12.foldl (LastNObs.one ⟨some "r", 3⟩) (LastNObs.init ⟨some "r", 3⟩) 7 =
    [0, 10, 11] ∧ night12.foldl (LastObserved.one (some "r")) (fun _ => none) 8 = some 11.1 := by
  decide +kernel

example : (night12.foldl (Matching.one ⟨none, some "b", some (fun _ _ => 1, 2)⟩) none).map Vis.ID = some 4 ∧
    (∀ v ∈ night12, (fun _ _ => (1 : ℚ) : ℚ → ℚ → ℚ) v.ra v.dec ≠ 2) := by
  decide +kernel

end Verif
