import Verif.Props.Detailers

/-!
Properties C40, C41, C73 and C74: detailers which repeat or cut the visits or set when they expire.
-/

namespace Verif

open Det Feat

/-! ### C40: pairs -/

/-- `o` is the visit `x` itself, but for its note, which has the tag at its end. -/
def SameVisit (tag : String) (x o : Obs) : Prop := o = { x with note := o.note } ∧ (x.note.length ≤ 57 → o.note = x.note ++ tag)

/-- `o` is the visit `x` in the second band. -/
def OtherBand (band tag : String) (exptime : Option ℚ) (x o : Obs) : Prop :=
  o = { x with band := band, exptime := o.exptime, note := o.note } ∧ (∀ t, exptime = some t → o.exptime = t) ∧
  (exptime = none → o.exptime = x.exptime) ∧ (x.note.length ≤ 57 → o.note = x.note ++ tag)

theorem cut_short (s : String) (h : s.length ≤ 60) : Script.cut s = s := by
  unfold Script.cut
  rw [List.take_of_length_le (by rwa [String.length_toList]), String.ofList_toList]

/-- **C40.** The result is the visits as they are and the visits in the second band, each complete and
in order; the half in the current band comes first if that is the second band, and otherwise the
visits as they are; whatever is first is tagged "a" and the rest "b". -/
theorem C40_pairs (band : String) (exptime : Option ℚ) (cur : String) (os : List Obs) :
    ∃ first second, takeAsPairs band exptime cur os = first ++ second ∧
      (cur = band → List.Forall₂ (OtherBand band ", a" exptime) os first ∧ List.Forall₂ (SameVisit ", b") os second) ∧
      (cur ≠ band → List.Forall₂ (SameVisit ", a") os first ∧ List.Forall₂ (OtherBand band ", b" exptime) os second) := by
  have hcut : ∀ (x : Obs) (t : String), t.length = 3 → x.note.length ≤ 57 → Script.cut (x.note ++ t) = x.note ++ t := by
    intro x t ht hx
    apply cut_short
    rw [String.length_append]; omega
  have hs : ∀ (t : String), (", " ++ t).length = 3 → List.Forall₂ (SameVisit (", " ++ t)) os
      (os.map (fun o => { o with note := Script.cut (o.note ++ ", " ++ t) })) := by
    intro t ht
    rw [List.forall₂_map_right_iff, List.forall₂_same]
    intro x _
    refine ⟨rfl, fun h => ?_⟩
    dsimp only
    rw [String.append_assoc]
    exact hcut x _ ht h
  have ho : ∀ (t : String), (", " ++ t).length = 3 → List.Forall₂ (OtherBand band (", " ++ t) exptime) os
      (os.map (fun o => { o with exptime := exptime.getD o.exptime, band := band, note := Script.cut (o.note ++ ", " ++ t) })) := by
    intro t ht
    rw [List.forall₂_map_right_iff, List.forall₂_same]
    intro x _
    refine ⟨rfl, ?_, ?_, fun h => ?_⟩
    · intro t h; rw [h]; rfl
    · intro h; rw [h]; rfl
    · dsimp only
      rw [String.append_assoc]
      exact hcut x _ ht h
  unfold takeAsPairs
  by_cases h : cur = band
  · rw [if_pos h, if_pos h]
    exact ⟨_, _, rfl, fun _ => ⟨ho "a" (by decide), hs "b" (by decide)⟩, fun h' => absurd h h'⟩
  · rw [if_neg h, if_neg h]
    exact ⟨_, _, rfl, fun h' => absurd h' h, fun _ => ⟨hs "a" (by decide), ho "b" (by decide)⟩⟩

example : (takeAsPairs "r" (some 15) "r" [ob 1 "g", ob 2 "g"]).map (fun o => (o.id, o.band, o.note)) =
    [(1, "r", "n, a"), (2, "r", "n, a"), (1, "g", "n, b"), (2, "g", "n, b")] := by decide +kernel

/-! ### C41: cutting before twilight -/

/-- The time, in days, for a list of visits from the given band on: exposures, overheads and changes of band. -/
def timeFor (t : Trunc) (cur : String) (os : List Obs) : ℚ :=
  (os.map Obs.exptime).sum / 86400 + t.overhead * os.length +
  t.change * ((List.zip (cur :: os.map Obs.band) (os.map Obs.band)).countP (fun p => decide (p.1 ≠ p.2)) : ℕ)

theorem timeFor_cons (t : Trunc) (cur : String) (o : Obs) (os : List Obs) :
    timeFor t cur (o :: os) = (o.exptime / 3600 / 24 + (if o.band = cur then 0 else t.change) + t.overhead) + timeFor t o.band os := by
  unfold timeFor
  simp only [List.map_cons, List.sum_cons, List.length_cons, List.zip_cons_cons, List.countP_cons]
  by_cases h : o.band = cur
  · simp only [h, if_true]; push_cast; simp; ring
  · have : cur ≠ o.band := fun e => h e.symm
    simp only [h, if_false, this, ne_eq, not_false_eq_true, decide_true, if_true]; push_cast; ring

theorem cumsum_length (a : ℚ) (xs : List ℚ) : (cumsum a xs).length = xs.length := by
  induction xs generalizing a with
  | nil => rfl
  | cons x xs ih => simp [cumsum, ih]

theorem cumsum_get (a : ℚ) (xs : List ℚ) : ∀ i (h : i < xs.length), (cumsum a xs)[i]? = some (a + (xs.take (i + 1)).sum) := by
  induction xs generalizing a with
  | nil => intro i h; simp at h
  | cons x xs ih =>
    intro i h
    cases i with
    | zero => simp [cumsum]
    | succ i =>
      simp only [cumsum, List.getElem?_cons_succ, List.take_succ_cons, List.sum_cons]
      rw [ih (a + x) i (by simpa using h), add_assoc]

theorem visitTimes_length (t : Trunc) (cur : String) (os : List Obs) : (visitTimes t cur os).length = os.length := by
  induction os generalizing cur with
  | nil => rfl
  | cons o os ih => simp [visitTimes, ih]

theorem visitTimes_sum (t : Trunc) (cur : String) (os : List Obs) : ∀ k, ((visitTimes t cur os).take k).sum = timeFor t cur (os.take k) := by
  induction os generalizing cur with
  | nil => intro k; simp [visitTimes, timeFor]
  | cons o os ih =>
    intro k
    cases k with
    | zero => simp [timeFor]
    | succ k =>
      simp only [visitTimes, List.take_succ_cons, List.sum_cons]
      rw [timeFor_cons, ih]

theorem setAt_last {fl : List Bool} : (∀ k : ℕ, (setAt fl).getLast? = some k → fl[k]? = some true ∧ ∀ j : ℕ, fl[j]? = some true → j ≤ k) ∧
    ((setAt fl).getLast? = none → ∀ j : ℕ, fl[j]? ≠ some true) := by
  constructor
  · intro k hk
    refine ⟨mem_setAt.1 (List.mem_of_getLast? hk), ?_⟩
    intro j hj
    have hj' := mem_setAt.2 hj
    have hs : (setAt fl).Pairwise (· < ·) := by
      unfold setAt; exact List.Pairwise.filter _ List.pairwise_lt_range
    obtain ⟨l, hl⟩ := List.getLast?_eq_some_iff.1 hk
    rw [hl] at hs hj'
    rw [List.pairwise_append] at hs
    rcases List.mem_append.1 hj' with h | h
    · exact (hs.2.2 j h k (by simp)).le
    · simp at h; omega
  · intro h j hj
    rw [List.getLast?_eq_none_iff] at h
    have := mem_setAt.2 hj
    rw [h] at this; simp at this

/-- The prefix of `k` visits fits before the time. -/
def FitsBefore (t : Trunc) (cur : String) (now cut : ℚ) (os : List Obs) (k : ℕ) : Prop :=
  now + timeFor t cur (os.take k) ≤ cut - t.pad

theorem cum_at (t : Trunc) (cur : String) (os : List Obs) (i : ℕ) (h : i < os.length) :
    (cumsum 0 (visitTimes t cur os))[i]? = some (timeFor t cur (os.take (i + 1))) := by
  rw [cumsum_get 0 _ i (by rwa [visitTimes_length]), visitTimes_sum, zero_add]

/-- **C41 (partial).** If no running time is within the tolerance of the time available, the longest
prefix that fits is kept. -/
theorem C41_longest_partial (t : Trunc) (cur : String) (now cut : ℚ) (os : List Obs) (hne : os ≠ [])
    (h0 : cut - now - t.pad ≠ 0)
    (hclear : ∀ k, 0 < k → k ≤ os.length → timeFor t cur (os.take k) ≠ 0 ∧ Clear (cut - now - t.pad) (timeFor t cur (os.take k))) :
    ∃ k ≤ os.length, truncatePreTwi t cur now cut os = some (os.take k) ∧ (0 < k → FitsBefore t cur now cut os k) ∧
      ∀ j ≤ os.length, FitsBefore t cur now cut os j → j ≤ k := by
  unfold truncatePreTwi
  rw [if_neg hne]
  dsimp only
  have hlen : (cumsum 0 (visitTimes t cur os)).length = os.length := by rw [cumsum_length, visitTimes_length]
  rw [leA_clear _ _ h0 (by
    intro x hx
    obtain ⟨i, hi, rfl⟩ := List.mem_iff_getElem.1 hx
    have := cum_at t cur os i (by omega)
    rw [List.getElem?_eq_getElem hi, Option.some.injEq] at this
    rw [this]
    exact hclear (i + 1) (by omega) (by omega))]
  have hat : ∀ i, ((cumsum 0 (visitTimes t cur os)).map (fun x => decide (x ≤ cut - now - t.pad)))[i]? = some true ↔
      i < os.length ∧ FitsBefore t cur now cut os (i + 1) := by
    intro i
    unfold FitsBefore
    by_cases hi : i < os.length
    · rw [List.getElem?_map, cum_at t cur os i hi]
      simp only [Option.map_some, Option.some.injEq, decide_eq_true_iff, hi, true_and]
      constructor <;> intro h <;> linarith
    · rw [List.getElem?_eq_none (by rw [List.length_map]; omega)]
      simp [hi]
  obtain ⟨hs, hn⟩ := setAt_last (fl := (cumsum 0 (visitTimes t cur os)).map (fun x => decide (x ≤ cut - now - t.pad)))
  split
  · next h =>
    refine ⟨0, by omega, by simp, by omega, ?_⟩
    intro j hj hfit
    by_contra hc
    obtain ⟨i, rfl⟩ : ∃ i, j = i + 1 := ⟨j - 1, by omega⟩
    exact hn h i ((hat i).2 ⟨by omega, hfit⟩)
  · next k h =>
    obtain ⟨h1, h2⟩ := hs k h
    obtain ⟨h3, h4⟩ := (hat k).1 h1
    refine ⟨k + 1, by omega, rfl, fun _ => h4, ?_⟩
    intro j hj hfit
    cases j with
    | zero => omega
    | succ i => have := h2 i ((hat i).2 ⟨by omega, hfit⟩); omega

/-- **C41 (partial).** In any case, a prefix that fits is kept. -/
theorem C41_kept_partial (t : Trunc) (cur : String) (now cut : ℚ) (os : List Obs) (hne : os ≠ []) (j : ℕ) (hj : j ≤ os.length)
    (hfit : FitsBefore t cur now cut os j) :
    ∃ k, j ≤ k ∧ truncatePreTwi t cur now cut os = some (os.take k) := by
  unfold truncatePreTwi
  rw [if_neg hne]
  dsimp only
  obtain ⟨hs, hn⟩ := setAt_last (fl := leA Tol.default ((cumsum 0 (visitTimes t cur os)).map (fun x => (x, cut - now - t.pad))))
  have hat : ∀ i, i < os.length → FitsBefore t cur now cut os (i + 1) →
      (leA Tol.default ((cumsum 0 (visitTimes t cur os)).map (fun x => (x, cut - now - t.pad))))[i]? = some true := by
    intro i hi hf
    have hlen : (cumsum 0 (visitTimes t cur os)).length = os.length := by rw [cumsum_length, visitTimes_length]
    apply C16_le_complete Tol.default _ i (by rw [List.length_map]; omega)
    have := cum_at t cur os i hi
    rw [List.getElem?_eq_getElem (by omega), Option.some.injEq] at this
    rw [List.getElem_map]
    dsimp only
    rw [this]
    unfold FitsBefore at hf
    linarith
  split
  · next h =>
    cases j with
    | zero => exact ⟨0, le_refl _, by simp⟩
    | succ i => exact absurd (hat i (by omega) hfit) (hn h i)
  · next k h =>
    refine ⟨k + 1, ?_, rfl⟩
    cases j with
    | zero => omega
    | succ i => have := (hs k h).2 i (hat i (by omega) hfit); omega

/-- Settings for the examples. -/
def tr : Trunc := ⟨1 / 100, 1 / 100, 0⟩

example : (truncatePreTwi tr "g" 0 (1 / 10) [{ ob 1 "g" with exptime := 4320 }, { ob 2 "r" with exptime := 1728 },
    { ob 3 "r" with exptime := 1728 }]).map (List.map Obs.id) = some [1, 2] := by decide +kernel

/-- **C41 fails** when the running time equals the time available: all running times are then rounded to
whole days and visits that do not fit are kept. -/
theorem C41_violated :
    let os := [{ ob 1 "g" with exptime := 8640 }, { ob 2 "g" with exptime := 8640 }, { ob 3 "g" with exptime := 8640 }]
    (truncatePreTwi tr "g" 0 (11 / 100) os).map (List.map Obs.id) = some [1, 2, 3] ∧
    ¬ FitsBefore tr "g" 0 (11 / 100) os 2 := by
  refine ⟨by decide +kernel, ?_⟩
  unfold FitsBefore
  decide +kernel

/-! ### C73: repeats in twilight -/

/-- **C73 (partial).** The result is a number of complete repeats of a prefix of the visits. -/
theorem C73_repeats_partial (slew : ℚ) (n : ℕ) (upd : Bool) (now a b : ℚ) (os r : List Obs)
    (h : twilightTriple slew n upd now a b os = some r) :
    ∃ k, r.map Obs.id = (List.replicate n ((os.take k).map Obs.id)).flatten ∧
      r.map Obs.band = (List.replicate n ((os.take k).map Obs.band)).flatten ∧ (upd = false → r = (List.replicate n (os.take k)).flatten) := by
  unfold twilightTriple at h
  split at h
  · cases h
  · next left _ =>
    split at h
    · cases h
    · cases h
      have hk : ∃ k, tripleCut slew left n os = os.take k := by
        unfold tripleCut
        dsimp only
        split
        · split
          · exact ⟨3, rfl⟩
          · exact ⟨1, rfl⟩
          · next k _ _ => exact ⟨k, rfl⟩
        · exact ⟨os.length, by simp⟩
      obtain ⟨k, hk⟩ := hk
      refine ⟨k, ?_⟩
      rw [hk]
      have key : ∀ {γ : Type} (f : Obs → γ) (g : ℕ → Obs → Obs), (∀ i o, f (g i o) = f o) →
          ((List.range n).flatMap (fun i => (os.take k).map (g i))).map f = (List.replicate n ((os.take k).map f)).flatten := by
        intro γ f g hg
        rw [List.map_flatMap]
        have : (fun i => List.map f (List.map (g i) (os.take k))) = (fun _ => (os.take k).map f) := by
          funext i; rw [List.map_map]; apply List.map_congr_left; intro o _; exact hg i o
        rw [this, List.flatMap_def, List.map_const', List.length_range]
      refine ⟨key Obs.id _ (fun _ _ => rfl), key Obs.band _ (fun _ _ => rfl), ?_⟩
      rintro rfl
      have := key (fun o => o) (fun i o => ({ o with
        note := if false = true then Script.cut (o.note ++ ", " ++ toString i) else o.note } : Obs)) (fun _ _ => rfl)
      simpa using this

/-- **C73 fails**: more visits are kept than fit. With two minutes left, three repeats of eleven
half-minute visits are planned. -/
theorem C73_violated :
    let os := (List.range 12).map (fun i => ob i "r")
    (twilightTriple 0 3 false 0 (120 / 86400) (-1) os).map (fun r => ((r.map Obs.exptime).sum, r.length)) = some (990, 33) := by
  decide +kernel

/-! ### C74: expiry -/

/-- **C74.** Visits expire the configured number of minutes from now. -/
theorem C74_flush_by (minutes now : ℚ) (os : List Obs) :
    (flushBy minutes now os).map Obs.id = os.map Obs.id ∧ ∀ o ∈ flushBy minutes now os, o.flush = now + minutes / 1440 := by
  unfold flushBy
  constructor
  · rw [List.map_map]; rfl
  · intro o ho
    obtain ⟨x, _, rfl⟩ := List.mem_map.1 ho
    dsimp only
    rw [div_div]; norm_num

/-- **C74 fails** for the detailer that is to make visits expire before the next scheduled one: it
changes nothing, whatever the visits and scheduled times. -/
theorem C74_violated (tol : ℚ) (scheduled : List ℚ) (os : List Obs) : flushForSched tol scheduled os = os := by
  unfold flushForSched; split <;> rfl

/-- A visit that should expire earlier. -/
theorem C74_witness : (flushForSched (1 / 100) [1] [ob 1 "r"]).map Obs.flush = [10] := by decide +kernel

end Verif
