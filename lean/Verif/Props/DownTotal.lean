import Verif.Model.DownTotal
import Verif.Props.Downtime
import Mathlib.MeasureTheory.Measure.Lebesgue.Basic

/-!
C250: the total of the downtimes is how long the site is closed.
-/

namespace Verif

open Down MeasureTheory

/-- The moments in a downtime. -/
def downSet (l : List (ℚ × ℚ)) : Set ℝ := {t | ∃ d ∈ l, (d.1 : ℝ) ≤ t ∧ t < d.2}

theorem total_cons (d : ℚ × ℚ) (l : List (ℚ × ℚ)) : total (d :: l) = d.2 - d.1 + total l := by
  have key : ∀ (l : List (ℚ × ℚ)) (s : ℚ), l.foldl (fun s d => s + (d.2 - d.1)) s = s + total l := by
    intro l
    induction l with
    | nil => intro s; simp [total]
    | cons d l ih =>
      intro s
      unfold total
      rw [List.foldl_cons, List.foldl_cons, ih, ih]
      ring
  show l.foldl _ (0 + (d.2 - d.1)) = _
  rw [key]
  ring

theorem downSet_cons (d : ℚ × ℚ) (l : List (ℚ × ℚ)) : downSet (d :: l) = Set.Ico (d.1 : ℝ) d.2 ∪ downSet l := by
  ext t
  simp [downSet]

theorem downSet_measurable (l : List (ℚ × ℚ)) : MeasurableSet (downSet l) := by
  induction l with
  | nil => simp [downSet]
  | cons d l ih => rw [downSet_cons]; exact measurableSet_Ico.union ih

theorem total_nonneg {l : List (ℚ × ℚ)} (h : Forward l) : 0 ≤ total l := by
  induction l with
  | nil => exact le_rfl
  | cons d l ih =>
    rw [total_cons]
    have := h d List.mem_cons_self
    have := ih fun e he => h e (List.mem_cons_of_mem _ he)
    linarith

theorem ofReal_split {a b : ℚ} (ha : 0 ≤ a) (hb : 0 ≤ b) : ENNReal.ofReal ((a + b : ℚ) : ℝ) = ENNReal.ofReal a + ENNReal.ofReal b := by
  rw [← ENNReal.ofReal_add (by exact_mod_cast ha) (by exact_mod_cast hb)]
  push_cast
  rfl

theorem volume_one (d : ℚ × ℚ) : volume (Set.Ico (d.1 : ℝ) d.2) = ENNReal.ofReal ((d.2 - d.1 : ℚ) : ℝ) := by
  rw [Real.volume_Ico]
  push_cast
  rfl

/-- C250: the total of downtimes that are in order and do not overlap is the length of the time in which the site is closed. -/
theorem C250_total (l : List (ℚ × ℚ)) (hf : Forward l) (ho : Ordered l) : volume (downSet l) = ENNReal.ofReal (total l) := by
  induction l with
  | nil => simp [downSet, total]
  | cons d l ih =>
    have hf' : Forward l := fun e he => hf e (List.mem_cons_of_mem _ he)
    obtain ⟨h1, h2⟩ := List.pairwise_cons.1 ho
    have hd : d.1 ≤ d.2 := hf d List.mem_cons_self
    rw [downSet_cons, total_cons, measure_union _ (downSet_measurable l), ih hf' h2, volume_one, ofReal_split (by linarith) (total_nonneg hf')]
    rw [Set.disjoint_left]
    rintro t ⟨-, ht⟩ ⟨e, he, het, -⟩
    have : (d.2 : ℝ) ≤ e.1 := by exact_mod_cast (h1 e he).2
    linarith

/-- C250, any downtimes: the site is closed for at most the total. -/
theorem C250_at_most (l : List (ℚ × ℚ)) (hf : Forward l) : volume (downSet l) ≤ ENNReal.ofReal (total l) := by
  induction l with
  | nil => simp [downSet]
  | cons d l ih =>
    have hf' : Forward l := fun e he => hf e (List.mem_cons_of_mem _ he)
    have hd : d.1 ≤ d.2 := hf d List.mem_cons_self
    rw [downSet_cons, total_cons, ofReal_split (by linarith) (total_nonneg hf'), ← volume_one]
    exact (measure_union_le _ _).trans (add_le_add le_rfl (ih hf'))

theorem makeData_lengths (cl : Classes) (night0 : ℚ) (m : ℕ) (hm : ∀ e ∈ [cl.catastrophic, cl.major, cl.intermediate, cl.minor], e.len ≤ m) (n night : ℕ) (r : Rng) :
    ∀ d ∈ makeData cl night0 n night r, ∃ k < n, d.1 = night0 + k ∧ ∃ j ≤ m, d.2 = d.1 + j := by
  induction night, r using makeData.induct cl night0 n with
  | case1 night r hlt t ih =>
    rw [makeData, dif_pos hlt]
    dsimp only
    intro d hd
    rcases List.mem_append.1 hd with hd | hd
    · refine ⟨night, hlt, ?_⟩
      have hd : (turn cl night0 night r).1 = some d := Option.mem_toList.1 hd
      unfold turn at hd
      dsimp only at hd
      split_ifs at hd <;> cases hd
      · exact ⟨rfl, _, hm _ (by simp), rfl⟩
      · exact ⟨rfl, _, hm _ (by simp), rfl⟩
      · exact ⟨rfl, _, hm _ (by simp), rfl⟩
      · exact ⟨rfl, _, hm _ (by simp), rfl⟩
    · exact ih d hd
  | case2 night r hlt =>
    rw [makeData, dif_neg hlt]
    exact fun d hd => absurd hd List.not_mem_nil

/-- C250 for the random downtimes: whatever the random numbers, thresholds and lengths, the total is the length of the time closed. It is a whole number of nights, and less than
the survey and the longest event together. Missing: the first-year variant (`C250_first_year_violated`). -/
theorem C250_random_partial (cl : Classes) (night0 : ℚ) (m : ℕ) (hm : ∀ e ∈ [cl.catastrophic, cl.major, cl.intermediate, cl.minor], e.len ≤ m) (n : ℕ) (r : Rng) :
    volume (downSet (makeData cl night0 n 0 r)) = ENNReal.ofReal (total (makeData cl night0 n 0 r)) ∧ (∃ k : ℕ, total (makeData cl night0 n 0 r) = k)
      ∧ (0 < n → total (makeData cl night0 n 0 r) < n + m) := by
  obtain ⟨ho, hf, -, -⟩ := C26_ordered_partial cl night0 n r
  have hlen := makeData_lengths cl night0 m hm n 0 r
  have hvol := C250_total _ hf ho
  have hnat : ∃ k : ℕ, total (makeData cl night0 n 0 r) = k := by
    revert hlen
    generalize makeData cl night0 n 0 r = l
    intro hlen
    induction l with
    | nil => exact ⟨0, by simp [total]⟩
    | cons d l ih =>
      obtain ⟨k, hk⟩ := ih fun e he => hlen e (List.mem_cons_of_mem _ he)
      obtain ⟨-, -, -, j, -, hj⟩ := hlen d List.mem_cons_self
      refine ⟨j + k, ?_⟩
      rw [total_cons, hk, hj]
      push_cast
      ring
  refine ⟨hvol, hnat, fun hn => ?_⟩
  have hsub : downSet (makeData cl night0 n 0 r) ⊆ Set.Ico (night0 : ℝ) ((night0 + (n - 1) + m : ℚ) : ℝ) := by
    rintro t ⟨d, hd, h1, h2⟩
    obtain ⟨k, hk, e1, j, hj, e2⟩ := hlen d hd
    have hk' : (k : ℝ) + 1 ≤ n := by exact_mod_cast hk
    have hj' : (j : ℝ) ≤ m := by exact_mod_cast hj
    have hk0 : (0 : ℝ) ≤ k := by positivity
    rw [e2] at h2
    rw [e1] at h1 h2
    push_cast at h1 h2 ⊢
    exact ⟨by linarith, by linarith⟩
  have hle := measure_mono (μ := volume) hsub
  rw [hvol, Real.volume_Ico] at hle
  have hn' : (1 : ℝ) ≤ n := by exact_mod_cast hn
  have := (ENNReal.ofReal_le_ofReal_iff (by push_cast; have : (0 : ℝ) ≤ m := by positivity
                                            linarith)).1 hle
  push_cast at this
  have h3 : ((total (makeData cl night0 n 0 r) : ℚ) : ℝ) < ((n + m : ℚ) : ℝ) := by
    push_cast
    linarith
  exact_mod_cast h3

example : total [(60000, 60001), (60004, 60018)] = 15 := by decide +kernel

example : Forward [(60000, 60001), (60004, 60018)] ∧ Ordered [(60000, 60001), (60004, 60018)] := by decide +kernel

/-- A survey of one night may have a total of 14 days: events are not cut at its end. -/
theorem C250_survey_violated : total (makeData {} 0 1 0 ⟨fun _ => 0, 0⟩) = 14 := by
  have h : makeData {} 0 1 0 ⟨fun _ => 0, 0⟩ = [(0, 14)] := by
    rw [makeData, dif_pos (by omega)]
    have t : turn {} 0 0 ⟨fun _ => 0, 0⟩ = (some (0, 14), 15, ⟨fun _ => 0, 1⟩) := by norm_num [turn, Rng.next]
    dsimp only
    rw [t]
    dsimp only
    rw [makeData, dif_neg (by omega)]
    rfl
  rw [h]
  decide +kernel

/-- C250 fails for the first-year variant: an event inside a regular downtime is counted twice. -/
theorem C250_first_year_violated : ∃ (nights : List (ℕ × (ℚ × ℚ) × Y1Rand)) (r : Rng), Forward (makeDataY1 380 nights (makeData {} 0 1 0 r))
    ∧ volume (downSet (makeDataY1 380 nights (makeData {} 0 1 0 r))) < ENNReal.ofReal (total (makeDataY1 380 nights (makeData {} 0 1 0 r))) := by
  refine ⟨[(0, (1 / 4, 3 / 4), ⟨0, 2, 1 / 2⟩)], ⟨fun _ => 0, 0⟩, ?_⟩
  have h : makeData {} 0 1 0 ⟨fun _ => 0, 0⟩ = [(0, 14)] := by
    rw [makeData, dif_pos (by omega)]
    have t : turn {} 0 0 ⟨fun _ => 0, 0⟩ = (some (0, 14), 15, ⟨fun _ => 0, 1⟩) := by norm_num [turn, Rng.next]
    dsimp only
    rw [t]
    dsimp only
    rw [makeData, dif_neg (by omega)]
    rfl
  have e : makeDataY1 380 [(0, (1 / 4, 3 / 4), ⟨0, 2, 1 / 2⟩)] [(0, 14)] = [(0, 14), (11 / 24, 13 / 24)] := by decide +kernel
  rw [h, e]
  refine ⟨by decide +kernel, ?_⟩
  have hs : downSet [(0, 14), (11 / 24, 13 / 24)] ⊆ Set.Ico (0 : ℝ) 14 := by
    rintro t ⟨d, hd, h1, h2⟩
    simp only [List.mem_cons, List.not_mem_nil, or_false] at hd
    rcases hd with rfl | rfl
    · push_cast at h1 h2
      exact ⟨h1, h2⟩
    · push_cast at h1 h2
      exact ⟨by linarith, by linarith⟩
  refine (measure_mono hs).trans_lt ?_
  have ht : total [(0, 14), (11 / 24, 13 / 24)] = 14 + 1 / 12 := by decide +kernel
  rw [Real.volume_Ico, ht, ENNReal.ofReal_lt_ofReal_iff (by push_cast; norm_num)]
  push_cast
  norm_num

end Verif
