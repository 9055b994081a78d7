import Verif.Lemmas.Downtime
import Mathlib.Tactic.NormNum

/-!
Properties C25 and C26: the downtime tables.
-/

namespace Verif

open Down

/-! ### C25 -/

/-- C25, for inputs for which the merging returns: the merged downtimes are in order, do not
overlap and close exactly the same times. Missing: the merging may raise instead of
returning, see `C25_no_error_partial` and `C25_violated`. -/
theorem C25_same_closed_times_partial (sched unsched r : List (ℚ × ℚ)) (hs : Forward sched) (hu : Forward unsched)
    (h : merge sched unsched = .ok r) :
    Ordered r ∧ Forward r ∧ ∀ t, Closed r t ↔ Closed sched t ∨ Closed unsched t := by
  have hf : Forward (sortIv (sched ++ unsched)) := by
    intro d hd
    rcases List.mem_append.1 ((sortIv_perm _).mem_iff.1 hd) with h | h
    · exact hs d h
    · exact hu d h
  obtain ⟨h1, h2, h3⟩ := mergeLoop_ok (sortIv_byStart _) hf h
  refine ⟨h1, h2, fun t => ?_⟩
  rw [h3, closed_perm (sortIv_perm _)]
  unfold Closed
  constructor
  · rintro ⟨d, hd, hd'⟩
    rcases List.mem_append.1 hd with h | h
    · exact .inl ⟨d, h, hd'⟩
    · exact .inr ⟨d, h, hd'⟩
  · rintro (⟨d, hd, hd'⟩ | ⟨d, hd, hd'⟩)
    · exact ⟨d, List.mem_append_left _ hd, hd'⟩
    · exact ⟨d, List.mem_append_right _ hd, hd'⟩

/-- The merging loop always comes to an end (with a result or an error). -/
theorem C25_ends (sched unsched : List (ℚ × ℚ)) : merge sched unsched ≠ .outOfFuel :=
  mergeLoop_ends _ _ le_rfl

/-- The merging returns a result whenever there is a moment `T` with downtimes on both sides
and none across it. -/
theorem C25_no_error_partial (sched unsched : List (ℚ × ℚ)) (hpos : ∀ d ∈ sched ++ unsched, d.1 < d.2)
    (T : ℚ) (hT : Gap (sched ++ unsched) T) : ∃ r, merge sched unsched = .ok r := by
  have hmem := fun d => (sortIv_perm (sched ++ unsched)).mem_iff (a := d)
  obtain ⟨⟨d, hd, hdT⟩, ⟨e, he, heT⟩, hall⟩ := hT
  have h1 : merge sched unsched ≠ .valueError := by
    refine mergeLoop_gap (T := T) (x := d.1) (y := e.1) (sortIv_byStart _) ?_ ?_ ?_ heT ?_ ?_
    · exact fun d hd => (hpos d ((hmem d).1 hd)).le
    · exact fun d hd => hall d ((hmem d).1 hd)
    · exact lt_of_lt_of_le (hpos d hd) hdT
    · exact ⟨d, (hmem d).2 hd, le_rfl, hpos d hd⟩
    · exact ⟨e, (hmem e).2 he, le_rfl, hpos e he⟩
  have h2 := C25_ends sched unsched
  cases h : merge sched unsched with
  | ok r => exact ⟨r, rfl⟩
  | valueError => exact absurd h h1
  | outOfFuel => exact absurd h h2

/-- A chain of three overlapping downtimes, one inside another, one apart, two touching. -/
example : ∃ r, merge [(0, 10), (100, 120), (200, 201)] [(5, 20), (15, 30), (101, 102), (201, 203)] = .ok r ∧
    r = [(0, 30), (100, 120), (200, 201), (201, 203)] ∧ Ordered r := by
  refine ⟨[(0, 30), (100, 120), (200, 201), (201, 203)], ?_, rfl, by decide +kernel⟩
  have : sortIv ([(0, 10), (100, 120), (200, 201)] ++ [(5, 20), (15, 30), (101, 102), (201, 203)])
    = [(0, 10), (5, 20), (15, 30), (100, 120), (101, 102), (200, 201), (201, 203)] := by decide +kernel
  unfold merge
  rw [this]
  norm_num [mergeLoop, overlaps, sweep, sweep_single, keepNew]

/-- C25 does not hold as stated: with a single downtime, and with two that overlap (or any set
merging into one), the constructor raises instead. -/
theorem C25_violated :
    (∀ d : ℚ × ℚ, merge [d] [] = .valueError) ∧ merge [] [] = .valueError ∧
    ∀ a b c e : ℚ, a ≤ c → c < b → c < e → merge [(a, b)] [(c, e)] = .valueError := by
  refine ⟨fun d => rfl, rfl, fun a b c e hac hcb hce => ?_⟩
  unfold merge
  have key : ∀ a b c e : ℚ, a ≤ c → c < b → mergeLoop 2 [(a, b), (c, e)] = .valueError := by
    intro a b c e hac hcb
    simp [mergeLoop, overlaps, sweep, hcb, keepNew]
  by_cases h : a < c ∨ a = c ∧ b ≤ e
  · have : sortIv ([(a, b)] ++ [(c, e)]) = [(a, b), (c, e)] := by
      simp [sortIv, List.orderedInsert, h]
    rw [this]; exact key a b c e hac hcb
  · have : sortIv ([(a, b)] ++ [(c, e)]) = [(c, e), (a, b)] := by
      simp [sortIv, List.orderedInsert, h]
    rw [this]
    push Not at h
    have hc : a = c := le_antisymm hac h.1
    exact key c e a b hc.ge (by have := h.2 hc; rw [hc]; exact hce)

/-! ### C26 -/

/-- C26 for `UnscheduledDowntimeData`: whatever the random numbers, thresholds, lengths and
survey length, the downtimes are in order with at least a day between the end of one and the
start of the next, none ends before it starts, and all start within the survey.
Missing: the first-year variant of the class, see `C26_violated`. -/
theorem C26_ordered_partial (cl : Classes) (night0 : ℚ) (n : ℕ) (r : Rng) :
    let l := makeData cl night0 n 0 r
    Ordered l ∧ Forward l ∧ l.Pairwise (fun a b => a.2 + 1 ≤ b.1) ∧
      ∀ d ∈ l, night0 ≤ d.1 ∧ d.1 < night0 + n := by
  obtain ⟨h1, h2⟩ := makeData_spec cl night0 n 0 r
  refine ⟨?_, fun d hd => (h1 d hd).2.1, h2, fun d hd => ⟨by simpa using (h1 d hd).1, (h1 d hd).2.2⟩⟩
  refine List.pairwise_iff_forall_sublist.2 (fun {a b} hab => ?_)
  have h3 := List.pairwise_iff_forall_sublist.1 h2 hab
  have h4 := (h1 a (hab.subset (by simp))).2.1
  exact ⟨by linarith, by linarith⟩

/-- Random numbers giving a minor event on night 0, nothing on night 3 (after the extra night
a minor event skips) and a catastrophic event on night 4. -/
def toyRng : Rng := ⟨fun k => if k = 3 then 1 / 100 else if k = 8 then 0 else 1 / 2, 0⟩

example : makeData {} 60000 30 0 toyRng = [(60000, 60001), (60004, 60018)] := by
  have h : ∀ m k, makeData {} 60000 30 m ⟨toyRng.val, k⟩ =
      if m < 30 then (turn {} 60000 m ⟨toyRng.val, k⟩).1.toList ++
        makeData {} 60000 30 (turn {} 60000 m ⟨toyRng.val, k⟩).2.1 (turn {} 60000 m ⟨toyRng.val, k⟩).2.2 else [] := by
    intro m k; rw [makeData]; rfl
  have q : ∀ m k, 8 < k → ∀ j, 30 ≤ m + j → makeData {} 60000 30 m ⟨toyRng.val, k⟩ = [] := by
    intro m k hk j
    induction j generalizing m k with
    | zero => intro hj; rw [h, if_neg (by omega)]
    | succ j ih =>
      intro hj
      rw [h]
      split
      · have t : turn {} 60000 m ⟨toyRng.val, k⟩ = (none, m + 1, ⟨toyRng.val, k + 4⟩) := by
          have e : ∀ i, 8 < i → toyRng.val i = 1 / 2 := by
            intro i hi; simp [toyRng, show i ≠ 3 by omega, show i ≠ 8 by omega]
          simp only [turn, Rng.next, e k hk, e (k + 1) (by omega), e (k + 1 + 1) (by omega), e (k + 1 + 1 + 1) (by omega)]
          norm_num
        rw [t]
        simpa using ih (m + 1) (k + 4) (by omega) (by omega)
      · rfl
  have e0 : turn {} 60000 0 toyRng = (some (60000, 60001), 3, ⟨toyRng.val, 4⟩) := by
    norm_num [turn, Rng.next, toyRng]
  have e1 : turn {} 60000 3 ⟨toyRng.val, 4⟩ = (none, 4, ⟨toyRng.val, 8⟩) := by
    norm_num [turn, Rng.next, toyRng]
  have e2 : turn {} 60000 4 ⟨toyRng.val, 8⟩ = (some (60004, 60018), 19, ⟨toyRng.val, 9⟩) := by
    norm_num [turn, Rng.next, toyRng]
  have h0 := h 0 0
  rw [show (⟨toyRng.val, 0⟩ : Rng) = toyRng from rfl, e0] at h0
  rw [h0, if_pos (by omega)]
  dsimp only
  rw [h, e1, if_pos (by omega)]
  dsimp only
  rw [h, e2, if_pos (by omega)]
  dsimp only
  rw [q 19 9 (by omega) 11 (by omega)]
  rfl

/-- The first-year events lie within their night, and the table of the first-year variant is
in order of start. -/
theorem C26_first_year_partial (endOfStart : ℕ) (nights : List (ℕ × (ℚ × ℚ) × Y1Rand)) (regular : List (ℚ × ℚ))
    (hn : ∀ x ∈ nights, x.2.1.1 ≤ x.2.1.2 ∧ 0 ≤ x.2.2.unif ∧ x.2.2.unif ≤ 1) :
    (makeDataY1 endOfStart nights regular).Pairwise (fun a b => a.1 ≤ b.1) ∧
    (∀ d ∈ makeDataY1 endOfStart nights regular, d ∈ regular ∨
      ∃ x ∈ nights, x.2.1.1 ≤ d.1 ∧ d.1 ≤ d.2 ∧ d.2 ≤ x.2.1.2) ∧
    (∀ d ∈ regular, d ∈ makeDataY1 endOfStart nights regular) := by
  have hperm := List.perm_insertionSort (fun a b : ℚ × ℚ => a.1 ≤ b.1) (y1Events endOfStart nights ++ regular)
  refine ⟨?_, fun d hd => ?_, fun d hd => hperm.mem_iff.2 (List.mem_append_right _ hd)⟩
  · have : Std.Total (fun a b : ℚ × ℚ => a.1 ≤ b.1) := ⟨fun a b => le_total a.1 b.1⟩
    have : IsTrans (ℚ × ℚ) (fun a b => a.1 ≤ b.1) := ⟨fun a b c h1 h2 => le_trans h1 h2⟩
    exact List.pairwise_insertionSort (fun a b : ℚ × ℚ => a.1 ≤ b.1) _
  · rcases List.mem_append.1 (hperm.mem_iff.1 hd) with h | h
    · right
      obtain ⟨x, hx, hxd⟩ := List.mem_filterMap.1 h
      obtain ⟨h1, h2, h3⟩ := hn x hx
      refine ⟨x, hx, ?_⟩
      unfold y1Night at hxd
      dsimp only at hxd
      split at hxd
      · split at hxd
        · split at hxd
          · cases hxd; exact ⟨le_rfl, h1, le_rfl⟩
          · rename_i htm
            cases hxd
            dsimp only
            set pt := y1Length ((x.2.1.2 - x.2.1.1) * 24) x.2.2.gumbel with hpt
            have hpt1 : 1 ≤ pt := by
              rw [hpt]; unfold y1Length; dsimp only
              split_ifs <;> linarith
            have ht : 0 < (x.2.1.2 - x.2.1.1) * 24 - pt := not_le.1 htm
            have hu := mul_nonneg ht.le h2
            have hu' : ((x.2.1.2 - x.2.1.1) * 24 - pt) * x.2.2.unif ≤ (x.2.1.2 - x.2.1.1) * 24 - pt := by
              nlinarith
            refine ⟨?_, ?_, ?_⟩ <;> nlinarith
        · cases hxd
      · cases hxd
    · exact .inl h

/-- A night of 10 hours with an event of 2 hours starting in its middle. -/
example : makeDataY1 380 [(0, (0, 10 / 24), ⟨0, 2, 1 / 2⟩)] [(60, 67)] = [(4 / 24, 6 / 24), (60, 67)] := by
  decide +kernel

/-- C26 fails for the first-year variant, which is the one the observatory uses: a first-year
event may fall inside a regular downtime. -/
theorem C26_violated : ∃ (nights : List (ℕ × (ℚ × ℚ) × Y1Rand)) (r : Rng),
    ¬ Ordered (makeDataY1 380 nights (makeData {} 0 1 0 r)) := by
  refine ⟨[(0, (1 / 4, 3 / 4), ⟨0, 2, 1 / 2⟩)], ⟨fun _ => 0, 0⟩, ?_⟩
  have h : makeData {} 0 1 0 ⟨fun _ => 0, 0⟩ = [(0, 14)] := by
    rw [makeData, dif_pos (by omega)]
    have t : turn {} 0 0 ⟨fun _ => 0, 0⟩ = (some (0, 14), 15, ⟨fun _ => 0, 1⟩) := by norm_num [turn, Rng.next]
    dsimp only
    rw [t]
    dsimp only
    rw [makeData, dif_neg (by omega)]
    rfl
  rw [h]
  decide +kernel

end Verif
