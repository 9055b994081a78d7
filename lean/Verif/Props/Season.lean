import Verif.Model.Season
import Verif.Lemmas.IntRounded
import Verif.Lemmas.Angles

/-!
Property C49: season numbers.
-/

namespace Verif

open Season Ang

/-! ### Specification -/

/-- The season a night falls in: whole seasons since night 0. -/
def IsSeason (len night offset : ℚ) (s : ℤ) : Prop := s * len ≤ night + offset ∧ night + offset < (s + 1) * len

/-- What is reported for season `s`: -1 at and above the cap; with a cycle length, -1 before
the first season and otherwise the place in the cycle; else the season itself. -/
def reported (modulo maxSeason : Option ℤ) (s : ℤ) : ℤ :=
  if ∃ m ∈ maxSeason, m ≤ s then -1
  else match modulo with
    | some m => if s < 0 then -1 else s % m
    | none => s

/-! ### Whole numbers are compared exactly -/

theorem checkLimit_int (t : Tol) (k : ℤ) (hk : t.scale = k) (ps : List (ℤ × ℤ)) :
    ∃ f : ℤ × ℤ → ℤ, checkLimit t (ps.map (fun p => ((p.1 : ℚ), (p.2 : ℚ)))) =
      ps.map (fun p => (((p.1 - f p : ℤ) : ℚ), ((p.2 - f p : ℤ) : ℚ))) := by
  unfold checkLimit
  split
  · exact ⟨fun _ => 0, by simp⟩
  · dsimp only
    split
    · refine ⟨fun p => ⌊min (p.1 : ℚ) (p.2 : ℚ)⌋ * k, ?_⟩
      rw [List.map_map]
      apply List.map_congr_left
      intro p _
      dsimp only [Function.comp]
      rw [hk]
      have e : ∀ a b : ℤ, roundHalfEven ((a : ℚ) - (b : ℚ) * (k : ℚ)) = a - b * k := by
        intro a b
        rw [← roundHalfEven_int (a - b * k)]; push_cast; rfl
      rw [e, e]
    · exact ⟨fun _ => 0, by simp⟩

theorem ltA_int (t : Tol) (k : ℤ) (hk : t.scale = k) (ps : List (ℤ × ℤ)) :
    ltA t (ps.map (fun p => ((p.1 : ℚ), (p.2 : ℚ)))) = ps.map (fun p => decide (p.1 < p.2)) := by
  obtain ⟨f, hf⟩ := checkLimit_int t k hk ps
  unfold ltA
  rw [hf, List.map_map]
  apply List.map_congr_left
  intro p _
  simp

theorem geA_int (t : Tol) (k : ℤ) (hk : t.scale = k) (ps : List (ℤ × ℤ)) :
    geA t (ps.map (fun p => ((p.1 : ℚ), (p.2 : ℚ)))) = ps.map (fun p => decide (p.2 ≤ p.1)) := by
  obtain ⟨f, hf⟩ := checkLimit_int t k hk ps
  unfold geA
  rw [hf, List.map_map]
  apply List.map_congr_left
  intro p _
  simp

theorem md_int (m s : ℤ) (hm : 0 < m) : md (m : ℚ) (s : ℚ) = ((s % m : ℤ) : ℚ) := by
  apply same_eq (T := (m : ℚ)) (by exact_mod_cast hm)
  · refine (md_same _ _).trans ⟨s / m, ?_⟩
    have := Int.emod_add_mul_ediv s m
    have : (s : ℚ) = ((s % m + m * (s / m) : ℤ) : ℚ) := by rw [this]
    rw [this]; push_cast; ring
  · exact md_nonneg (by exact_mod_cast hm) _
  · exact md_lt (by exact_mod_cast hm) _
  · exact_mod_cast Int.emod_nonneg s hm.ne'
  · exact_mod_cast Int.emod_lt_of_pos s hm

theorem isSeason_floor {len night offset : ℚ} (hl : 0 < len) (s : ℤ) :
    IsSeason len night offset s ↔ ⌊(night + offset) / len⌋ = s := by
  rw [Int.floor_eq_iff, le_div_iff₀ hl, div_lt_iff₀ hl]; rfl

/-! ### C49 -/

/-- C49, season numbers for sky maps: for every array of nights and offsets, whole-number cap
and positive cycle length, each entry of the result is the report for the season its own
night falls in; the other entries of the array do not matter. -/
theorem C49_season_number_partial (xs : List (ℚ × ℚ)) (modulo maxSeason : Option ℤ) (len : ℚ) (hl : 0 < len)
    (hm : ∀ m ∈ modulo, 0 < m) (i : ℕ) (x : ℚ × ℚ) (hx : xs[i]? = some x) (s : ℤ) (hs : IsSeason len x.1 x.2 s) :
    (seasonCalc xs (modulo.map (↑)) (maxSeason.map (↑)) len true)[i]? = some (reported modulo maxSeason s : ℚ) := by
  have hs' := (isSeason_floor hl s).1 hs
  set f : ℚ × ℚ → ℤ := fun x => ⌊(x.1 + x.2) / len⌋ with hf
  have hsx : f x = s := hs'
  unfold seasonCalc
  simp only [if_true]
  have hover : ∀ m : ℤ, geA Tol.default ((xs.map (fun x => ((f x : ℤ) : ℚ))).map (fun y => (y, (m : ℚ)))) =
      xs.map (fun x => decide (m ≤ f x)) := by
    intro m
    have := geA_int Tol.default 1000000 rfl (xs.map (fun x => (f x, m)))
    simp only [List.map_map] at this ⊢
    exact this
  have hneg : ltA Tol.default ((xs.map (fun x => ((f x : ℤ) : ℚ))).map (fun y => (y, (0 : ℚ)))) =
      xs.map (fun x => decide (f x < 0)) := by
    have := ltA_int Tol.default 1000000 rfl (xs.map (fun x => (f x, 0)))
    simp only [List.map_map] at this ⊢
    rw [← Int.cast_zero (R := ℚ)]
    exact this
  rw [hneg]
  cases maxSeason with
  | none =>
    cases modulo with
    | none =>
      simp only [Option.map_none, List.getElem?_zipWith, List.getElem?_map, hx, Option.map_some, hs', reported]
      simp
    | some m =>
      simp only [Option.map_some, Option.map_none, List.getElem?_zipWith, List.getElem?_map, hx, Option.map_some,
        hs', hsx, Bool.false_eq_true, if_false, reported]
      simp only [Option.mem_def, reduceCtorEq, false_and, exists_false, if_false]
      rw [md_int m s (hm m rfl)]
      by_cases h0 : s < 0 <;> simp [h0]
  | some M =>
    simp only [Option.map_some]
    rw [hover]
    cases modulo with
    | none =>
      simp only [Option.map_none, List.getElem?_zipWith, List.getElem?_map, hx, Option.map_some, hs', hsx, reported]
      by_cases hM : M ≤ s <;> simp [hM]
    | some m =>
      simp only [Option.map_some, List.getElem?_zipWith, List.getElem?_map, hx, hs', hsx, reported]
      rw [md_int m s (hm m rfl)]
      by_cases hM : M ≤ s <;> by_cases h0 : s < 0 <;> simp [hM, h0]

/-- Every night falls in exactly one season, later nights in the same or a later one, and one
season length later exactly one season on. -/
theorem C49_advances (len : ℚ) (hl : 0 < len) :
    (∀ night offset, ∃! s, IsSeason len night offset s) ∧
    (∀ n1 n2 offset s1 s2, n1 ≤ n2 → IsSeason len n1 offset s1 → IsSeason len n2 offset s2 → s1 ≤ s2) ∧
    (∀ night offset s, IsSeason len night offset s → IsSeason len (night + len) offset (s + 1)) := by
  refine ⟨fun n o => ⟨_, (isSeason_floor hl _).2 rfl, fun s hs => ((isSeason_floor hl s).1 hs).symm⟩, ?_, ?_⟩
  · intro n1 n2 o s1 s2 h h1 h2
    rw [← (isSeason_floor hl s1).1 h1, ← (isSeason_floor hl s2).1 h2]
    apply Int.floor_le_floor
    gcongr
  · rintro n o s ⟨h1, h2⟩
    unfold IsSeason; push_cast
    constructor <;> linarith

/-- A cap of 10 and a two-year cycle: night -1 and night 3700 are reported as -1, night 400
as 1, night 800 as 0. -/
example : seasonCalc [(-1, 0), (400, 0), (800, 0), (3700, 0)] (some 2) (some 10) 365.25 true = [-1, 1, 0, -1] ∧
    IsSeason 365.25 800 0 2 ∧ reported (some 2) (some 10) 2 = 0 := by
  refine ⟨by decide +kernel, ?_, by decide +kernel⟩
  unfold IsSeason; norm_num

/-- With `floor=False` (fractional seasons) the cap is not applied to each entry by itself:
season 4.6 is below the cap 5, and is reported as -1 if another entry is exactly 5. -/
theorem C49_fractional_cap :
    seasonCalc [(4.6, 0), (5, 0)] none (some 5) 1 false = [-1, -1] ∧
    seasonCalc [(4.6, 0)] none (some 5) 1 false = [4.6] := by
  decide +kernel

/-- C49, seasons of a sky position: they grow with time, by one in 365.25 days; at the start
of the survey every position is in season -1 or exactly at the beginning of season 0; and
full turns of right ascension do not matter. -/
theorem C49_sky_season (ra start : ℚ) :
    (∀ t1 t2, t1 < t2 → calcSeason ra t1 start < calcSeason ra t2 start) ∧
    (∀ t, calcSeason ra (t + 365.25) start = calcSeason ra t start + 1) ∧
    -1 < calcSeason ra start start ∧ calcSeason ra start start ≤ 0 ∧
    (∀ t, calcSeason (ra + 360) t start = calcSeason ra t start) := by
  have hpos : (0 : ℚ) < 365.25 := by norm_num
  refine ⟨?_, ?_, ?_, ?_, ?_⟩
  · intro t1 t2 h
    unfold calcSeason
    apply div_lt_div_of_pos_right _ hpos
    linarith
  · intro t
    unfold calcSeason
    dsimp only
    field_simp
    ring
  · unfold calcSeason
    dsimp only
    have := Int.lt_floor_add_one ((refBegan ra - start) / 365.25)
    rw [div_lt_iff₀ hpos] at this
    rw [lt_div_iff₀ hpos]
    linarith
  · unfold calcSeason
    dsimp only
    have := Int.floor_le ((refBegan ra - start) / 365.25)
    rw [le_div_iff₀ hpos] at this
    rw [div_le_iff₀ hpos]
    linarith
  · intro t
    unfold calcSeason
    dsimp only
    have e : refBegan (ra + 360) = refBegan ra + 365.25 := by unfold refBegan; ring
    rw [e]
    have e2 : (refBegan ra + 365.25 - start) / 365.25 = (refBegan ra - start) / 365.25 + 1 := by
      field_simp; ring
    rw [e2, Int.floor_add_one]
    push_cast
    congr 1; ring

example : calcSeason 0 61000 60980 < calcSeason 0 61100 60980 := (C49_sky_season 0 60980).1 _ _ (by norm_num)

/-- The offset map puts every position between one and two years back, so that on night 0
every position is in season -2 or, exactly at the position of the sun, -1. -/
theorem C49_offset (T ra sunRa : ℚ) (hT : 0 < T) :
    -2 * 365.25 < seasonOffset T ra sunRa ∧ seasonOffset T ra sunRa ≤ -365.25 ∧
    ∃ s, IsSeason 365.25 0 (seasonOffset T ra sunRa) s ∧ (s = -2 ∨ s = -1 ∧ SameAngle T ra sunRa) := by
  have h1 := md_nonneg hT (ra - sunRa + T)
  have h2 := md_lt hT (ra - sunRa + T)
  have h3 : 0 ≤ md T (ra - sunRa + T) * 365.25 / T := by positivity
  have h4 : md T (ra - sunRa + T) * 365.25 / T < 365.25 := by
    rw [div_lt_iff₀ hT]; linarith
  have e : seasonOffset T ra sunRa = -(md T (ra - sunRa + T) * 365.25 / T) - 365.25 := rfl
  refine ⟨by linarith, by linarith, ?_⟩
  by_cases h0 : md T (ra - sunRa + T) = 0
  · refine ⟨-1, ?_, .inr ⟨rfl, ?_⟩⟩
    · unfold IsSeason; rw [e, h0]; norm_num
    · have := md_same T (ra - sunRa + T)
      rw [h0] at this
      obtain ⟨k, hk⟩ := this
      exact ⟨-k - 1, by push_cast; linarith⟩
  · refine ⟨-2, ?_, .inl rfl⟩
    have h5 : 0 < md T (ra - sunRa + T) := lt_of_le_of_ne h1 (Ne.symm h0)
    have h6 : 0 < md T (ra - sunRa + T) * 365.25 / T := by positivity
    unfold IsSeason; rw [e]
    constructor <;> push_cast <;> linarith

example : seasonOffset 360 90 0 = -456.5625 := by decide +kernel

end Verif
