import Verif.Model.TargetDepth
import Verif.Props.Depth
import Mathlib.Tactic.FieldSimp
import Mathlib.Analysis.SpecialFunctions.Trigonometric.Bounds

/-! C216: the depth aimed for at an altitude. -/

namespace Verif
open Tgt

/-- The altitude at which a declination culminates. -/
def culmination (lat dec : ℚ) : ℚ := 90 - |dec - lat|

/-- It is the greatest altitude of the daily circle: with hour angle `h` the sine of the altitude is
`sin lat sin dec + cos lat cos dec cos h`. -/
theorem culmination_spec (lat dec : ℚ) (h1 : |lat| ≤ 90) (h2 : |dec| ≤ 90) (h : ℝ) :
    Real.sin (lat * Real.pi / 180) * Real.sin (dec * Real.pi / 180) + Real.cos (lat * Real.pi / 180) * Real.cos (dec * Real.pi / 180) * Real.cos h ≤
      Real.sin ((culmination lat dec : ℚ) * Real.pi / 180) ∧
    Real.sin (lat * Real.pi / 180) * Real.sin (dec * Real.pi / 180) + Real.cos (lat * Real.pi / 180) * Real.cos (dec * Real.pi / 180) * Real.cos 0 =
      Real.sin ((culmination lat dec : ℚ) * Real.pi / 180) := by
  have e : Real.sin ((culmination lat dec : ℚ) * Real.pi / 180) = Real.cos (lat * Real.pi / 180 - dec * Real.pi / 180) := by
    have e1 : ((culmination lat dec : ℚ) : ℝ) * Real.pi / 180 = Real.pi / 2 - |(dec : ℝ) * Real.pi / 180 - lat * Real.pi / 180| := by
      have hp := Real.pi_pos
      have : (dec : ℝ) * Real.pi / 180 - lat * Real.pi / 180 = (dec - lat) * (Real.pi / 180) := by ring
      rw [this, abs_mul, abs_of_pos (by positivity : 0 < Real.pi / 180)]
      unfold culmination
      push_cast
      ring
    rw [e1, Real.sin_pi_div_two_sub, Real.cos_abs, ← Real.cos_neg]
    congr 1
    ring
  have nonneg : ∀ x : ℚ, |x| ≤ 90 → 0 ≤ Real.cos ((x : ℝ) * Real.pi / 180) := by
    intro x hx
    have hx' : |(x : ℝ)| ≤ 90 := by exact_mod_cast hx
    rw [abs_le] at hx'
    have hp := Real.pi_pos
    apply Real.cos_nonneg_of_neg_pi_div_two_le_of_le <;> nlinarith
  rw [e, Real.cos_sub]
  constructor
  · have := mul_nonneg (nonneg lat h1) (nonneg dec h2)
    nlinarith [Real.cos_le_one h]
  · rw [Real.cos_zero]; ring

theorem mean_between {lo hi : ℚ} (l : List ℚ) (h : l.length ≠ 0) (hl : ∀ x ∈ l, lo ≤ x ∧ x ≤ hi) :
    lo ≤ l.sum / l.length ∧ l.sum / l.length ≤ hi := by
  have hp : (0 : ℚ) < l.length := by exact_mod_cast Nat.pos_of_ne_zero h
  have h1 : lo * l.length ≤ l.sum ∧ l.sum ≤ hi * l.length := by
    clear h hp
    induction l with
    | nil => simp
    | cons a l ih =>
      obtain ⟨i1, i2⟩ := ih (fun x hx => hl x (List.mem_cons_of_mem _ hx))
      have := hl a List.mem_cons_self
      rw [List.sum_cons, List.length_cons]
      push_cast
      constructor <;> linarith
  exact ⟨(le_div_iff₀ hp).2 h1.1, (div_le_iff₀ hp).2 h1.2⟩

/-- A pixel averaged in a bin above all altitudes given to the southern sky culminates there. -/
theorem members_culminate {lat : ℚ} {pix : List Pix} {i : ℕ} (hd : ∀ p ∈ pix, |p.dec| ≤ 90) (hi : lat + 90 < 5 * (i : ℚ)) {s : ℚ} (hs : s ∈ members lat pix i) :
    ∃ p ∈ pix, p.sky = s ∧ 5 * (i : ℚ) ≤ culmination lat p.dec ∧ (culmination lat p.dec < 5 * ((i : ℚ) + 1) ∨ (i = 17 ∧ culmination lat p.dec ≤ 90)) := by
  unfold members at hs
  rw [List.mem_map] at hs
  obtain ⟨p, hp, rfl⟩ := hs
  rw [List.mem_filter, List.mem_filter] at hp
  obtain ⟨⟨hp, hpos⟩, hb⟩ := hp
  refine ⟨p, hp, rfl, ?_⟩
  have hdec := abs_le.1 (hd p hp)
  unfold inBin at hb
  simp only [Bool.and_eq_true, Bool.or_eq_true, decide_eq_true_eq] at hb
  have hn : ¬ lat - p.dec + 90 > 90 := by
    intro hgt
    have : pixAlt lat p.dec = lat - p.dec := by unfold pixAlt; rw [if_pos hgt]; ring
    rw [this] at hb
    linarith [hb.1]
  have he : pixAlt lat p.dec = culmination lat p.dec := by
    unfold pixAlt culmination
    rw [if_neg hn, abs_of_nonneg (by linarith)]
    ring
  rw [he] at hb
  exact hb

/-- C216: for altitudes whose bins lie above `90 + lat`, the brightness used is within the bounds of the
dark sky of the pixels that culminate within 7.5 degrees of the altitude.

Missing: lower altitudes, where pixels south of the zenith are counted at the wrong altitude
(`C216_south_violated`); pixels south of the zenith are never used at their own altitude
(`C216_left_out_violated`). -/
theorem C216_sky_partial (lat alt : ℚ) (pix : List Pix) (lo hi : ℚ) (hd : ∀ p ∈ pix, |p.dec| ≤ 90) (h90 : alt ≤ 90) (h0 : 5 / 2 ≤ alt)
    (hlat : lat + 90 < 5 * (min ⌊(alt - 5 / 2) / 5⌋ 17 : ℤ))
    (hsky : ∀ p ∈ pix, |culmination lat p.dec - alt| ≤ 15 / 2 → lo ≤ p.sky ∧ p.sky ≤ hi) {s : ℚ} (hs : skyAt lat pix alt = some s) :
    lo ≤ s ∧ s ≤ hi := by
  obtain ⟨n, hn⟩ : ∃ n : ℕ, ⌊(alt - 5 / 2) / 5⌋ = (n : ℤ) := Int.eq_ofNat_of_zero_le (Int.floor_nonneg.2 (by linarith))
  have hfl : (n : ℚ) ≤ (alt - 5 / 2) / 5 ∧ (alt - 5 / 2) / 5 < n + 1 := by
    have h1 := Int.floor_le ((alt - 5 / 2) / 5)
    have h2 := Int.lt_floor_add_one ((alt - 5 / 2) / 5)
    rw [hn] at h1 h2
    exact ⟨by exact_mod_cast h1, by exact_mod_cast h2⟩
  have hb1 : 5 * (n : ℚ) + 5 / 2 ≤ alt := by linarith [hfl.1]
  have hb2 : alt < 5 * (n : ℚ) + 15 / 2 := by linarith [hfl.2]
  have hm : ∀ (i : ℕ) (v : ℚ), lat + 90 < 5 * (i : ℚ) → alt - 15 / 2 ≤ 5 * (i : ℚ) → 5 * ((i : ℚ) + 1) ≤ alt + 15 / 2 → mean lat pix i = some v → lo ≤ v ∧ v ≤ hi := by
    intro i v hi1 hi2 hi3 hv
    unfold mean at hv
    by_cases hz : (members lat pix i).length = 0
    · rw [if_pos hz] at hv; cases hv
    · rw [if_neg hz] at hv
      rw [← Option.some.inj hv]
      refine mean_between _ hz (fun x hx => ?_)
      obtain ⟨p, hp, rfl, hc1, hc2⟩ := members_culminate hd hi1 hx
      refine hsky p hp (abs_le.2 ⟨by linarith, ?_⟩)
      rcases hc2 with hc2 | ⟨h17, hc2⟩
      · linarith
      · subst h17
        push_cast at hi3
        linarith
  unfold skyAt at hs
  have hmid0 : mid 0 = 5 / 2 := by unfold mid; norm_num
  have hmid17 : mid 17 = 175 / 2 := by unfold mid; norm_num
  rw [hn] at hlat
  by_cases c1 : alt ≤ mid 0
  · rw [if_pos c1] at hs
    have hn0 : n = 0 := by
      rw [hmid0] at c1
      have : (n : ℚ) ≤ 0 := by linarith
      exact_mod_cast le_antisymm this (by positivity)
    subst hn0
    refine hm 0 s ?_ ?_ ?_ hs
    · simpa using hlat
    · rw [hmid0] at c1; push_cast; linarith
    · push_cast; linarith
  · rw [if_neg c1] at hs
    by_cases c2 : mid 17 ≤ alt
    · rw [if_pos c2] at hs
      rw [hmid17] at c2
      have hn17 : n = 17 := by
        have h1 : (n : ℚ) < 18 := by linarith
        have h2 : (16 : ℚ) < n := by linarith
        have h1' : n < 18 := by exact_mod_cast h1
        have h2' : 16 < n := by exact_mod_cast h2
        omega
      subst hn17
      refine hm 17 s ?_ ?_ ?_ hs
      · simpa using hlat
      · push_cast; linarith
      · push_cast; linarith
    · rw [if_neg c2, hn] at hs
      dsimp only [Int.toNat_natCast] at hs
      rw [hmid17] at c2
      have hnl : n ≤ 16 := by
        have h1 : (n : ℚ) < 17 := by linarith [not_le.1 c2]
        have h1' : n < 17 := by exact_mod_cast h1
        omega
      have hmin : min (n : ℤ) 17 = n := by omega
      rw [hmin] at hlat
      have hlat' : lat + 90 < 5 * (n : ℚ) := by exact_mod_cast hlat
      cases ha : mean lat pix n with
      | none => rw [ha] at hs; cases hs
      | some a =>
        cases hb : mean lat pix (n + 1) with
        | none => rw [ha, hb] at hs; cases hs
        | some b =>
          rw [ha, hb] at hs
          have hse := Option.some.inj hs
          obtain ⟨a1, a2⟩ := hm n a hlat' (by linarith) (by linarith) ha
          obtain ⟨b1, b2⟩ := hm (n + 1) b (by push_cast; linarith) (by push_cast; linarith) (by push_cast; linarith) hb
          have hmidn : mid n = 5 * (n : ℚ) + 5 / 2 := by unfold mid; ring
          rw [hmidn] at hse
          obtain ⟨t, ht⟩ : ∃ t : ℚ, t = (alt - (5 * (n : ℚ) + 5 / 2)) / 5 := ⟨_, rfl⟩
          have ht0 : 0 ≤ t := by rw [ht]; apply div_nonneg <;> linarith
          have ht1 : t ≤ 1 := by rw [ht, div_le_one (by norm_num)]; linarith
          have hst : s = (1 - t) * a + t * b := by rw [← hse, ht]; ring
          rw [hst]
          constructor <;> nlinarith

/-- C216: and so is the depth aimed for. -/
theorem C216_depth_partial (b : Depth.Band) (hb : 0 < b.baseExptime) (hdc : 0 ≤ b.dCmInfinity) (hk : 0 ≤ b.kAtm)
    (lat alt : ℚ) (pix : List Pix) (lo hi : ℚ) (hd : ∀ p ∈ pix, |p.dec| ≤ 90) (h90 : alt ≤ 90) (h0 : 5 / 2 ≤ alt)
    (hlat : lat + 90 < 5 * (min ⌊(alt - 5 / 2) / 5⌋ 17 : ℤ))
    (hsky : ∀ p ∈ pix, |culmination lat p.dec - alt| ≤ 15 / 2 → lo ≤ p.sky ∧ p.sky ≤ hi) (seeing exptime : ℝ) (hse : 0 < seeing) (het : 0 < exptime)
    {d : ℝ} (h : goal b lat pix alt seeing exptime = some d) :
    Depth.m5 b lo seeing exptime (1 / Real.sin (alt * Real.pi / 180)) 1 0 ≤ d ∧ d ≤ Depth.m5 b hi seeing exptime (1 / Real.sin (alt * Real.pi / 180)) 1 0 := by
  unfold goal at h
  cases hs : skyAt lat pix alt with
  | none => rw [hs] at h; cases h
  | some s =>
    rw [hs] at h
    have hd' := Option.some.inj h
    have ha : airmass alt = 1 / Real.sin ((alt : ℝ) * Real.pi / 180) := by unfold airmass; rw [Real.cos_pi_div_two_sub]
    obtain ⟨h1, h2⟩ := C216_sky_partial lat alt pix lo hi hd h90 h0 hlat hsky hs
    rw [← hd', ha]
    have q1 : (lo : ℝ) ≤ s := by exact_mod_cast h1
    have q2 : (s : ℝ) ≤ hi := by exact_mod_cast h2
    exact ⟨C88_monotone b hb hdc hk q1 hse le_rfl het le_rfl le_rfl le_rfl le_rfl le_rfl,
      C88_monotone b hb hdc hk q2 hse le_rfl het le_rfl le_rfl le_rfl le_rfl le_rfl⟩

/-- C216 fails at low altitudes: from 30 degrees south, a declination of -85 degrees is counted at an altitude of 55
although it culminates at 35, and such pixels decide the brightness at an altitude of 52.5. -/
theorem C216_south_violated : pixAlt (-30) (-85) = 55 ∧ culmination (-30) (-85) = 35 ∧
    skyAt (-30) [⟨-85, 20⟩, ⟨-80, 20⟩] (115 / 2 - 5) = some 20 ∧ ∀ p ∈ [(-85 : ℚ), -80], ¬ |culmination (-30) p - (115 / 2 - 5)| ≤ 15 / 2 := by
  refine ⟨by decide +kernel, by decide +kernel, by decide +kernel, ?_⟩
  decide +kernel

/-- C216: a pixel south of the zenith culminates at 65 degrees, and is not used there. -/
theorem C216_left_out_violated : culmination (-30) (-55) = 65 ∧ skyAt (-30) [⟨-55, 22⟩, ⟨-58, 22⟩] 65 = none := by
  constructor <;> decide +kernel

/-- Non-vacuity: the latitude of the site and the default altitude. -/
example : (-30.244628 : ℚ) + 90 < 5 * (min ⌊((65 : ℚ) - 5 / 2) / 5⌋ 17 : ℤ) ∧
    skyAt (-30.244628) [⟨-4, 21⟩, ⟨-7, 22⟩, ⟨-85, 10⟩, ⟨-55, 5⟩] 65 = some (43 / 2) := by
  constructor <;> decide +kernel

end Verif
