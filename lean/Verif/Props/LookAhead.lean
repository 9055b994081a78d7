import Verif.Props.FeasibleHistory

/-!
Property C55, the look-ahead test for deep drilling fields, and property C58, the rising test.
-/

namespace Verif

open Feas Feat

/-- A share of visits, for the theorems below. -/
theorem ratio_eq (note : Option String) (h : List Vis) (hne : h ≠ []) :
    ratio note h = some ((h.countP (fun v => decide (Marked note v)) : ℕ) / (h.length : ℚ)) := by
  unfold ratio
  rw [count_all, if_neg (by have := List.length_pos_of_ne_nil hne; omega), count_marked]

/-- C55, look ahead: with at least one visit made and twilight at 12 or 18 degrees the test gives an
answer. It is feasible when the share of visits is clearly below the aggressive fraction; and when the
moon is not up and the target has crossed the meridian (hour angle from 0 to 12), or is less than the
time needed plus the jump from the morning twilight. It is not feasible, unless the field is
behind, when the moon is up and sets so that more than the time needed is left before twilight.
Missing: the documented meaning of the time jump (`C55_jump_unit_violated`,
`C55_moonset_violated`, `C55_moonrise_violated`), and the start of a survey (`C55_ahead_start_violated`). -/
theorem C55_ahead_partial (a : Ahead) (h : List Vis) (hne : h ≠ []) (c : Cond) (rise : ℚ)
    (ha : (a.alt = 18 ∧ rise = c.n18rising) ∨ (a.alt = 12 ∧ rise = c.n12rising)) (hagg : 0 < a.aggressive) :
    ∃ b, lookAhead a h c = some b ∧
      (((h.countP (fun v => decide (Marked a.note v)) : ℕ) : ℚ) ≤ a.aggressive * h.length / 2 → b = true) ∧
      (c.moonAlt ≤ 0 → (∃ k : ℤ, 0 ≤ c.lmst - a.ra / 15 + 24 * k ∧ c.lmst - a.ra / 15 + 24 * k ≤ 12) → b = true) ∧
      (c.moonAlt ≤ 0 → rise ≤ c.mjd + (a.need + a.jump) / 1440 → b = true) ∧
      (a.aggressive * h.length ≤ ((h.countP (fun v => decide (Marked a.note v)) : ℕ) : ℚ) →
        0 < c.moonAlt → ClearlyAbove c.moonset (a.jump / 1440) → ClearlyAbove (rise - c.moonset) (a.need / 1440) →
        b = false) := by
  have hr : rising c a.alt = some rise := by
    unfold rising
    rcases ha with ⟨h1, h2⟩ | ⟨h1, h2⟩ <;> rw [h1, h2] <;> rfl
  have hlen : (0 : ℚ) < h.length := by
    have := List.length_pos_of_ne_nil hne
    exact_mod_cast this
  unfold lookAhead
  rw [ratio_eq a.note h hne, hr]
  generalize (h.countP (fun v => decide (Marked a.note v))) = n
  refine ⟨_, rfl, ?_, ?_, ?_, ?_⟩
  · intro hb
    have h2 : (n : ℚ) / h.length ≤ a.aggressive / 2 := by
      rw [div_le_iff₀ hlen]; linarith
    have h0 : (0 : ℚ) ≤ (n : ℚ) / h.length := by positivity
    have hlt : ltS Tol.default ((n : ℚ) / h.length) a.aggressive = true := by
      apply (C15_exact_when_far Tol.default (by decide +kernel) _ _ ?_).1.2 (by linarith)
      have e1 : |(n : ℚ) / h.length - a.aggressive| = a.aggressive - (n : ℚ) / h.length := by
        rw [abs_sub_comm, abs_of_nonneg (by linarith)]
      rw [e1, abs_of_nonneg h0]
      have e2 : min ((n : ℚ) / h.length) |a.aggressive| ≤ (n : ℚ) / h.length := min_le_left _ _
      have e3 : Tol.default.limit = 1 / 1000000000 := rfl
      rw [e3]
      linarith
    rw [if_pos hlt]
  · rintro hm ⟨k, hk0, hk1⟩
    have h1 : waitMoonset a rise c = false := by
      unfold waitMoonset
      rw [(gt_cases c.moonAlt 0).1 hm, Bool.false_and, Bool.false_and]
    have h2 : waitMeridian a rise c = true := by
      unfold waitMeridian
      have : targetHa a.ra c = c.lmst - a.ra / 15 + 24 * k := by
        unfold targetHa
        rw [show c.lmst - a.ra / 360 * 24 = c.lmst - a.ra / 15 by ring]
        exact mod24_unique _ _ hk0 (by linarith) k rfl
      rw [this, (gt_cases _ 12).1 hk1, Bool.false_and]
      rfl
    rw [h1, h2]
    simp
  · intro hm hrise
    have h1 : waitMoonset a rise c = false := by
      unfold waitMoonset
      rw [(gt_cases c.moonAlt 0).1 hm, Bool.false_and, Bool.false_and]
    have h2 : waitMeridian a rise c = true := by
      unfold waitMeridian
      rw [(gt_cases (rise - c.mjd) (a.need / 60 / 24 + a.jump / 60 / 24)).1 (by
        rw [div_div, div_div, show (60 : ℚ) * 24 = 1440 by norm_num, ← add_div]; linarith)]
      simp
    rw [h1, h2]
    simp
  · intro hb hm hj hn
    have h1 : waitMoonset a rise c = true := by
      unfold waitMoonset
      have e0 : gtS Tol.default c.moonAlt 0 = true := by
        apply (C15_exact_when_far Tol.default (by decide +kernel) _ _ ?_).2.2.2.1.2 hm
        rw [abs_zero, min_eq_right (abs_nonneg _), mul_zero, sub_zero]
        exact abs_pos.2 hm.ne'
      rw [e0, div_div, div_div, show (60 : ℚ) * 24 = 1440 by norm_num, (gt_cases _ _).2 hj, (gt_cases _ _).2 hn]
      rfl
    have h2 : ltS Tol.default ((n : ℚ) / h.length) a.aggressive = false := by
      rw [← Bool.not_eq_true]
      intro hlt
      have := C15_lt_sound _ _ _ hlt
      rw [div_lt_iff₀ hlen] at this
      linarith
    rw [h1, h2]
    simp

/-- Settings for the examples: 30 minutes needed, jump of 44 minutes, field at right ascension 6 h. -/
def ahead0 : Ahead := ⟨0.01, 30, 90, some "a", 44, 18⟩

example : lookAhead ahead0 [visAt 59000 1 "a"] { cond0 with lmst := 7 } = some true ∧
    lookAhead ahead0 [visAt 59000 1 "a"] { cond0 with moonAlt := 10, moonset := 60000.25 } = some false ∧
    lookAhead ahead0 [visAt 59000 1 "b"] { cond0 with moonAlt := 10, moonset := 60000.25 } = some true := by decide +kernel

/-- At the start of a survey, with no visit made, the test raises. -/
theorem C55_ahead_start_violated (a : Ahead) (c : Cond) : lookAhead a [] c = none := rfl

/-- The jump is meant in time, and compared in days with an hour angle in hours: the target is 30 minutes
from the meridian, less than the jump of 44 minutes, and the test waits (the moon being down until the end of the
night and after). -/
theorem C55_jump_unit_violated :
    lookAhead ahead0 [visAt 59000 1 "a"] { cond0 with lmst := 5.5, moonrise := 60000.1 } = some false ∧
    lookAhead ahead0 [visAt 59000 1 "a"] { cond0 with lmst := 6, moonrise := 60000.1 } = some true := by decide +kernel

/-- Documented: pause if the moon is up and will set soon. It pauses for a moon that sets in four hours; the
date of moonset is compared with the length of the jump. -/
theorem C55_moonset_violated :
    lookAhead ahead0 [visAt 59000 1 "a"] { cond0 with lmst := 7, moonAlt := 50, moonset := 60000.2 + 4 / 24 } = some false ∧
    (60000.2 : ℚ) + 4 / 24 > 60000.2 + 44 / 1440 := by decide +kernel

/-- Documented: having paused, go on if the moon will rise. It goes on for a moon that rises after the jump
and not for one that rises during it. -/
theorem C55_moonrise_violated :
    lookAhead ahead0 [visAt 59000 1 "a"] { cond0 with lmst := 3, moonrise := 60000.2 + 10 / 1440 } = some false ∧
    lookAhead ahead0 [visAt 59000 1 "a"] { cond0 with lmst := 3, moonrise := 60000.2 + 100 / 1440 } = some true := by
  decide +kernel

/-! ### Rising -/

/-- C58, rising: with sidereal time and right ascension less than 12 hours apart, a spot of hour angle `ha`
(between -12 and 12 hours) is blocked exactly when it is more than the pad before the meridian and gets there more
than the pad before the morning twilight.
Missing: spots further than 12 hours apart by the numbers (`C58_rising_violated`). -/
theorem C58_rising_partial (ra pad : ℚ) (hp : 0 ≤ pad) (c : Cond) (hw : |c.lmst - ra / 15| < 12)
    (ha : ℚ) (k : ℤ) (hk : ha = c.lmst - ra / 15 + 24 * k) (h12 : |ha| ≤ 12) :
    risingMore ra pad c = false ↔ ha < -(pad / 60) ∧ c.mjd + (-ha + pad / 60) / 24 < c.n18rising := by
  have hk0 : k = 0 := by
    rw [abs_lt] at hw
    rw [abs_le] at h12
    have a1 : (k : ℚ) < 1 := by linarith
    have a2 : (-1 : ℚ) < k := by linarith
    have b1 : k < 1 := by exact_mod_cast a1
    have b2 : -1 < k := by exact_mod_cast a2
    omega
  rw [hk0] at hk
  have hk' : ha = c.lmst - ra / 15 := by rw [hk]; push_cast; ring
  unfold risingMore
  simp only [Bool.not_eq_false', Bool.and_eq_true, decide_eq_true_eq]
  have e : ra * 24 / 360 = ra / 15 := by ring
  rw [e, ← hk']
  have hp' : 0 ≤ pad / 60 := by positivity
  constructor
  · rintro ⟨h1, h2⟩
    rw [abs_of_neg (by linarith)] at h2
    exact ⟨by linarith, by linarith⟩
  · rintro ⟨h1, h2⟩
    refine ⟨by linarith, ?_⟩
    rw [abs_of_neg (by linarith)]
    linarith

example : risingMore 120 30 cond0 = false ∧ risingMore 120 30 { cond0 with mjd := 60000.3 } = true ∧
    risingMore 60 30 cond0 = true := by decide +kernel

/-- The hour angle is documented to be between -12 and 12 hours and is not brought there: a spot at right ascension
1 h, at sidereal time 22 h, will be at the meridian in 3 h, and twilight is in 4.8 h. It is not blocked; with its
right ascension given as 375 degrees it is. -/
theorem C58_rising_violated :
    risingMore 15 30 { cond0 with lmst := 22 } = true ∧
    risingMore (15 + 360) 30 { cond0 with lmst := 22 } = false := by decide +kernel

end Verif
