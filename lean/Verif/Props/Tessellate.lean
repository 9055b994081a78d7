import Mathlib.Tactic.Linarith
import Mathlib.Tactic.FieldSimp
import Mathlib.Tactic.Ring
import Verif.Model.Tessellate

/-!
C195: fields that cover the sky.
-/

namespace Verif

open Real Tess

/-- A square of the given side around a field covers a point of the sky: the point is no more than
half a side away in declination, and no more than half a side along its parallel. -/
def SquareCovers (side : ℝ) (f : Field) (ra dec : ℝ) : Prop :=
  |dec - f.dec| ≤ side / 2 ∧ ∃ k : ℤ, |ra - f.ra + 2 * π * k| * cos dec ≤ side / 2

theorem tess_wrap_range (x : ℝ) : 0 ≤ wrap x ∧ wrap x < 2 * π := by
  have hp := pi_pos
  unfold wrap
  have h1 := Int.floor_le (x / (2 * π))
  have h2 := Int.lt_floor_add_one (x / (2 * π))
  rw [le_div_iff₀ (by positivity)] at h1
  rw [div_lt_iff₀ (by positivity)] at h2
  constructor <;> linarith

/-- Of equally spaced numbers one is half a spacing or less away. -/
theorem nearest_step {h v : ℝ} {m : ℕ} (hh : 0 < h) (h0 : 0 ≤ v) (h1 : v ≤ m * h) : ∃ i : ℕ, i ≤ m ∧ |v - i * h| ≤ h / 2 := by
  have hf : 0 ≤ ⌊v / h + 1 / 2⌋ := Int.floor_nonneg.2 (by positivity)
  have hc : ((⌊v / h + 1 / 2⌋.toNat : ℕ) : ℤ) = ⌊v / h + 1 / 2⌋ := Int.toNat_of_nonneg hf
  have hq : ((⌊v / h + 1 / 2⌋.toNat : ℕ) : ℝ) = (⌊v / h + 1 / 2⌋ : ℝ) := by exact_mod_cast hc
  refine ⟨⌊v / h + 1 / 2⌋.toNat, ?_, ?_⟩
  · have : ⌊v / h + 1 / 2⌋ < (m : ℤ) + 1 := by
      rw [Int.floor_lt]
      push_cast
      have : v / h ≤ m := by rw [div_le_iff₀ hh]; exact h1
      linarith
    omega
  · rw [hq]
    have a := Int.floor_le (v / h + 1 / 2)
    have b := Int.lt_floor_add_one (v / h + 1 / 2)
    have e : v = v / h * h := by field_simp
    rw [abs_le]
    constructor
    · nlinarith
    · nlinarith

theorem linspace_mem {a b : ℝ} {n i : ℕ} (h : i < n) : a + i * ((b - a) / (n - 1)) ∈ linspace a b n :=
  List.mem_map.2 ⟨i, List.mem_range.2 h, rfl⟩

/-- One field of a stripe is near any right ascension. -/
theorem stripe_near {step turn dec : ℝ} (hn : 2 ≤ raSteps step dec) (ra : ℝ) :
    ∃ f ∈ stripe step turn dec, f.dec = dec ∧ ∃ k : ℤ, |ra - f.ra + 2 * π * k| ≤ π / (raSteps step dec - 1) := by
  have hp := pi_pos
  have hn' : (1 : ℝ) < raSteps step dec := by exact_mod_cast hn
  have hh : 0 < 2 * π / ((raSteps step dec : ℝ) - 1) := div_pos (by positivity) (by linarith)
  obtain ⟨v0, v1⟩ := tess_wrap_range (ra - turn)
  obtain ⟨i, hi, hd⟩ := nearest_step (m := raSteps step dec - 1) hh v0 (by
    rw [Nat.cast_sub (by omega), Nat.cast_one, mul_div_cancel₀ _ (by linarith)]
    exact v1.le)
  refine ⟨⟨wrap ((0 + i * ((2 * π - 0) / (raSteps step dec - 1))) + turn), dec⟩, ?_, rfl, ?_⟩
  · exact List.mem_map.2 ⟨_, linspace_mem (by omega), rfl⟩
  · refine ⟨-⌊(ra - turn) / (2 * π)⌋ - ⌊((0 + i * ((2 * π - 0) / (raSteps step dec - 1))) + turn) / (2 * π)⌋, ?_⟩
    have e : ra - wrap ((0 + i * ((2 * π - 0) / (raSteps step dec - 1))) + turn) +
        2 * π * ((-⌊(ra - turn) / (2 * π)⌋ - ⌊((0 + i * ((2 * π - 0) / (raSteps step dec - 1))) + turn) / (2 * π)⌋ : ℤ) : ℝ) =
        wrap (ra - turn) - i * (2 * π / (raSteps step dec - 1)) := by
      unfold wrap
      push_cast
      ring
    dsimp only
    rw [e]
    refine hd.trans (le_of_eq ?_)
    field_simp

theorem north_mem {step : ℝ} {turn : ℕ → ℝ} {i : ℕ} (h : i < decSteps step) {f : Field}
    (hf : f ∈ stripe step (turn i) (0 + i * ((π / 2 - 0) / (decSteps step - 1)))) : f ∈ north step turn := by
  refine List.mem_flatMap.2 ⟨(_, i), ?_, hf⟩
  rw [List.mem_zipIdx_iff_getElem?]
  simp only [linspace, List.getElem?_map, List.getElem?_range h, Option.map_some]

/-- Declinations of the stripes: their number and spacing. -/
theorem dec_spacing {step : ℝ} (h0 : 0 < step) (h1 : step < π / 2) :
    2 ≤ decSteps step ∧ step < π / 2 / ((decSteps step : ℝ) - 1) ∧ π / 2 / step ≤ decSteps step := by
  have hp := pi_pos
  have hpos : 1 < π / 2 / step := by rw [lt_div_iff₀ h0]; linarith
  have hc : 0 ≤ ⌈π / 2 / step⌉ := Int.ceil_nonneg (by linarith)
  have hz : ((decSteps step : ℕ) : ℤ) = ⌈π / 2 / step⌉ := Int.toNat_of_nonneg hc
  have hq : ((decSteps step : ℕ) : ℝ) = (⌈π / 2 / step⌉ : ℝ) := by exact_mod_cast hz
  have a := Int.le_ceil (π / 2 / step)
  have b := Int.ceil_lt_add_one (π / 2 / step)
  have h2 : 2 ≤ decSteps step := by
    have : (1 : ℝ) < decSteps step := by rw [hq]; linarith
    have : 1 < decSteps step := by exact_mod_cast this
    omega
  refine ⟨h2, ?_, by rw [hq]; exact a⟩
  have h3 : (0 : ℝ) < (decSteps step : ℝ) - 1 := by
    have : (2 : ℝ) ≤ decSteps step := by exact_mod_cast h2
    linarith
  rw [lt_div_iff₀ h3]
  have : (decSteps step : ℝ) - 1 < π / 2 / step := by rw [hq]; linarith
  rw [lt_div_iff₀ h0] at this
  linarith

theorem ra_count {step dec c : ℝ} (h0 : 0 < step) (hc : c ≤ circum step dec) : c / step ≤ raSteps step dec := by
  have h1 : c / step ≤ circum step dec / step := div_le_div_of_nonneg_right hc h0.le
  have h2 := Int.le_ceil (circum step dec / step)
  have h3 : (⌈circum step dec / step⌉ : ℝ) ≤ ((⌈circum step dec / step⌉.toNat : ℕ) : ℝ) := by
    exact_mod_cast Int.self_le_toNat _
  unfold raSteps
  linarith

/-- A stripe is dense enough on the parallels it has to cover. -/
theorem stripe_dense {side overlap dec C : ℝ} (h0 : 0 < side - overlap) (hs : 0 < side) (hC : 2 * π * C ≤ circum (side - overlap) dec)
    (hwide : side * (side - overlap) ≤ 2 * π * C * overlap) (hCpos : 0 < C) (hov : 0 < overlap) :
    2 ≤ raSteps (side - overlap) dec ∧ π / (raSteps (side - overlap) dec - 1) * C ≤ side / 2 := by
  have hp := pi_pos
  set step := side - overlap with hstep
  have hn := ra_count h0 hC
  have h1 : side - overlap < 2 * π * C := by
    by_contra hcon
    push Not at hcon
    have : 2 * π * C * overlap ≤ step * overlap := mul_le_mul_of_nonneg_right hcon hov.le
    nlinarith
  have hgt : 1 < 2 * π * C / step := by rw [lt_div_iff₀ h0]; linarith
  have hn1 : (1 : ℝ) < raSteps step dec := by linarith
  refine ⟨by have : 1 < raSteps step dec := by exact_mod_cast hn1
             omega, ?_⟩
  rw [div_mul_eq_mul_div, div_le_iff₀ (by linarith)]
  have h2 : 2 * π * C / step - 1 ≤ (raSteps step dec : ℝ) - 1 := by linarith
  have h3 : side / 2 * (2 * π * C / step - 1) ≤ side / 2 * ((raSteps step dec : ℝ) - 1) := mul_le_mul_of_nonneg_left h2 (by linarith)
  refine le_trans ?_ h3
  have e : side / 2 * (2 * π * C / step - 1) = (side * (2 * π * C) - side * step) / (2 * step) := by field_simp
  rw [e, le_div_iff₀ (by linarith)]
  have : side = step + overlap := by rw [hstep]; ring
  nlinarith

/-- What the sizes have to be: an eighth of a side of overlap, and a side of at most 11.25 degrees. -/
structure Sizes (side overlap : ℝ) : Prop where
  eighth : side / 8 ≤ overlap
  less : overlap < side
  small : side ≤ π / 16

theorem Sizes.spacing {side overlap : ℝ} (h : Sizes side overlap) :
    π / 2 / ((decSteps (side - overlap) : ℝ) - 1) ≤ side ∧ π / 2 / ((decSteps (side - overlap) : ℝ) - 1) ≤ 2 * (side - overlap) := by
  have hp := pi_pos
  obtain ⟨h1, h2, h3⟩ := h
  have hst : 0 < side - overlap := by linarith
  have hs : 0 < side := by linarith
  obtain ⟨n2, -, n3⟩ := dec_spacing (step := side - overlap) hst (by linarith)
  have hn : (0 : ℝ) < (decSteps (side - overlap) : ℝ) - 1 := by
    have : (2 : ℝ) ≤ decSteps (side - overlap) := by exact_mod_cast n2
    linarith
  rw [div_le_iff₀ hst] at n3
  constructor
  · rw [div_le_iff₀ hn]
    have e1 : side * (side - overlap) ≤ π / 2 * overlap := by
      have : side * (side - overlap) ≤ side * (π / 16) := mul_le_mul_of_nonneg_left (by linarith) hs.le
      nlinarith
    have e2 : side * ((side - overlap) * (decSteps (side - overlap) : ℝ)) ≥ side * (π / 2) := mul_le_mul_of_nonneg_left (by linarith) hs.le
    have e3 : (side - overlap) * (π / 2) ≤ (side - overlap) * (side * ((decSteps (side - overlap) : ℝ) - 1)) := by nlinarith
    exact le_of_mul_le_mul_left e3 hst
  · rw [div_le_iff₀ hn]
    nlinarith

theorem Sizes.dense {side overlap : ℝ} (h : Sizes side overlap) {i : ℕ} (hi : i < decSteps (side - overlap)) {a : ℝ} (ha0 : 0 ≤ a)
    (ha1 : a ≤ π / 2) (hd : |a - i * (π / 2 / ((decSteps (side - overlap) : ℝ) - 1))| ≤ π / 2 / ((decSteps (side - overlap) : ℝ) - 1) / 2)
    (turn ra : ℝ) :
    ∃ f ∈ stripe (side - overlap) turn (0 + i * ((π / 2 - 0) / ((decSteps (side - overlap) : ℝ) - 1))),
      f.dec = i * (π / 2 / ((decSteps (side - overlap) : ℝ) - 1)) ∧ ∃ k : ℤ, |ra - f.ra + 2 * π * k| * cos a ≤ side / 2 := by
  have hp := pi_pos
  obtain ⟨s1, s2⟩ := h.spacing
  obtain ⟨h1, h2, h3⟩ := h
  have hst : 0 < side - overlap := by linarith
  have hs : 0 < side := by linarith
  have hov : 0 < overlap := by linarith
  obtain ⟨n2, n1, -⟩ := dec_spacing (step := side - overlap) hst (by linarith)
  have hn : (0 : ℝ) < (decSteps (side - overlap) : ℝ) - 1 := by
    have : (2 : ℝ) ≤ decSteps (side - overlap) := by exact_mod_cast n2
    linarith
  have hcos : 0 ≤ cos a := cos_nonneg_of_neg_pi_div_two_le_of_le (by linarith) ha1
  rw [zero_add, sub_zero]
  set s := π / 2 / ((decSteps (side - overlap) : ℝ) - 1) with hsdef
  have htop : ((decSteps (side - overlap) : ℝ) - 1) * s = π / 2 := by rw [hsdef]; field_simp
  rw [abs_le] at hd
  -- a bound on the cosines is enough
  have main : ∀ C, cos a ≤ C → 0 < C → 2 * π * C ≤ circum (side - overlap) (i * s) → side * (side - overlap) ≤ 2 * π * C * overlap →
      ∃ f ∈ stripe (side - overlap) turn (i * s), f.dec = i * s ∧ ∃ k : ℤ, |ra - f.ra + 2 * π * k| * cos a ≤ side / 2 := by
    intro C c1 c2 c3 c4
    obtain ⟨m2, m3⟩ := stripe_dense hst hs c3 c4 c2 hov
    obtain ⟨f, hf, fd, k, hk⟩ := stripe_near (turn := turn) m2 ra
    refine ⟨f, hf, fd, k, le_trans ?_ m3⟩
    exact mul_le_mul hk c1 hcos (le_trans (abs_nonneg _) hk)
  rcases Nat.eq_zero_or_pos i with hi0 | hi0
  · subst hi0
    refine main 1 (cos_le_one a) one_pos ?_ ?_
    · unfold circum
      refine le_trans ?_ (le_max_left _ _)
      refine le_trans ?_ (le_max_right _ _)
      simp
    · have : side * (side - overlap) ≤ side * (π / 16) := mul_le_mul_of_nonneg_left (by linarith) hs.le
      nlinarith
  have hi1 : (1 : ℝ) ≤ i := by exact_mod_cast hi0
  have hsi : s ≤ i * s := by nlinarith
  rcases Nat.lt_or_ge i (decSteps (side - overlap) - 1) with hlt | hge
  · -- between the equator and the pole
    have hi2 : (i : ℝ) + 1 ≤ (decSteps (side - overlap) : ℝ) - 1 := by
      have : i + 2 ≤ decSteps (side - overlap) := by omega
      have : ((i + 2 : ℕ) : ℝ) ≤ decSteps (side - overlap) := by exact_mod_cast this
      push_cast at this
      linarith
    have hup : i * s + s ≤ π / 2 := by
      have : ((i : ℝ) + 1) * s ≤ ((decSteps (side - overlap) : ℝ) - 1) * s := mul_le_mul_of_nonneg_right hi2 (by linarith)
      rw [htop] at this
      linarith
    have hlow : 4 / π * (side - overlap) ≤ cos (i * s - (side - overlap)) := by
      have e1 : sin (s + (side - overlap)) ≤ cos (i * s - (side - overlap)) := by
        rw [← cos_pi_div_two_sub]
        exact cos_le_cos_of_nonneg_of_le_pi (by linarith) (by linarith) (by linarith)
      refine le_trans ?_ e1
      refine le_trans ?_ (mul_le_sin (by linarith) (by linarith))
      rw [div_mul_eq_mul_div, div_mul_eq_mul_div]
      exact div_le_div_of_nonneg_right (by linarith) hp.le
    have hpos : 0 < 4 / π * (side - overlap) := by positivity
    refine main (cos (i * s - (side - overlap))) ?_ (by linarith) ?_ ?_
    · exact cos_le_cos_of_nonneg_of_le_pi (by linarith) (by linarith) (by linarith)
    · unfold circum
      refine le_trans ?_ (le_max_left _ _)
      refine le_trans (le_of_eq ?_) (le_max_left _ _)
      congr 2; ring
    · have e1 : 2 * π * (4 / π * (side - overlap)) * overlap ≤ 2 * π * cos (i * s - (side - overlap)) * overlap := by
        refine mul_le_mul_of_nonneg_right ?_ hov.le
        exact mul_le_mul_of_nonneg_left hlow (by linarith)
      have e2 : 2 * π * (4 / π * (side - overlap)) * overlap = 8 * (side - overlap) * overlap := by field_simp; ring
      rw [e2] at e1
      refine le_trans ?_ e1
      nlinarith
  · -- the pole
    have hie : (i : ℝ) = (decSteps (side - overlap) : ℝ) - 1 := by
      have : i = decSteps (side - overlap) - 1 := by omega
      rw [this, Nat.cast_sub (by omega)]; simp
    have hpole : i * s = π / 2 := by rw [hie, htop]
    rw [hpole] at hd ⊢
    have c1 : 2 * π * sin (side - overlap) ≤ circum (side - overlap) (π / 2) := by
      unfold circum
      refine le_trans ?_ (le_max_left _ _)
      refine le_trans (le_of_eq ?_) (le_max_left _ _)
      rw [← cos_pi_div_two_sub]
      congr 2; ring
    have c2 := ra_count hst c1
    have c3 : 4 < 2 * π * sin (side - overlap) / (side - overlap) := by
      rw [lt_div_iff₀ hst]
      have := mul_lt_sin hst (by linarith)
      have e : 4 * (side - overlap) = 2 * π * (2 / π * (side - overlap)) := by field_simp; ring
      rw [e]
      exact mul_lt_mul_of_pos_left this (by linarith)
    have c4 : 5 ≤ raSteps (side - overlap) (π / 2) := by
      have : (4 : ℝ) < raSteps (side - overlap) (π / 2) := by linarith
      have : 4 < raSteps (side - overlap) (π / 2) := by exact_mod_cast this
      omega
    obtain ⟨f, hf, fd, k, hk⟩ := stripe_near (turn := turn) (step := side - overlap) (dec := π / 2) (by omega) ra
    refine ⟨f, hf, fd, k, ?_⟩
    have c5 : (5 : ℝ) ≤ raSteps (side - overlap) (π / 2) := by exact_mod_cast c4
    have h4 : π / ((raSteps (side - overlap) (π / 2) : ℝ) - 1) ≤ 1 := by
      rw [div_le_one (by linarith)]
      have := pi_le_four
      linarith
    have h5 : cos a ≤ side / 2 := by
      rw [← sin_pi_div_two_sub]
      have := sin_le (x := π / 2 - a) (by linarith)
      linarith
    calc |ra - f.ra + 2 * π * k| * cos a ≤ 1 * cos a := mul_le_mul_of_nonneg_right (by linarith) hcos
      _ ≤ side / 2 := by linarith

/-- C195. With an overlap of at least an eighth of the side, and a side of at most 11.25 degrees,
the squares cover the whole sky, whatever the rotation of the stripes. -/
theorem C195_covers_partial {side overlap : ℝ} (h : Sizes side overlap) (turn : ℕ → ℝ) (ra : ℝ) {dec : ℝ} (h0 : -(π / 2) ≤ dec)
    (h1 : dec ≤ π / 2) : ∃ f ∈ tessellate side overlap turn, SquareCovers side f ra dec := by
  have hp := pi_pos
  obtain ⟨s1, -⟩ := h.spacing
  have hst : 0 < side - overlap := by linarith [h.less]
  have hs : 0 < side := by linarith [h.eighth, h.less]
  obtain ⟨n2, n1, -⟩ := dec_spacing (step := side - overlap) hst (by linarith [h.small, h.eighth])
  have hn : (0 : ℝ) < (decSteps (side - overlap) : ℝ) - 1 := by
    have : (2 : ℝ) ≤ decSteps (side - overlap) := by exact_mod_cast n2
    linarith
  have ha1 : |dec| ≤ π / 2 := abs_le.2 ⟨h0, h1⟩
  obtain ⟨i, hi, hd⟩ := nearest_step (m := decSteps (side - overlap) - 1) (h := π / 2 / ((decSteps (side - overlap) : ℝ) - 1)) (v := |dec|)
    (by linarith) (abs_nonneg _) (by
      rw [Nat.cast_sub (by omega), Nat.cast_one, mul_div_cancel₀ _ (by linarith)]
      exact ha1)
  have hi' : i < decSteps (side - overlap) := by omega
  have key := fun ra => h.dense hi' (abs_nonneg dec) ha1 hd (turn i) ra
  rw [cos_abs] at key
  by_cases hcase : 0 ≤ dec ∨ i = 0
  · -- a field of the north
    obtain ⟨f, hf, fd, k, hk⟩ := key ra
    refine ⟨f, List.mem_append_left _ (north_mem hi' hf), ?_, k, hk⟩
    rw [fd]
    rcases hcase with hc | hc
    · rw [abs_of_nonneg hc] at hd
      linarith
    · subst hc
      rw [Nat.cast_zero, zero_mul, sub_zero, abs_abs] at hd
      rw [Nat.cast_zero, zero_mul, sub_zero]
      linarith
  · push Not at hcase
    obtain ⟨f, hf, fd, k, hk⟩ := key (-ra)
    have hpos : 0 < f.dec := by
      rw [fd]
      have : (0 : ℝ) < i := by exact_mod_cast Nat.pos_of_ne_zero hcase.2
      have : 0 < π / 2 / ((decSteps (side - overlap) : ℝ) - 1) := by linarith
      positivity
    refine ⟨mirror f, List.mem_append_right _ (List.mem_map.2 ⟨f, List.mem_filter.2 ⟨north_mem hi' hf, by simpa using hpos⟩, rfl⟩), ?_,
      -k - ⌊(-1 * f.ra) / (2 * π)⌋, ?_⟩
    · unfold mirror
      dsimp only
      rw [abs_of_neg hcase.1, ← fd] at hd
      have e : dec - -1 * f.dec = -(-dec - f.dec) := by ring
      rw [e, abs_neg]
      linarith
    · unfold mirror wrap
      dsimp only
      have e : ra - (-1 * f.ra - 2 * π * ⌊(-1 * f.ra) / (2 * π)⌋) + 2 * π * ((-k - ⌊(-1 * f.ra) / (2 * π)⌋ : ℤ) : ℝ) =
          -(-ra - f.ra + 2 * π * k) := by
        push_cast; ring
      rw [e, abs_neg]
      exact hk

/-- The default sizes, 0.7 and 0.11 degrees, are such. -/
example : Sizes (7 / 10 * (π / 180)) (11 / 100 * (π / 180)) := by
  have hp := pi_pos
  constructor <;> linarith

theorem north_dec {step : ℝ} {turn : ℕ → ℝ} {f : Field} (h : f ∈ north step turn) :
    (∃ i : ℕ, i < decSteps step ∧ f.dec = i * (π / 2 / ((decSteps step : ℝ) - 1))) ∧ ∃ x, f.ra = wrap x := by
  obtain ⟨q, hq, hf⟩ := List.mem_flatMap.1 h
  obtain ⟨x, hx, rfl⟩ := List.mem_map.1 hf
  obtain ⟨d, hd⟩ : ∃ d, q.1 = d := ⟨_, rfl⟩
  have hq' : q.1 ∈ linspace 0 (π / 2) (decSteps step) := (List.mem_zipIdx' hq).2 ▸ List.getElem_mem _
  obtain ⟨i, hi, e⟩ := List.mem_map.1 hq'
  refine ⟨⟨i, List.mem_range.1 hi, ?_⟩, _, rfl⟩
  dsimp only
  rw [← e]
  ring

/-- C195 is violated without overlap, for every side: there is a parallel no square reaches. -/
theorem C195_gap_violated {side : ℝ} (h0 : 0 < side) (h1 : side < π / 2) : ∃ dec, 0 ≤ dec ∧ dec ≤ π / 2 ∧
    ∀ (turn : ℕ → ℝ) (ra : ℝ), ∀ f ∈ tessellate side 0 turn, ¬ SquareCovers side f ra dec := by
  have hp := pi_pos
  obtain ⟨n2, n1, -⟩ := dec_spacing (step := side) h0 h1
  have hn : (1 : ℝ) ≤ (decSteps side : ℝ) - 1 := by
    have : (2 : ℝ) ≤ decSteps side := by exact_mod_cast n2
    linarith
  set s := π / 2 / ((decSteps side : ℝ) - 1) with hs
  have hle : s ≤ π / 2 := by rw [hs]; exact div_le_self (by linarith) hn
  refine ⟨s / 2, by linarith, by linarith, ?_⟩
  intro turn ra f hf hc
  have hc1 := hc.1
  rw [abs_le] at hc1
  have far : ∀ i : ℕ, |s / 2 - i * s| ≤ side / 2 → False := by
    intro i hi
    rw [abs_le] at hi
    rcases Nat.eq_zero_or_pos i with h | h
    · subst h
      rw [Nat.cast_zero, zero_mul] at hi
      linarith
    · have : (1 : ℝ) ≤ i := by exact_mod_cast h
      nlinarith
  unfold tessellate at hf
  rw [sub_zero] at hf
  rcases List.mem_append.1 hf with hf | hf
  · obtain ⟨⟨i, -, e⟩, -⟩ := north_dec hf
    exact far i (by rw [← e]; exact hc.1)
  · obtain ⟨g, hg, rfl⟩ := List.mem_map.1 hf
    obtain ⟨⟨i, -, e⟩, -⟩ := north_dec (List.mem_filter.1 hg).1
    have : 0 ≤ g.dec := by rw [e]; exact mul_nonneg (Nat.cast_nonneg _) (by linarith)
    unfold mirror at hc1
    dsimp only at hc1
    linarith

/-- C195. All fields are on the sky, and each field off the equator has its mirror image on the
other side. -/
theorem C195_fields {side overlap : ℝ} (h0 : 0 < side - overlap) (h1 : side - overlap < π / 2) (turn : ℕ → ℝ) :
    ∀ f ∈ tessellate side overlap turn, (0 ≤ f.ra ∧ f.ra < 2 * π) ∧ |f.dec| ≤ π / 2 ∧
      (f.dec ≠ 0 → ∃ g ∈ tessellate side overlap turn, g.dec = -f.dec ∧ ∃ k : ℤ, g.ra = -f.ra + 2 * π * k) := by
  have hp := pi_pos
  obtain ⟨n2, n1, -⟩ := dec_spacing (step := side - overlap) h0 h1
  have hn : (1 : ℝ) ≤ (decSteps (side - overlap) : ℝ) - 1 := by
    have : (2 : ℝ) ≤ decSteps (side - overlap) := by exact_mod_cast n2
    linarith
  have hdec : ∀ g ∈ north (side - overlap) turn, 0 ≤ g.dec ∧ g.dec ≤ π / 2 := by
    intro g hg
    obtain ⟨⟨i, hi, e⟩, -⟩ := north_dec hg
    have hi' : (i : ℝ) ≤ (decSteps (side - overlap) : ℝ) - 1 := by
      have : ((i + 1 : ℕ) : ℝ) ≤ decSteps (side - overlap) := by exact_mod_cast hi
      push_cast at this
      linarith
    rw [e]
    refine ⟨mul_nonneg (Nat.cast_nonneg _) (by linarith), ?_⟩
    have : (i : ℝ) * (π / 2 / ((decSteps (side - overlap) : ℝ) - 1)) ≤
        ((decSteps (side - overlap) : ℝ) - 1) * (π / 2 / ((decSteps (side - overlap) : ℝ) - 1)) := mul_le_mul_of_nonneg_right hi' (by linarith)
    rwa [mul_div_cancel₀ _ (by linarith)] at this
  intro f hf
  unfold tessellate at hf
  rcases List.mem_append.1 hf with hf | hf
  · obtain ⟨d0, d1⟩ := hdec f hf
    obtain ⟨-, x, hx⟩ := north_dec hf
    refine ⟨hx ▸ tess_wrap_range x, abs_le.2 ⟨by linarith, d1⟩, fun hne => ?_⟩
    refine ⟨mirror f, List.mem_append_right _ (List.mem_map.2 ⟨f, List.mem_filter.2 ⟨hf, ?_⟩, rfl⟩), ?_, -⌊(-1 * f.ra) / (2 * π)⌋, ?_⟩
    · simpa using lt_of_le_of_ne d0 (Ne.symm hne)
    · unfold mirror; ring
    · unfold mirror wrap
      push_cast; ring
  · obtain ⟨g, hg, rfl⟩ := List.mem_map.1 hf
    have hg' := (List.mem_filter.1 hg).1
    obtain ⟨d0, d1⟩ := hdec g hg'
    refine ⟨tess_wrap_range _, ?_, fun _ => ⟨g, List.mem_append_left _ hg', ?_, -⌊(-1 * g.ra) / (2 * π)⌋, ?_⟩⟩
    · unfold mirror
      dsimp only
      rw [neg_one_mul, abs_neg]
      exact abs_le.2 ⟨by linarith, d1⟩
    · unfold mirror; ring
    · unfold mirror wrap
      push_cast; ring

/-- C195 is violated by the number of fields: the first and the last field of a stripe are one. -/
theorem C195_twice_violated {side overlap : ℝ} (h0 : 0 < side - overlap) (h1 : side - overlap < π / 2) (turn : ℕ → ℝ) :
    ¬ (tessellate side overlap turn).Nodup := by
  have hp := pi_pos
  obtain ⟨n2, -, -⟩ := dec_spacing (step := side - overlap) h0 h1
  intro hnd
  have hnorth : (north (side - overlap) turn).Nodup := by
    unfold tessellate at hnd
    exact (List.nodup_append.1 hnd).1
  have hstripe : (stripe (side - overlap) (turn 0) 0).Nodup := by
    unfold north at hnorth
    refine (List.nodup_flatMap.1 hnorth).1 (0, 0) ?_
    rw [List.mem_zipIdx_iff_getElem?]
    simp [linspace, List.getElem?_range (show 0 < decSteps (side - overlap) by omega)]
  have hc : 2 * π ≤ circum (side - overlap) 0 := by
    unfold circum
    refine le_trans ?_ (le_max_left _ _)
    refine le_trans ?_ (le_max_right _ _)
    simp
  have hn := ra_count h0 hc
  have hgt : 1 < 2 * π / (side - overlap) := by rw [lt_div_iff₀ h0]; linarith
  have hn1 : (1 : ℝ) < raSteps (side - overlap) 0 := by linarith
  have hn2 : 1 < raSteps (side - overlap) 0 := by exact_mod_cast hn1
  unfold stripe linspace at hstripe
  rw [List.map_map] at hstripe
  have := List.inj_on_of_nodup_map hstripe (List.mem_range.2 (show 0 < raSteps (side - overlap) 0 by omega))
    (List.mem_range.2 (show raSteps (side - overlap) 0 - 1 < raSteps (side - overlap) 0 by omega)) (by
      simp only [Function.comp]
      rw [Nat.cast_sub (by omega), Nat.cast_one, mul_div_cancel₀ _ (by linarith)]
      congr 1
      unfold wrap
      have e : ((0 + (2 * π - 0)) + turn 0) / (2 * π) = (0 + ((0 : ℕ) : ℝ) * ((2 * π - 0) / ((raSteps (side - overlap) 0 : ℝ) - 1)) + turn 0) / (2 * π) + 1 := by
        push_cast
        field_simp
        ring
      rw [e, Int.floor_add_one]
      push_cast
      ring)
  omega

end Verif
