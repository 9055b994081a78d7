import Verif.Model.Depth
import Mathlib.Tactic.Linarith
import Mathlib.Tactic.Positivity
import Mathlib.Tactic.FieldSimp
import Mathlib.Tactic.NormNum

/-!
Properties C87 (delivered image quality) and C88 (depth).
-/

namespace Verif

open Depth

/-! ### C87 -/

/-- **C87, conversions.** The two measures of image quality determine each other. -/
theorem C87_inverse (x : ℝ) : geomToEff (effToGeom x) = x ∧ effToGeom (geomToEff x) = x := by
  unfold geomToEff effToGeom
  constructor <;> field_simp <;> ring

/-- Image quality gets no better with worse seeing, at higher airmass or at shorter wavelength. -/
theorem fwhmEff_mono {sys raw w w' z z' x x' : ℝ} (hs : 0 ≤ sys) (hr : 0 ≤ raw) (hw : 0 < w') (hww : w' ≤ w)
    (hz : 0 ≤ z) (hzz : z ≤ z') (hx : 0 ≤ x) (hxx : x ≤ x') : fwhmEff sys raw w z x ≤ fwhmEff sys raw w' z' x' := by
  unfold fwhmEff
  dsimp only
  have a1 : x ^ (0.6 : ℝ) ≤ x' ^ (0.6 : ℝ) := Real.rpow_le_rpow hx hxx (by norm_num)
  have a0 : 0 ≤ x ^ (0.6 : ℝ) := Real.rpow_nonneg hx _
  have b1 : (raw / w) ^ (0.3 : ℝ) ≤ (raw / w') ^ (0.3 : ℝ) :=
    Real.rpow_le_rpow (div_nonneg hr (by linarith)) (div_le_div_of_nonneg_left hr hw hww) (by norm_num)
  have b0 : 0 ≤ (raw / w) ^ (0.3 : ℝ) := Real.rpow_nonneg (div_nonneg hr (by linarith)) _
  have c1 : sys * x ^ (0.6 : ℝ) ≤ sys * x' ^ (0.6 : ℝ) := mul_le_mul_of_nonneg_left a1 hs
  have c0 : 0 ≤ sys * x ^ (0.6 : ℝ) := mul_nonneg hs a0
  have d1 : z * (raw / w) ^ (0.3 : ℝ) ≤ z' * (raw / w') ^ (0.3 : ℝ) := mul_le_mul hzz b1 b0 (le_trans hz hzz)
  have d0 : 0 ≤ z * (raw / w) ^ (0.3 : ℝ) := mul_nonneg hz b0
  have e1 : z * (raw / w) ^ (0.3 : ℝ) * x ^ (0.6 : ℝ) ≤ z' * (raw / w') ^ (0.3 : ℝ) * x' ^ (0.6 : ℝ) := mul_le_mul d1 a1 a0 (le_trans d0 d1)
  have e0 : 0 ≤ z * (raw / w) ^ (0.3 : ℝ) * x ^ (0.6 : ℝ) := mul_nonneg d0 a0
  apply mul_le_mul_of_nonneg_left _ (by norm_num)
  apply Real.sqrt_le_sqrt
  have f1 := pow_le_pow_left₀ c0 c1 2
  have f2 := pow_le_pow_left₀ e0 e1 2
  linarith

/-- **C87.** Worse seeing, higher airmass or shorter wavelength never improve the image quality, in either
measure; it is never better than that of the system alone. -/
theorem C87_monotone {sys raw w w' z z' x x' : ℝ} (hs : 0 ≤ sys) (hr : 0 ≤ raw) (hw : 0 < w') (hww : w' ≤ w)
    (hz : 0 ≤ z) (hzz : z ≤ z') (hx : 1 ≤ x) (hxx : x ≤ x') :
    fwhmEff sys raw w z x ≤ fwhmEff sys raw w' z' x' ∧ fwhmGeom sys raw w z x ≤ fwhmGeom sys raw w' z' x' ∧
    1.16 * sys ≤ fwhmEff sys raw w z x := by
  have h := fwhmEff_mono hs hr hw hww hz hzz (by linarith) hxx
  refine ⟨h, ?_, ?_⟩
  · unfold fwhmGeom effToGeom; linarith
  · have := fwhmEff_mono (sys := sys) (raw := raw) (w := w) (w' := w) (z := 0) (z' := z) (x := 1) (x' := x) hs hr (by linarith) le_rfl le_rfl hz (by norm_num) hx
    refine le_trans (le_of_eq ?_) this
    unfold fwhmEff
    simp only [Real.one_rpow, mul_one, zero_mul, ne_eq, OfNat.ofNat_ne_zero, not_false_eq_true, zero_pow, mul_zero, add_zero]
    rw [Real.sqrt_sq hs]

/-- **C87, system.** The quality of the system is at zenith never better than that of the telescope, the optics or the camera alone, worsens with each of them, and
is that of one of them when the others are perfect. -/
theorem C87_system {t o c t' o' c' : ℝ} (ht : 0 ≤ t) (ho : 0 ≤ o) (hc : 0 ≤ c) (h1 : t ≤ t') (h2 : o ≤ o') (h3 : c ≤ c') :
    t ≤ system t o c ∧ o ≤ system t o c ∧ c ≤ system t o c ∧ system t o c ≤ system t' o' c' ∧ system t 0 0 = t ∧ system 0 o 0 = o ∧ system 0 0 c = c := by
  unfold system
  refine ⟨Real.le_sqrt_of_sq_le (by nlinarith [sq_nonneg o, sq_nonneg c]), Real.le_sqrt_of_sq_le (by nlinarith [sq_nonneg t, sq_nonneg c]),
    Real.le_sqrt_of_sq_le (by nlinarith [sq_nonneg o, sq_nonneg t]), Real.sqrt_le_sqrt ?_, ?_, ?_, ?_⟩
  · have f1 := pow_le_pow_left₀ ht h1 2
    have f2 := pow_le_pow_left₀ ho h2 2
    have f3 := pow_le_pow_left₀ hc h3 2
    linarith
  · simpa using Real.sqrt_sq ht
  · simpa using Real.sqrt_sq ho
  · simpa using Real.sqrt_sq hc

/-- The default contributions: 0.25, 0.08 and 0.3 arc seconds. -/
example : (0.3 : ℝ) ≤ system 0.25 0.08 0.3 := (C87_system (by norm_num) (by norm_num) (by norm_num) le_rfl le_rfl le_rfl).2.2.1

/-- **C87, airmass.** The image quality is that at zenith times the airmass to the power 0.6. -/
theorem C87_airmass (sys raw w z x : ℝ) (hx : 0 ≤ x) : fwhmEff sys raw w z x = fwhmEff sys raw w z 1 * x ^ (0.6 : ℝ) := by
  unfold fwhmEff
  dsimp only
  rw [Real.one_rpow, mul_one, mul_one]
  have h0 : 0 ≤ x ^ (0.6 : ℝ) := Real.rpow_nonneg hx _
  have : (sys * x ^ (0.6 : ℝ)) ^ 2 + 1.04 * (z * (raw / w) ^ (0.3 : ℝ) * x ^ (0.6 : ℝ)) ^ 2 =
      (sys ^ 2 + 1.04 * (z * (raw / w) ^ (0.3 : ℝ)) ^ 2) * (x ^ (0.6 : ℝ)) ^ 2 := by ring
  rw [this, Real.sqrt_mul (by positivity), Real.sqrt_sq h0]
  ring

/-- In the band of the measured seeing at zenith: a system of 3 and seeing 4 (squares 9 and 16.64). -/
example : fwhmEff 3 500 500 4 1 = 1.16 * Real.sqrt 25.64 ∧ (1 : ℝ) ≤ 2 ∧ fwhmEff 3 500 500 4 1 ≤ fwhmEff 3 500 500 4 2 := by
  refine ⟨?_, by norm_num, ?_⟩
  · unfold fwhmEff; norm_num
  · exact (C87_monotone (by norm_num) (by norm_num) (by norm_num) le_rfl (by norm_num) le_rfl le_rfl (by norm_num)).1

/-! ### C88 -/

theorem logb10_mono {x y : ℝ} (hx : 0 < x) (h : x ≤ y) : Real.logb 10 x ≤ Real.logb 10 y :=
  (Real.logb_le_logb (by norm_num) hx (lt_of_lt_of_le hx h)).2 h

/-- The part of the depth that depends on the sky brightness and the exposure time: it is the
logarithm of `u / (1 + A / u)` in the time `u` and of `y / (1 + A y)` in the brightness. -/
theorem single_eq (b : Band) (hb : 0 < b.baseExptime) (hd : 0 ≤ b.dCmInfinity) (musky fwhm exptime airmass cloud : ℝ) (ht : 0 < exptime) :
    single b musky fwhm exptime airmass cloud =
      b.cm + b.dCmInfinity + 0.5 * (b.darkSky - 21) + 2.5 * Real.logb 10 (0.7 / fwhm) - b.kAtm * (airmass - 1) - 1.1 * cloud +
      1.25 * Real.logb 10 (exptime / 30 * (10 : ℝ) ^ (0.4 * (musky - b.darkSky)) /
        (1 + ((10 : ℝ) ^ (0.8 * b.dCmInfinity) - 1) * b.baseExptime / exptime * (10 : ℝ) ^ (0.4 * (musky - b.darkSky)))) := by
  have hA : 0 ≤ (10 : ℝ) ^ (0.8 * b.dCmInfinity) - 1 := by
    have : (1 : ℝ) ≤ (10 : ℝ) ^ (0.8 * b.dCmInfinity) := Real.one_le_rpow (by norm_num) (by positivity)
    linarith
  have hy : 0 < (10 : ℝ) ^ (0.4 * (musky - b.darkSky)) := by positivity
  have hneg : (10 : ℝ) ^ (-0.4 * (musky - b.darkSky)) = ((10 : ℝ) ^ (0.4 * (musky - b.darkSky)))⁻¹ := by
    rw [← Real.rpow_neg (by norm_num)]; congr 1; ring
  have hlog : Real.logb 10 ((10 : ℝ) ^ (0.4 * (musky - b.darkSky))) = 0.4 * (musky - b.darkSky) :=
    Real.logb_rpow (by norm_num) (by norm_num)
  have harg : ((10 : ℝ) ^ (0.8 * b.dCmInfinity) - 1) / (exptime / b.baseExptime * ((10 : ℝ) ^ (0.4 * (musky - b.darkSky)))⁻¹) =
      ((10 : ℝ) ^ (0.8 * b.dCmInfinity) - 1) * b.baseExptime / exptime * (10 : ℝ) ^ (0.4 * (musky - b.darkSky)) := by
    field_simp
  have hden : 0 < 1 + ((10 : ℝ) ^ (0.8 * b.dCmInfinity) - 1) * b.baseExptime / exptime * (10 : ℝ) ^ (0.4 * (musky - b.darkSky)) := by
    have : 0 ≤ ((10 : ℝ) ^ (0.8 * b.dCmInfinity) - 1) * b.baseExptime / exptime * (10 : ℝ) ^ (0.4 * (musky - b.darkSky)) := by positivity
    linarith
  unfold single
  dsimp only
  rw [hneg, harg, Real.logb_div (by positivity) hden.ne', Real.logb_mul (by positivity) hy.ne', hlog]
  ring

/-- A visit is at least as deep with a darker sky (a larger magnitude), sharper images, a longer exposure, at lower airmass and with
less cloud. -/
theorem single_mono (b : Band) (hb : 0 < b.baseExptime) (hd : 0 ≤ b.dCmInfinity) (hk : 0 ≤ b.kAtm) {m m' f f' t t' x x' c c' : ℝ}
    (hm : m ≤ m') (hf0 : 0 < f') (hf : f' ≤ f) (ht0 : 0 < t) (ht : t ≤ t') (hx : x' ≤ x) (hc : c' ≤ c) :
    single b m f t x c ≤ single b m' f' t' x' c' := by
  rw [single_eq b hb hd m f t x c ht0, single_eq b hb hd m' f' t' x' c' (lt_of_lt_of_le ht0 ht)]
  have hA : 0 ≤ (10 : ℝ) ^ (0.8 * b.dCmInfinity) - 1 := by
    have : (1 : ℝ) ≤ (10 : ℝ) ^ (0.8 * b.dCmInfinity) := Real.one_le_rpow (by norm_num) (by positivity)
    linarith
  have hy : 0 < (10 : ℝ) ^ (0.4 * (m - b.darkSky)) := by positivity
  have hyy : (10 : ℝ) ^ (0.4 * (m - b.darkSky)) ≤ (10 : ℝ) ^ (0.4 * (m' - b.darkSky)) :=
    Real.rpow_le_rpow_of_exponent_le (by norm_num) (by linarith)
  generalize (10 : ℝ) ^ (0.4 * (m - b.darkSky)) = y at *
  generalize (10 : ℝ) ^ (0.4 * (m' - b.darkSky)) = y' at *
  generalize (10 : ℝ) ^ (0.8 * b.dCmInfinity) - 1 = A at *
  have hy' : 0 < y' := lt_of_lt_of_le hy hyy
  have ht0' : 0 < t' := lt_of_lt_of_le ht0 ht
  have hf0' : 0 < f := lt_of_lt_of_le hf0 hf
  have h1 : Real.logb 10 (0.7 / f) ≤ Real.logb 10 (0.7 / f') :=
    logb10_mono (by positivity) (div_le_div_of_nonneg_left (by norm_num) hf0 hf)
  have h2 : b.kAtm * (x' - 1) ≤ b.kAtm * (x - 1) := mul_le_mul_of_nonneg_left (by linarith) hk
  have h3 : Real.logb 10 (t / 30 * y / (1 + A * b.baseExptime / t * y)) ≤ Real.logb 10 (t' / 30 * y' / (1 + A * b.baseExptime / t' * y')) := by
    have hB : 0 ≤ A * b.baseExptime := by positivity
    generalize A * b.baseExptime = B at *
    apply logb10_mono (by positivity)
    rw [div_le_div_iff₀ (by positivity) (by positivity)]
    have e1 : t / 30 * y * (1 + B / t' * y') = t * y / 30 + B * y * y' / 30 * (t / t') := by field_simp
    have e2 : t' / 30 * y' * (1 + B / t * y) = t' * y' / 30 + B * y * y' / 30 * (t' / t) := by field_simp
    rw [e1, e2]
    have g1 : t * y ≤ t' * y' := mul_le_mul ht hyy hy.le ht0'.le
    have g2 : t / t' ≤ 1 := (div_le_one ht0').2 ht
    have g3 : 1 ≤ t' / t := (one_le_div ht0).2 ht
    have g4 : B * y * y' / 30 * (t / t') ≤ B * y * y' / 30 * (t' / t) := mul_le_mul_of_nonneg_left (by linarith) (by positivity)
    linarith
  linarith

theorem m5_eq (b : Band) (m f t x : ℝ) (n : ℕ) (hn : 1 ≤ n) (c : ℝ) : m5 b m f t x n c = single b m f t x c + 1.25 * Real.logb 10 n := by
  unfold m5
  by_cases h : 1 < n
  · rw [if_pos h]
    have hp : (0 : ℝ) < n := by exact_mod_cast hn
    rw [Real.logb_mul hp.ne' (by positivity), Real.logb_rpow (by norm_num) (by norm_num)]
    ring
  · rw [if_neg h]
    have : n = 1 := by omega
    subst this; simp

/-- **C88.** A visit is at least as deep with a darker sky (a larger magnitude), sharper images, longer exposures, more of
them, at lower airmass and with less cloud. -/
theorem C88_monotone (b : Band) (hb : 0 < b.baseExptime) (hd : 0 ≤ b.dCmInfinity) (hk : 0 ≤ b.kAtm) {m m' f f' t t' x x' c c' : ℝ} {n n' : ℕ}
    (hm : m ≤ m') (hf0 : 0 < f') (hf : f' ≤ f) (ht0 : 0 < t) (ht : t ≤ t') (hx : x' ≤ x) (hc : c' ≤ c) (hn0 : 1 ≤ n) (hn : n ≤ n') :
    m5 b m f t x n c ≤ m5 b m' f' t' x' n' c' := by
  rw [m5_eq b m f t x n hn0 c, m5_eq b m' f' t' x' n' (by omega) c']
  have h1 := single_mono b hb hd hk hm hf0 hf ht0 ht hx hc
  have h2 : Real.logb 10 (n : ℝ) ≤ Real.logb 10 (n' : ℝ) := logb10_mono (by exact_mod_cast hn0) (by exact_mod_cast hn)
  linarith

/-- **C88, splitting.** Splitting the time of a visit into several exposures never makes it deeper. -/
theorem C88_split (b : Band) (hb : 0 < b.baseExptime) (hd : 0 ≤ b.dCmInfinity) (m f t x c : ℝ) (ht0 : 0 < t) (n : ℕ) (hn : 1 ≤ n) :
    m5 b m f t x n c ≤ m5 b m f (n * t) x 1 c := by
  have hp : (0 : ℝ) < n := by exact_mod_cast hn
  have hp1 : (1 : ℝ) ≤ n := by exact_mod_cast hn
  rw [m5_eq b m f t x n hn c, m5_eq b m f (n * t) x 1 le_rfl c, Nat.cast_one, Real.logb_one, mul_zero, add_zero,
    single_eq b hb hd m f t x c ht0, single_eq b hb hd m f (n * t) x c (by positivity)]
  have hA : 0 ≤ (10 : ℝ) ^ (0.8 * b.dCmInfinity) - 1 := by
    have : (1 : ℝ) ≤ (10 : ℝ) ^ (0.8 * b.dCmInfinity) := Real.one_le_rpow (by norm_num) (by positivity)
    linarith
  have hy : 0 < (10 : ℝ) ^ (0.4 * (m - b.darkSky)) := by positivity
  generalize (10 : ℝ) ^ (0.4 * (m - b.darkSky)) = y at *
  generalize (10 : ℝ) ^ (0.8 * b.dCmInfinity) - 1 = A at *
  have hB : 0 ≤ A * b.baseExptime := by positivity
  generalize A * b.baseExptime = B at *
  have hl : Real.logb 10 (t / 30 * y / (1 + B / t * y)) + Real.logb 10 n = Real.logb 10 (t / 30 * y / (1 + B / t * y) * n) :=
    (Real.logb_mul (by positivity) hp.ne').symm
  have h3 : Real.logb 10 (t / 30 * y / (1 + B / t * y) * n) ≤ Real.logb 10 (n * t / 30 * y / (1 + B / (n * t) * y)) := by
    apply logb10_mono (by positivity)
    have e : t / 30 * y / (1 + B / t * y) * n = n * t / 30 * y / (1 + B / t * y) := by ring
    rw [e]
    apply div_le_div_of_nonneg_left (by positivity) (by positivity)
    have : B / (n * t) ≤ B / t := div_le_div_of_nonneg_left hB ht0 (by nlinarith)
    have := mul_le_mul_of_nonneg_right this hy.le
    linarith
  linarith

/-- A band with read noise. -/
example : m5 ⟨24, 1, 0.1, 22, 30⟩ 22 1 30 1 2 0 ≤ m5 ⟨24, 1, 0.1, 22, 30⟩ 22 1 60 1 1 0 := by
  have := C88_split ⟨24, 1, 0.1, 22, 30⟩ (by norm_num) (by norm_num) 22 1 30 1 0 (by norm_num) 2 (by norm_num)
  norm_num at this ⊢
  exact this

/-- In the dark sky at zenith, one base exposure with image quality 0.7 has depth `cm` and half the brightness of the sky. -/
example (cm d k m : ℝ) (_ : 0 ≤ d) : m5 ⟨cm, d, k, m, 30⟩ m 0.7 30 1 1 0 = cm + 0.5 * (m - 21) := by
  unfold m5 single
  norm_num
  ring

end Verif
