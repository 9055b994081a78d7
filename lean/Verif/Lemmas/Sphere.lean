import Verif.Spec.Sphere
import Mathlib.Analysis.SpecialFunctions.Trigonometric.Angle
import Mathlib.Tactic.Linarith
import Mathlib.Tactic.LinearCombination

/-! Facts about angles and unit vectors. -/

namespace Verif

open Sph Real

theorem atan2_cos (y x : ℝ) : √(x ^ 2 + y ^ 2) * cos (atan2 y x) = x := by
  have h := Complex.norm_mul_cos_arg ⟨x, y⟩
  rwa [Complex.norm_eq_sqrt_sq_add_sq] at h

theorem atan2_sin (y x : ℝ) : √(x ^ 2 + y ^ 2) * sin (atan2 y x) = y := by
  have h := Complex.norm_mul_sin_arg ⟨x, y⟩
  rwa [Complex.norm_eq_sqrt_sq_add_sq] at h

theorem atan2_range (y x : ℝ) : -π < atan2 y x ∧ atan2 y x ≤ π :=
  ⟨Complex.neg_pi_lt_arg _, Complex.arg_le_pi _⟩

theorem sameTurn_of {a b : ℝ} (hc : cos a = cos b) (hs : sin a = sin b) : SameTurn a b := by
  have h := Real.Angle.cos_sin_inj hc hs
  obtain ⟨k, hk⟩ := Real.Angle.angle_eq_iff_two_pi_dvd_sub.1 h
  exact ⟨k, by linarith⟩

theorem SameTurn.cos {a b : ℝ} (h : SameTurn a b) : Real.cos a = Real.cos b := by
  obtain ⟨k, rfl⟩ := h
  exact Real.cos_add_int_mul_two_pi b k

theorem SameTurn.sin {a b : ℝ} (h : SameTurn a b) : Real.sin a = Real.sin b := by
  obtain ⟨k, rfl⟩ := h
  exact Real.sin_add_int_mul_two_pi b k

theorem SameTurn.symm {a b : ℝ} (h : SameTurn a b) : SameTurn b a := by
  obtain ⟨k, rfl⟩ := h
  exact ⟨-k, by push_cast; ring⟩

theorem SameTurn.trans {a b c : ℝ} (h : SameTurn a b) (h' : SameTurn b c) : SameTurn a c := by
  obtain ⟨k, rfl⟩ := h
  obtain ⟨j, rfl⟩ := h'
  exact ⟨j + k, by push_cast; ring⟩

/-- The argument of a positive multiple of a direction is the direction. -/
theorem atan2_of {r t : ℝ} (hr : 0 < r) : SameTurn (atan2 (r * sin t) (r * cos t)) t := by
  have h1 := atan2_cos (r * sin t) (r * cos t)
  have h2 := atan2_sin (r * sin t) (r * cos t)
  have e : √((r * cos t) ^ 2 + (r * sin t) ^ 2) = r := by
    have : (r * cos t) ^ 2 + (r * sin t) ^ 2 = r ^ 2 := by linear_combination r ^ 2 * Real.cos_sq_add_sin_sq t
    rw [this, Real.sqrt_sq hr.le]
  rw [e] at h1 h2
  exact sameTurn_of (mul_left_cancel₀ hr.ne' h1) (mul_left_cancel₀ hr.ne' h2)

theorem atan2_scale {r : ℝ} (hr : 0 < r) (y x : ℝ) : atan2 (r * y) (r * x) = atan2 y x := by
  unfold atan2
  have : (⟨r * x, r * y⟩ : ℂ) = (r : ℂ) * ⟨x, y⟩ := by
    apply Complex.ext <;> simp
  rw [this, Complex.arg_real_mul _ hr]

theorem IsLat.cos_nonneg {a : ℝ} (h : IsLat a) : 0 ≤ Real.cos a := Real.cos_nonneg_of_neg_pi_div_two_le_of_le h.1 h.2

theorem IsLat.eq_of_sin {a b : ℝ} (ha : IsLat a) (hb : IsLat b) (h : Real.sin a = Real.sin b) : a = b :=
  Real.injOn_sin ⟨ha.1, ha.2⟩ ⟨hb.1, hb.2⟩ h

theorem isLat_arcsin (x : ℝ) : IsLat (arcsin x) := ⟨Real.neg_pi_div_two_le_arcsin x, Real.arcsin_le_pi_div_two x⟩

theorem clip_of {x : ℝ} (h1 : -1 ≤ x) (h2 : x ≤ 1) : clip x = x := by
  unfold clip
  rw [max_eq_left h1, min_eq_left h2]

theorem dot_xyz (r1 d1 r2 d2 : ℝ) :
    dot (xyz r1 d1) (xyz r2 d2) = cos d1 * cos d2 * cos (r1 - r2) + sin d1 * sin d2 := by
  unfold dot xyz
  rw [Real.cos_sub]
  ring

theorem xyz_unit (r d : ℝ) : dot (xyz r d) (xyz r d) = 1 := by
  rw [dot_xyz, sub_self, Real.cos_zero]
  linear_combination Real.cos_sq_add_sin_sq d

/-- The components of a direction of the sky along up, north and east. -/
theorem dot_up (ra dec lat t : ℝ) : dot (xyz ra dec) (upV lat t) = sin dec * sin lat + cos dec * cos lat * cos (t - ra) := by
  unfold dot xyz upV
  rw [Real.cos_sub]
  ring

theorem dot_north (ra dec lat t : ℝ) : dot (xyz ra dec) (northV lat t) = sin dec * cos lat - cos dec * sin lat * cos (t - ra) := by
  unfold dot xyz northV
  rw [Real.cos_sub]
  ring

theorem dot_east (ra dec t : ℝ) : dot (xyz ra dec) (eastV t) = -(cos dec * sin (t - ra)) := by
  unfold dot xyz eastV
  rw [Real.sin_sub]
  ring

/-- Up, north and east are an orthonormal frame. -/
theorem frame_dot (lat t : ℝ) (a b : Vec) :
    dot a (upV lat t) * dot b (upV lat t) + dot a (northV lat t) * dot b (northV lat t) + dot a (eastV t) * dot b (eastV t) = dot a b := by
  unfold dot upV northV eastV
  have h1 := Real.cos_sq_add_sin_sq lat
  have h2 := Real.cos_sq_add_sin_sq t
  have hl : sin lat ^ 2 = 1 - cos lat ^ 2 := by linarith
  have ht : sin t ^ 2 = 1 - cos t ^ 2 := by linarith
  ring_nf
  simp only [hl, ht]
  ring

end Verif
