import Verif.Model.Rotate
import Verif.Lemmas.Angles
import Mathlib.Tactic.Linarith
import Mathlib.Tactic.Ring
import Mathlib.Tactic.NormNum
import Mathlib.Algebra.Order.Round
import Mathlib.Data.Rat.Floor
import Mathlib.Analysis.SpecialFunctions.Trigonometric.Basic

/-!
# Camera angles of single visits (C152)
-/

namespace Verif

open Ang Rot

variable {α : Type} [Field α] [LinearOrder α] [IsStrictOrderedRing α] [FloorRing α]

theorem centred_eq {T x y : α} (hT : 0 < T) (h : SameAngle T x y) (hx : -T / 2 < x) (hx' : x ≤ T / 2) (hy : -T / 2 < y) (hy' : y ≤ T / 2) : x = y := by
  have h1 : SameAngle T (T / 2 - x) (T / 2 - y) := (SameAngle.refl T (T / 2)).sub h
  have := same_eq hT h1 (by linarith) (by linarith) (by linarith) (by linarith)
  linarith

/-- C152. The angle on the sky that is set for no rotation puts the rotator at zero, for all cameras and whatever the parallactic angle, when the place of the visit is given as the function
for it wants. -/
theorem C152_zero_partial {T : α} (hT : 0 < T) (c : Camera) (pa : α) : sky2tel T c (zeroRot T c pa) pa = 0 ∧ 0 ≤ zeroRot T c pa ∧ zeroRot T c pa < T := by
  refine ⟨?_, tel2sky_range hT c 0 pa⟩
  have hr := sky2tel_range hT c (zeroRot T c pa) pa
  exact centred_eq hT (tel_sky_tel hT c 0 pa) hr.1 hr.2 (by linarith) (by linarith)

/-- C152 does not hold for the code: `deg` degrees are a radian, and the parallactic angle is asked for with the numbers of radians in place of degrees. For any two places where it differs
there is a visit whose rotator is not at zero. -/
theorem C152_zero_violated {T : α} (hT : 0 < T) (c : Camera) (ppa : α → α → α) (deg ra dec : α) (h : ¬ SameAngle T (ppa (deg * ra) (deg * dec)) (askPa ppa ra dec)) :
    sky2tel T c (zeroRot T c (askPa ppa ra dec)) (ppa (deg * ra) (deg * dec)) ≠ 0 := by
  intro h0
  have h1 := sky2tel_same hT c (zeroRot T c (askPa ppa ra dec)) (ppa (deg * ra) (deg * dec))
  have h2 := sky2tel_same hT c (zeroRot T c (askPa ppa ra dec)) (askPa ppa ra dec)
  rw [h0] at h1
  rw [(C152_zero_partial hT c (askPa ppa ra dec)).1] at h2
  have h3 := h1.symm.trans h2
  apply h
  obtain ⟨k, hk⟩ := h3
  cases c with
  | lsst => exact ⟨k, by linear_combination hk⟩
  | comcam => exact ⟨k, by linear_combination hk⟩
  | auxtel => exact ⟨k, by linear_combination hk⟩

/-- C152. A wanted angle of the rotator and the angle on the sky that is set with it agree. -/
theorem C152_camera {T : α} (hT : 0 < T) (c : Camera) (off pa : α) :
    (cameraRot T c off pa).2 = off ∧ SameAngle T (sky2tel T c (cameraRot T c off pa).1 pa) off ∧
      (-T / 2 < off → off ≤ T / 2 → sky2tel T c (cameraRot T c off pa).1 pa = off) := by
  refine ⟨rfl, tel_sky_tel hT c off pa, fun h1 h2 => ?_⟩
  have hr := sky2tel_range hT c (tel2sky T c off pa) pa
  exact centred_eq hT (tel_sky_tel hT c off pa) hr.1 hr.2 h1 h2

/-- C152. The angle of the rotator at the parallactic angle is within the limits, when these hold a quarter turn to both sides, and gives the angle on the sky or its opposite. -/
theorem C152_parallactic {T : α} (hT : 0 < T) (c : Camera) (lim : α × α) (h1 : min lim.1 lim.2 ≤ -T / 4) (h2 : T / 4 ≤ max lim.1 lim.2) (pa : α) :
    (parallactic T c lim pa).1 = pa ∧ min lim.1 lim.2 ≤ (parallactic T c lim pa).2 ∧ (parallactic T c lim pa).2 ≤ max lim.1 lim.2 ∧
      (SameAngle T (parallactic T c lim pa).2 (sky2tel T c pa pa) ∨ SameAngle T (parallactic T c lim pa).2 (sky2tel T c pa pa + T / 2)) := by
  have hr := sky2tel_range hT c pa pa
  unfold parallactic
  dsimp only
  generalize sky2tel T c pa pa = x at hr ⊢
  generalize min lim.1 lim.2 = lo at h1 ⊢
  generalize max lim.1 lim.2 = hi at h2 ⊢
  refine ⟨rfl, ?_⟩
  have same0 : SameAngle T x x := SameAngle.refl T x
  have sameA : SameAngle T (x - T) x := ⟨-1, by push_cast; ring⟩
  have sameB : SameAngle T (x + T) x := ⟨1, by push_cast; ring⟩
  have sameC : SameAngle T (x - T + T) x := ⟨0, by push_cast; ring⟩
  have opp1 : SameAngle T (x - T + T - T / 2) (x + T / 2) := ⟨-1, by push_cast; ring⟩
  have opp2 : SameAngle T (x + T - T / 2) (x + T / 2) := ⟨0, by push_cast; ring⟩
  have opp3 : SameAngle T (x - T - T / 2) (x + T / 2) := ⟨-2, by push_cast; ring⟩
  have opp4 : SameAngle T (x - T / 2) (x + T / 2) := ⟨-1, by push_cast; ring⟩
  unfold lower raise
  split_ifs <;> refine ⟨by linarith, by linarith, ?_⟩ <;> first | exact .inl (by assumption) | exact .inr (by assumption)

/-- C152. With the usual limits of three quarters of a turn to both sides nothing is changed; for the Rubin camera the rotator is at minus a quarter turn for all visits. -/
theorem C152_parallactic_usual {T : α} (hT : 0 < T) (c : Camera) (pa : α) :
    (parallactic T c (-3 * T / 4, 3 * T / 4) pa).2 = sky2tel T c pa pa ∧ (parallactic T .lsst (-3 * T / 4, 3 * T / 4) pa).2 = -T / 4 := by
  have key : ∀ c, (parallactic T c (-3 * T / 4, 3 * T / 4) pa).2 = sky2tel T c pa pa := by
    intro c
    have hr := sky2tel_range hT c pa pa
    unfold parallactic lower raise
    dsimp only
    rw [min_eq_left (by linarith), max_eq_right (by linarith)]
    rw [if_neg (show ¬ 3 * T / 4 < sky2tel T c pa pa by linarith), if_neg (show ¬ sky2tel T c pa pa < -3 * T / 4 by linarith), if_neg (by linarith)]
  refine ⟨key c, ?_⟩
  rw [key]
  have hr := sky2tel_range hT .lsst pa pa
  refine centred_eq hT ((sky2tel_same hT .lsst pa pa).trans ?_) hr.1 hr.2 (by linarith) (by linarith)
  exact ⟨0, by push_cast; ring⟩

theorem firstLeast_spec (f : α → α) : ∀ (l : List α) (b : α), (firstLeast f b l = b ∨ firstLeast f b l ∈ l) ∧ f (firstLeast f b l) ≤ f b ∧ ∀ x ∈ l, f (firstLeast f b l) ≤ f x := by
  intro l
  induction l with
  | nil => intro b; exact ⟨.inl rfl, le_refl _, fun x h => by cases h⟩
  | cons y l ih =>
    intro b
    unfold firstLeast
    obtain ⟨h1, h2, h3⟩ := ih (if f y < f b then y else b)
    have hb : f (if f y < f b then y else b) ≤ f b := by split_ifs with h <;> [exact h.le; exact le_refl _]
    have hy : f (if f y < f b then y else b) ≤ f y := by split_ifs with h <;> [exact le_refl _; exact not_lt.1 h]
    refine ⟨?_, h2.trans hb, ?_⟩
    · rcases h1 with h1 | h1
      · rw [h1]
        split_ifs
        · exact .inr List.mem_cons_self
        · exact .inl rfl
      · exact .inr (List.mem_cons_of_mem _ h1)
    · intro x hx
      rcases List.mem_cons.1 hx with rfl | hx
      · exact h2.trans hy
      · exact h3 x hx

theorem comcam90_mem (T s : α) (c : Camera) (pa : α) :
    comcam90 T s c pa ∈ quarters T ∧ ∀ x ∈ quarters T, |sky2tel T c (comcam90 T s c pa) (s * pa)| ≤ |sky2tel T c x (s * pa)| := by
  obtain ⟨h1, _, h3⟩ := firstLeast_spec (fun x => |sky2tel T c x (s * pa)|) (quarters T) 0
  refine ⟨?_, h3⟩
  rcases h1 with h | h
  · have : comcam90 T s c pa = 0 := h
    rw [this]
    exact List.mem_cons_self
  · exact h

/-- A number is within an eighth of a turn of one of four quarters, up to whole turns. -/
theorem near_quarter {T : α} (hT : 0 < T) (z : α) : ∃ x ∈ quarters T, ∃ y, SameAngle T y (z - x) ∧ |y| ≤ T / 8 := by
  let n : ℤ := round (4 * z / T)
  have hn : |4 * z / T - n| ≤ 1 / 2 := abs_sub_round _
  have hz : |z - n * (T / 4)| ≤ T / 8 := by
    have e : z - n * (T / 4) = (4 * z / T - n) * (T / 4) := by
      field_simp
    rw [e, abs_mul, abs_of_pos (show (0 : α) < T / 4 by linarith)]
    have := mul_le_mul_of_nonneg_right hn (show (0 : α) ≤ T / 4 by linarith)
    linarith
  have hdiv := Int.emod_add_mul_ediv n 4
  have h0 := Int.emod_nonneg n (show (4 : ℤ) ≠ 0 by norm_num)
  have h4 := Int.emod_lt_of_pos n (show (0 : ℤ) < 4 by norm_num)
  refine ⟨(n % 4 : ℤ) * (T / 4), ?_, z - n * (T / 4), ⟨-(n / 4), ?_⟩, hz⟩
  · have : n % 4 = 0 ∨ n % 4 = 1 ∨ n % 4 = 2 ∨ n % 4 = 3 := by omega
    unfold quarters
    rcases this with h | h | h | h <;> rw [h] <;> simp
    · right; right; left; ring
    · right; right; right; left; ring
  · have : (n : α) = (n % 4 : ℤ) + 4 * (n / 4 : ℤ) := by
      have := congrArg (fun m : ℤ => (m : α)) hdiv
      push_cast at this
      exact this.symm
    rw [this]
    push_cast
    ring

theorem eighth_least {T : α} (hT : 0 < T) (c : Camera) (pa : α) : ∃ x ∈ quarters T, |sky2tel T c x pa| ≤ T / 8 := by
  have fin : ∀ x y w, SameAngle T (sky2tel T c x pa) w → SameAngle T y w → |y| ≤ T / 8 → |sky2tel T c x pa| ≤ T / 8 := by
    intro x y w h1 h2 h3
    have hr := sky2tel_range hT c x pa
    have := abs_le.1 h3
    rw [centred_eq hT (h1.trans h2.symm) hr.1 hr.2 (by linarith) (by linarith)]
    exact h3
  cases c with
  | lsst =>
    obtain ⟨x, hx, y, hy, hl⟩ := near_quarter hT (pa - T / 4)
    exact ⟨x, hx, fin x y _ (sky2tel_same hT .lsst x pa) (by have e : pa - T / 4 - x = pa - x - T / 4 := by ring
                                                             rw [← e]; exact hy) hl⟩
  | comcam =>
    obtain ⟨x, hx, y, hy, hl⟩ := near_quarter hT pa
    exact ⟨x, hx, fin x y _ (sky2tel_same hT .comcam x pa) hy hl⟩
  | auxtel =>
    obtain ⟨x, hx, y, hy, hl⟩ := near_quarter hT (-pa)
    refine ⟨x, hx, fin x (-y) _ (sky2tel_same hT .auxtel x pa) ?_ (by rwa [abs_neg])⟩
    have := hy.neg
    have e : -(-pa - x) = x + pa := by ring
    rwa [e] at this

/-- C152. With the parallactic angle right, the angle on the sky is a whole number of quarter turns with the rotator nearest to zero, within an eighth of a turn. The code multiplies the
angle once too often, so this holds only where that changes nothing. -/
theorem C152_quarter_partial {T : α} (hT : 0 < T) (s : α) (c : Camera) (pa : α) (hs : SameAngle T (s * pa) pa) :
    comcam90 T s c pa ∈ quarters T ∧ (∀ x ∈ quarters T, |sky2tel T c (comcam90 T s c pa) pa| ≤ |sky2tel T c x pa|) ∧ |sky2tel T c (comcam90 T s c pa) pa| ≤ T / 8 := by
  obtain ⟨h1, h2⟩ := comcam90_mem T s c pa
  have e : ∀ x, sky2tel T c x (s * pa) = sky2tel T c x pa := by
    intro x
    have r1 := sky2tel_range hT c x (s * pa)
    have r2 := sky2tel_range hT c x pa
    refine centred_eq hT ?_ r1.1 r1.2 r2.1 r2.2
    refine (sky2tel_same hT c x (s * pa)).trans (SameAngle.trans ?_ (sky2tel_same hT c x pa).symm)
    cases c
    · exact (hs.sub (SameAngle.refl T x)).sub (SameAngle.refl T (T / 4))
    · exact hs.sub (SameAngle.refl T x)
    · exact (SameAngle.refl T x).add hs
  have h2' : ∀ x ∈ quarters T, |sky2tel T c (comcam90 T s c pa) pa| ≤ |sky2tel T c x pa| := by
    intro x hx
    rw [← e x, ← e (comcam90 T s c pa)]
    exact h2 x hx
  obtain ⟨x, hx, hle⟩ := eighth_least hT c pa
  exact ⟨h1, h2', (h2' x hx).trans hle⟩

/-- C152 does not hold for the code, where the parallactic angle is turned into radians twice: at a parallactic angle of 90 degrees the rotator of the Rubin camera is left a quarter turn
from zero, when it could be at zero. -/
theorem C152_quarter_violated :
    comcam90 (2 * Real.pi) (Real.pi / 180) .lsst (Real.pi / 2) = 3 * (2 * Real.pi) / 4 ∧
      sky2tel (2 * Real.pi) .lsst (3 * (2 * Real.pi) / 4) (Real.pi / 2) = Real.pi / 2 ∧ sky2tel (2 * Real.pi) .lsst 0 (Real.pi / 2) = 0 := by
  have h2 := Real.two_le_pi
  have h4 := Real.pi_le_four
  have hT : (0 : ℝ) < 2 * Real.pi := by linarith
  have val : ∀ x pa y : ℝ, (∃ k : ℤ, y = pa - x - 2 * Real.pi / 4 + k * (2 * Real.pi)) → -(2 * Real.pi) / 2 < y → y ≤ 2 * Real.pi / 2 → sky2tel (2 * Real.pi) .lsst x pa = y := by
    rintro x pa y ⟨k, hk⟩ hy hy'
    have hr := sky2tel_range hT .lsst x pa
    exact centred_eq hT ((sky2tel_same hT .lsst x pa).trans (SameAngle.symm ⟨k, hk⟩)) hr.1 hr.2 hy hy'
  refine ⟨?_, ?_, ?_⟩
  · let e : ℝ := Real.pi / 180 * (Real.pi / 2)
    have e1 : 0 < e := by positivity
    have e2 : e ≤ Real.pi / 90 := by
      have : Real.pi / 180 * (Real.pi / 2) ≤ Real.pi / 180 * 2 := mul_le_mul_of_nonneg_left (by linarith) (by linarith)
      show Real.pi / 180 * (Real.pi / 2) ≤ _
      linarith
    obtain ⟨h1, h2⟩ := comcam90_mem (2 * Real.pi) (Real.pi / 180) .lsst (Real.pi / 2)
    have v0 : sky2tel (2 * Real.pi) .lsst 0 e = e - Real.pi / 2 := val _ _ _ ⟨0, by push_cast; ring⟩ (by linarith) (by linarith)
    have v1 : sky2tel (2 * Real.pi) .lsst (2 * Real.pi / 4) e = e - Real.pi := val _ _ _ ⟨0, by push_cast; ring⟩ (by linarith) (by linarith)
    have v2 : sky2tel (2 * Real.pi) .lsst (2 * Real.pi / 2) e = e + Real.pi / 2 := val _ _ _ ⟨1, by push_cast; ring⟩ (by linarith) (by linarith)
    have v3 : sky2tel (2 * Real.pi) .lsst (3 * (2 * Real.pi) / 4) e = e := val _ _ _ ⟨1, by push_cast; ring⟩ (by linarith) (by linarith)
    have v4 : sky2tel (2 * Real.pi) .lsst (2 * Real.pi) e = e - Real.pi / 2 := val _ _ _ ⟨1, by push_cast; ring⟩ (by linarith) (by linarith)
    have hmin := h2 (3 * (2 * Real.pi) / 4) (by unfold quarters; simp)
    rw [show Real.pi / 180 * (Real.pi / 2) = e from rfl, v3, abs_of_pos e1] at hmin
    unfold quarters at h1
    simp only [List.mem_cons, List.not_mem_nil, or_false] at h1
    rcases h1 with h | h | h | h | h
    · rw [h, v0] at hmin
      have := neg_le_of_abs_le hmin
      linarith
    · rw [h, v1] at hmin
      have := neg_le_of_abs_le hmin
      linarith
    · rw [h, v2] at hmin
      have := le_of_abs_le hmin
      linarith
    · exact h
    · rw [h, v4] at hmin
      have := neg_le_of_abs_le hmin
      linarith
  · exact val _ _ _ ⟨1, by push_cast; ring⟩ (by linarith) (by linarith)
  · exact val _ _ _ ⟨0, by push_cast; ring⟩ (by linarith) (by linarith)

example : ¬ SameAngle (360 : ℚ) ((fun ra _ : ℚ => ra) (57 * 1) (57 * 0)) (askPa (fun ra _ : ℚ => ra) 1 0) := by
  rintro ⟨k, hk⟩
  have : (57 * 1 : ℚ) = 1 + k * 360 := hk
  have : (57 : ℤ) = 1 + k * 360 := by exact_mod_cast (by linarith : (57 : ℚ) = 1 + k * 360)
  omega

example : parallactic (360 : ℚ) .auxtel (-90, 90) 65 = (65, -50) ∧ zeroRot (360 : ℚ) .lsst 30 = 300 ∧ SameAngle (360 : ℚ) (1 / 57 * 0) 0 := by
  refine ⟨by decide +kernel, by decide +kernel, ⟨0, by norm_num⟩⟩

end Verif
