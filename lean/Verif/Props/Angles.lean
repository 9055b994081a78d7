import Verif.Lemmas.Angles
import Mathlib.Analysis.SpecialFunctions.Trigonometric.Basic

/-!
Properties C46 and C47: angle wrapping and camera rotation.
-/

namespace Verif

open Ang Real

/-! ### C46 -/

/-- The two pairs (longitude, latitude) are the same direction: same unit vector. -/
def SameDirection (p q : ℝ × ℝ) : Prop :=
  cos p.2 * cos p.1 = cos q.2 * cos q.1 ∧ cos p.2 * sin p.1 = cos q.2 * sin q.1 ∧ sin p.2 = sin q.2

theorem two_pi_pos' : (0 : ℝ) < 2 * π := by positivity

theorem cos_same {x y : ℝ} (h : SameAngle (2 * π) x y) : cos x = cos y := by
  obtain ⟨k, rfl⟩ := h; exact cos_add_int_mul_two_pi y k
theorem sin_same {x y : ℝ} (h : SameAngle (2 * π) x y) : sin x = sin y := by
  obtain ⟨k, rfl⟩ := h; exact sin_add_int_mul_two_pi y k

/-- C46, wrapping of coordinates, for latitudes from -5π/2 to 3π/2: same direction, longitude
in [0, 2π), latitude in [-π/2, π/2]. Missing: other latitudes, for which the code does not
wrap (`C46_violated`). -/
theorem C46_wrap_partial (ra dec : ℝ) (h1 : -(5 * π / 2) ≤ dec) (h2 : dec ≤ 3 * π / 2) :
    let w := wrapRaDec (2 * π) ra dec
    SameDirection w (ra, dec) ∧ 0 ≤ w.1 ∧ w.1 < 2 * π ∧ -(π / 2) ≤ w.2 ∧ w.2 ≤ π / 2 := by
  have hpi := pi_pos
  have hT := two_pi_pos'
  have fin : ∀ ra' dec', (sin dec' = sin dec ∧ ((cos dec' = cos dec ∧ cos ra' = cos ra ∧ sin ra' = sin ra) ∨
      (cos dec' = - cos dec ∧ cos ra' = - cos ra ∧ sin ra' = - sin ra))) → -(π / 2) ≤ dec' → dec' ≤ π / 2 →
      SameDirection (md (2 * π) ra', dec') (ra, dec) ∧ 0 ≤ md (2 * π) ra' ∧ md (2 * π) ra' < 2 * π ∧
        -(π / 2) ≤ dec' ∧ dec' ≤ π / 2 := by
    rintro ra' dec' ⟨hs, hc⟩ hd1 hd2
    refine ⟨⟨?_, ?_, hs⟩, md_nonneg hT _, md_lt hT _, hd1, hd2⟩
    · dsimp only; rw [cos_same (md_same _ _)]
      rcases hc with ⟨e1, e2, e3⟩ | ⟨e1, e2, e3⟩ <;> rw [e1, e2]; ring
    · dsimp only; rw [sin_same (md_same _ _)]
      rcases hc with ⟨e1, e2, e3⟩ | ⟨e1, e2, e3⟩ <;> rw [e1, e3]; ring
  have half : 2 * π / 2 = π := by ring
  unfold wrapRaDec
  simp only [half]
  by_cases hlow : dec < -π / 2
  · simp only [if_pos hlow]
    have e1 : sin (-1 * (π + dec)) = sin dec := by
      rw [neg_one_mul, sin_neg, add_comm, sin_add_pi, neg_neg]
    have e2 : cos (-1 * (π + dec)) = - cos dec := by
      rw [neg_one_mul, cos_neg, add_comm, cos_add_pi]
    by_cases hhigh : π / 2 < -1 * (π + dec)
    · simp only [if_pos hhigh]
      apply fin
      · refine ⟨by rw [sin_pi_sub]; exact e1, .inl ⟨by rw [cos_pi_sub, e2, neg_neg], ?_, ?_⟩⟩
        · rw [cos_sub_pi, cos_sub_pi, neg_neg]
        · rw [sin_sub_pi, sin_sub_pi, neg_neg]
      · linarith
      · linarith
    · simp only [if_neg hhigh]
      apply fin
      · exact ⟨e1, .inr ⟨e2, cos_sub_pi _, sin_sub_pi _⟩⟩
      · linarith
      · linarith
  · simp only [if_neg hlow]
    by_cases hhigh : π / 2 < dec
    · simp only [if_pos hhigh]
      apply fin
      · exact ⟨sin_pi_sub _, .inr ⟨cos_pi_sub _, cos_sub_pi _, sin_sub_pi _⟩⟩
      · linarith
      · linarith
    · simp only [if_neg hhigh]
      apply fin
      · exact ⟨rfl, .inl ⟨rfl, rfl, rfl⟩⟩
      · linarith
      · linarith

/-- A latitude just beyond the pole comes back on the other side (angles in turns). -/
example : wrapRaDec (1 : ℚ) (1 / 8) (3 / 8) = (5 / 8, 1 / 8) ∧ wrapRaDec (1 : ℚ) (1 / 8) (-1) = (1 / 8, 0) := by
  decide +kernel

/-- C46 does not hold for all real latitudes: 2π is not wrapped into [-π/2, π/2]. -/
theorem C46_violated : (wrapRaDec (2 * π) 0 (2 * π)).2 = -π := by
  have hpi := pi_pos
  unfold wrapRaDec
  have half : 2 * π / 2 = π := by ring
  simp only [half, if_neg (show ¬ 2 * π < -π / 2 by linarith), if_pos (show π / 2 < 2 * π by linarith)]
  ring

/-- C46, smallest signed angle: it leads from the first angle to the second, up to whole
turns, and is more than minus half a turn and at most half a turn. -/
theorem C46_smallest_angle (a b : ℝ) :
    SameAngle (2 * π) (a + smallestSigned (2 * π) a b) b ∧ -π < smallestSigned (2 * π) a b ∧
      smallestSigned (2 * π) a b ≤ π := by
  obtain ⟨h1, h2, h3⟩ := smallestSigned_spec two_pi_pos' a b
  exact ⟨h1, by linarith, by linarith⟩

/-- From 350 to 10 degrees the short way is +20 degrees, and back -20 (in turns). -/
example : smallestSigned (1 : ℚ) (350 / 360) (10 / 360) = 20 / 360 ∧
    smallestSigned (1 : ℚ) (10 / 360) (350 / 360) = -20 / 360 ∧ smallestSigned (1 : ℚ) 0 (1 / 2) = 1 / 2 := by
  decide +kernel

/-! ### C47 -/

/-- C47: for every camera, converting a rotator angle to a sky angle and back, or a sky angle
to a rotator angle and back, gives the same angle up to whole turns. Sky angles come out in
[0, 2π), rotator angles in (-π, π]; an angle already in that range comes back itself. -/
theorem C47_inverse (c : Camera) (x pa : ℝ) :
    let T := 2 * π
    SameAngle T (sky2tel T c (tel2sky T c x pa) pa) x ∧ SameAngle T (tel2sky T c (sky2tel T c x pa) pa) x ∧
    (0 ≤ tel2sky T c x pa ∧ tel2sky T c x pa < 2 * π) ∧ (-π < sky2tel T c x pa ∧ sky2tel T c x pa ≤ π) ∧
    (-π < x → x ≤ π → sky2tel T c (tel2sky T c x pa) pa = x) ∧
    (0 ≤ x → x < 2 * π → tel2sky T c (sky2tel T c x pa) pa = x) := by
  intro T
  have hT : 0 < T := two_pi_pos'
  have e : T / 2 = π := by simp only [T]; ring
  have e' : -T / 2 = -π := by simp only [T]; ring
  have hr := sky2tel_range hT c
  have h1 := tel_sky_tel hT c x pa
  have h2 := sky_tel_sky hT c x pa
  refine ⟨h1, h2, tel2sky_range hT c x pa, ⟨by rw [← e']; exact (hr x pa).1, by rw [← e]; exact (hr x pa).2⟩, fun ha hb => ?_, fun ha hb => ?_⟩
  · exact same_eq_half hT h1 (hr _ _).1 (hr _ _).2 (by rw [e']; exact ha) (by rw [e]; exact hb)
  · exact same_eq hT h2 (tel2sky_range hT c _ _).1 (tel2sky_range hT c _ _).2 ha hb

/-- Quarter-turn parallactic angle and a rotator angle of -80 degrees, for each camera. -/
example : (tel2sky (1 : ℚ) .lsst (-80 / 360) (1 / 4), tel2sky (1 : ℚ) .comcam (-80 / 360) (1 / 4),
    tel2sky (1 : ℚ) .auxtel (-80 / 360) (1 / 4)) = (80 / 360, 170 / 360, 190 / 360) ∧
    sky2tel (1 : ℚ) .auxtel (190 / 360) (1 / 4) = -80 / 360 := by
  decide +kernel

end Verif
