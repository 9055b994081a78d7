import Verif.Props.HtmShape
import Verif.Props.Sphere

/-!
# Half spaces from positions, and where their circles meet (C138)
-/

namespace Verif

open Real Sph Htm

theorem xyz_unit3 (ra dec : ℝ) : IsUnit3 (xyz ra dec) := by
  unfold IsUnit3 xyz
  simp only
  linear_combination (cos dec) ^ 2 * Real.cos_sq_add_sin_sq ra + Real.cos_sq_add_sin_sq dec

theorem unit_of_unit {v : Vec} (h : IsUnit3 v) : Htm.unit v = v := by
  unfold IsUnit3 at h
  unfold Htm.unit
  rw [h, Real.sqrt_one]
  apply vec_ext <;> simp [Htm.smul]

/-- C138. The half space around a position has the positions nearer than the radius, and no others. -/
theorem C138_around (ra dec radius : ℝ) (h0 : 0 ≤ radius) (h1 : radius ≤ π) :
    (∀ r d, (halfAround ra dec radius).containsPt (xyz r d) ↔ sep ra dec r d < radius) ∧ (halfAround ra dec radius).phi = radius := by
  constructor
  · intro r d
    unfold Half.containsPt halfAround half
    simp only
    rw [unit_of_unit (xyz_unit3 r d), unit_of_unit (xyz_unit3 ra dec)]
    obtain ⟨e, s0, s1⟩ := C121_angle ra dec r d
    have e' : Htm.dot (xyz r d) (xyz ra dec) = cos (sep ra dec r d) := by rw [e]; unfold Htm.dot Verif.dot; ring
    rw [e']
    exact StrictAntiOn.lt_iff_gt Real.strictAntiOn_cos ⟨h0, h1⟩ ⟨s0, s1⟩
  · unfold Half.phi halfAround half
    simp only
    by_cases hz : radius = 0
    · subst hz; simp
    by_cases hp : radius = π
    · subst hp; simp
    have hlt : |cos radius| < 1 := by
      have a0 : 0 < radius := lt_of_le_of_ne h0 (Ne.symm hz)
      have a1 : radius < π := lt_of_le_of_ne h1 hp
      have hs := Real.sin_pos_of_pos_of_lt_pi a0 a1
      have := Real.cos_sq_add_sin_sq radius
      rw [abs_lt]
      constructor <;> nlinarith
    rw [if_pos hlt, Real.arccos_cos h0 h1]

/-- C138. The half space through two positions that are neither the same nor opposite: both lie on its boundary, a great circle, and the third
position is inside when it is not on that circle. -/
theorem C138_through (p1 p2 p3 : ℝ × ℝ)
    (hne : 0 < (cross (xyz p1.1 p1.2) (xyz p2.1 p2.2)).x ^ 2 + (cross (xyz p1.1 p1.2) (xyz p2.1 p2.2)).y ^ 2 + (cross (xyz p1.1 p1.2) (xyz p2.1 p2.2)).z ^ 2) :
    IsUnit3 (halfThrough p1 p2 p3).v ∧ (halfThrough p1 p2 p3).d = 0 ∧ Htm.dot (xyz p1.1 p1.2) (halfThrough p1 p2 p3).v = 0 ∧
      Htm.dot (xyz p2.1 p2.2) (halfThrough p1 p2 p3).v = 0 ∧
      ((halfThrough p1 p2 p3).containsPt (xyz p3.1 p3.2) ↔ Htm.dot (cross (xyz p1.1 p1.2) (xyz p2.1 p2.2)) (xyz p3.1 p3.2) ≠ 0) := by
  obtain ⟨k, hk, e, hu⟩ := unit_spec hne
  have u3 := unit_of_unit (xyz_unit3 p3.1 p3.2)
  have o1 : Htm.dot (xyz p1.1 p1.2) (cross (xyz p1.1 p1.2) (xyz p2.1 p2.2)) = 0 := by unfold Htm.dot cross; ring
  have o2 : Htm.dot (xyz p2.1 p2.2) (cross (xyz p1.1 p1.2) (xyz p2.1 p2.2)) = 0 := by unfold Htm.dot cross; ring
  unfold Half.containsPt halfThrough half
  simp only
  rw [u3]
  generalize cross (xyz p1.1 p1.2) (xyz p2.1 p2.2) = n at *
  generalize xyz p3.1 p3.2 = q at *
  have hun : IsUnit3 (Htm.smul (-1) (Htm.unit n)) := by
    unfold IsUnit3 at *
    simp only [Htm.smul]
    linear_combination hu
  have hq : Htm.dot (Htm.unit n) q = k * Htm.dot n q := by rw [e, smul_dot]
  have x1 : Htm.dot (xyz p1.1 p1.2) (Htm.unit n) = 0 := by rw [e, dot_smul, o1, mul_zero]
  have x2 : Htm.dot (xyz p2.1 p2.2) (Htm.unit n) = 0 := by rw [e, dot_smul, o2, mul_zero]
  split_ifs with hneg
  · rw [unit_of_unit hun]
    refine ⟨hun, trivial, by rw [dot_smul, x1, mul_zero], by rw [dot_smul, x2, mul_zero], ?_⟩
    rw [dot_smul, dot_comm3 q]
    constructor
    · intro _ h0
      rw [hq, h0, mul_zero] at hneg
      exact lt_irrefl _ hneg
    · intro _; linarith
  · rw [unit_of_unit hu]
    refine ⟨hu, trivial, x1, x2, ?_⟩
    rw [dot_comm3 q, hq] at *
    constructor
    · intro h h0
      rw [h0, mul_zero] at h
      exact lt_irrefl _ h
    · intro h0
      rw [hq] at hneg
      push Not at hneg
      exact lt_of_le_of_ne hneg (Ne.symm (mul_ne_zero hk.ne' h0))

/-! ### Where two circles meet -/

theorem meet_cases (h1 h2 : Half) (u1 : IsUnit3 h1.v) (u2 : IsUnit3 h2.v) (hne : meetPoints h1 h2 ≠ []) :
    0 < 1 - Htm.dot h1.v h2.v ^ 2 ∧ h1.d ^ 2 + h2.d ^ 2 - 2 * Htm.dot h1.v h2.v * h1.d * h2.d ≤ 1 - Htm.dot h1.v h2.v ^ 2 := by
  unfold meetPoints at hne
  simp only at hne
  have g1 := dot_le_one u1 u2
  have g2 := neg_one_le_dot u1 u2
  generalize Htm.dot h1.v h2.v = g at *
  by_cases c1 : abs (1 - abs g) < 1 / 10 ^ 20
  · rw [if_pos c1] at hne; exact absurd rfl hne
  rw [if_neg c1] at hne
  by_cases c2 : 1 - g ^ 2 < 0
  · rw [if_pos c2] at hne; exact absurd rfl hne
  rw [if_neg c2] at hne
  by_cases c3 : 1 - g ^ 2 < h1.d ^ 2 + h2.d ^ 2 - 2 * g * h1.d * h2.d
  · rw [if_pos c3] at hne; exact absurd rfl hne
  refine ⟨?_, not_lt.1 c3⟩
  rcases eq_or_lt_of_le (not_lt.1 c2) with e | e
  · exfalso
    apply c1
    have : abs g = 1 := by
      rw [← abs_one, ← sq_eq_sq_iff_abs_eq_abs]; linarith
    rw [this]
    norm_num
  · exact e

/-- The two points, in terms of the two vectors and their cross product. -/
theorem both_point {v1 v2 : Vec} (u1 : IsUnit3 v1) (u2 : IsUnit3 v2) {a b w d1 d2 : ℝ} (e1 : a + b * Htm.dot v1 v2 = d1) (e2 : a * Htm.dot v1 v2 + b = d2)
    (e3 : a * d1 + b * d2 + w ^ 2 * (1 - Htm.dot v1 v2 ^ 2) = 1) :
    OnBoth ⟨v1, d1⟩ ⟨v2, d2⟩ (Htm.add (Htm.add (Htm.smul a v1) (Htm.smul b v2)) (Htm.smul w (cross v1 v2))) := by
  have c1 : Htm.dot (cross v1 v2) v1 = 0 := by unfold Htm.dot cross; ring
  have c2 : Htm.dot (cross v1 v2) v2 = 0 := by unfold Htm.dot cross; ring
  have cc := lagrange v1 v2
  rw [unit3_dot u1, unit3_dot u2] at cc
  have x1 : Htm.dot (Htm.add (Htm.add (Htm.smul a v1) (Htm.smul b v2)) (Htm.smul w (cross v1 v2))) v1 = d1 := by
    simp only [add_dot, smul_dot, c1, unit3_dot u1, dot_comm3 v2 v1]
    linear_combination e1
  have x2 : Htm.dot (Htm.add (Htm.add (Htm.smul a v1) (Htm.smul b v2)) (Htm.smul w (cross v1 v2))) v2 = d2 := by
    simp only [add_dot, smul_dot, c2, unit3_dot u2]
    linear_combination e2
  have xx : Htm.dot (Htm.add (Htm.add (Htm.smul a v1) (Htm.smul b v2)) (Htm.smul w (cross v1 v2)))
      (Htm.add (Htm.add (Htm.smul a v1) (Htm.smul b v2)) (Htm.smul w (cross v1 v2))) = 1 := by
    rw [dot_add, dot_add, dot_smul, dot_smul, dot_smul, x1, x2]
    simp only [add_dot, smul_dot, dot_comm3 v1 (cross v1 v2), dot_comm3 v2 (cross v1 v2), c1, c2, cc]
    linear_combination e3
  refine ⟨?_, x1, x2⟩
  unfold IsUnit3
  unfold Htm.dot at xx
  linear_combination xx

/-- The number from the square root. -/
theorem ww_sq {d1 d2 g : ℝ} (hd : 0 < 1 - g ^ 2) (hn : d1 ^ 2 + d2 ^ 2 - 2 * g * d1 * d2 ≤ 1 - g ^ 2) :
    √((1 - (d1 ^ 2 + d2 ^ 2 - 2 * g * d1 * d2) / (1 - g ^ 2)) / (1 - g ^ 2)) ^ 2 * (1 - g ^ 2) = 1 - (d1 ^ 2 + d2 ^ 2 - 2 * g * d1 * d2) / (1 - g ^ 2) := by
  rw [Real.sq_sqrt]
  · field_simp
  · apply div_nonneg _ hd.le
    rw [sub_nonneg, div_le_one hd]
    exact hn

/-- C138. The points returned for two half spaces are points of the sphere on both circles. -/
theorem C138_meet (h1 h2 : Half) (u1 : IsUnit3 h1.v) (u2 : IsUnit3 h2.v) : ∀ p ∈ meetPoints h1 h2, OnBoth h1 h2 p := by
  intro p hp
  obtain ⟨hd, hn⟩ := meet_cases h1 h2 u1 u2 (List.ne_nil_of_mem hp)
  have hw := ww_sq hd hn
  unfold meetPoints at hp
  simp only at hp
  have ea : (h1.d - Htm.dot h1.v h2.v * h2.d) / (1 - Htm.dot h1.v h2.v ^ 2) + (h2.d - Htm.dot h1.v h2.v * h1.d) / (1 - Htm.dot h1.v h2.v ^ 2) * Htm.dot h1.v h2.v = h1.d := by
    have := hd.ne'
    field_simp
    ring
  have eb : (h1.d - Htm.dot h1.v h2.v * h2.d) / (1 - Htm.dot h1.v h2.v ^ 2) * Htm.dot h1.v h2.v + (h2.d - Htm.dot h1.v h2.v * h1.d) / (1 - Htm.dot h1.v h2.v ^ 2) = h2.d := by
    have := hd.ne'
    field_simp
    ring
  have ec : ∀ w : ℝ, w ^ 2 * (1 - Htm.dot h1.v h2.v ^ 2) = 1 - (h1.d ^ 2 + h2.d ^ 2 - 2 * Htm.dot h1.v h2.v * h1.d * h2.d) / (1 - Htm.dot h1.v h2.v ^ 2) →
      (h1.d - Htm.dot h1.v h2.v * h2.d) / (1 - Htm.dot h1.v h2.v ^ 2) * h1.d + (h2.d - Htm.dot h1.v h2.v * h1.d) / (1 - Htm.dot h1.v h2.v ^ 2) * h2.d +
        w ^ 2 * (1 - Htm.dot h1.v h2.v ^ 2) = 1 := by
    intro w h
    rw [h]
    have := hd.ne'
    field_simp
    ring
  generalize (h1.d - Htm.dot h1.v h2.v * h2.d) / (1 - Htm.dot h1.v h2.v ^ 2) = a at *
  generalize (h2.d - Htm.dot h1.v h2.v * h1.d) / (1 - Htm.dot h1.v h2.v ^ 2) = b at *
  generalize √((1 - (h1.d ^ 2 + h2.d ^ 2 - 2 * Htm.dot h1.v h2.v * h1.d * h2.d) / (1 - Htm.dot h1.v h2.v ^ 2)) / (1 - Htm.dot h1.v h2.v ^ 2)) = w at *
  have plus := both_point (w := w) u1 u2 ea eb (ec w hw)
  have minus := both_point (w := -w) u1 u2 ea eb (ec (-w) (by rw [neg_sq]; exact hw))
  have em : Htm.sub (Htm.add (Htm.smul a h1.v) (Htm.smul b h2.v)) (Htm.smul w (cross h1.v h2.v)) =
      Htm.add (Htm.add (Htm.smul a h1.v) (Htm.smul b h2.v)) (Htm.smul (-w) (cross h1.v h2.v)) := by
    apply vec_ext <;> simp only [Htm.sub, Htm.add, Htm.smul] <;> ring
  rw [em] at hp
  split_ifs at hp
  · simp at hp
  · simp at hp
  · simp at hp
  · simp only [List.mem_singleton] at hp
    rw [hp]
    exact plus
  · simp only [List.mem_cons, List.not_mem_nil, or_false] at hp
    rcases hp with rfl | rfl
    · exact plus
    · exact minus

/-- A point in terms of two vectors and their cross product. -/
theorem frame_point {v1 v2 : Vec} (u1 : IsUnit3 v1) (u2 : IsUnit3 v2) (hd : 0 < 1 - Htm.dot v1 v2 ^ 2) (p : Vec) :
    p = Htm.add (Htm.add (Htm.smul ((Htm.dot p v1 - Htm.dot v1 v2 * Htm.dot p v2) / (1 - Htm.dot v1 v2 ^ 2)) v1)
      (Htm.smul ((Htm.dot p v2 - Htm.dot v1 v2 * Htm.dot p v1) / (1 - Htm.dot v1 v2 ^ 2)) v2))
      (Htm.smul (Htm.dot (cross v1 v2) p / (1 - Htm.dot v1 v2 ^ 2)) (cross v1 v2)) := by
  have h := hd.ne'
  have e1 := unit3_dot u1
  have e2 := unit3_dot u2
  have key : ∀ (pi ai bi ci : ℝ), (1 - Htm.dot v1 v2 ^ 2) * pi = (Htm.dot p v1 - Htm.dot v1 v2 * Htm.dot p v2) * ai + (Htm.dot p v2 - Htm.dot v1 v2 * Htm.dot p v1) * bi +
      Htm.dot (cross v1 v2) p * ci → pi = (Htm.dot p v1 - Htm.dot v1 v2 * Htm.dot p v2) / (1 - Htm.dot v1 v2 ^ 2) * ai +
      (Htm.dot p v2 - Htm.dot v1 v2 * Htm.dot p v1) / (1 - Htm.dot v1 v2 ^ 2) * bi + Htm.dot (cross v1 v2) p / (1 - Htm.dot v1 v2 ^ 2) * ci := by
    intro pi ai bi ci hk
    generalize 1 - Htm.dot v1 v2 ^ 2 = den at *
    field_simp
    linarith
  have full : ∀ (g : Vec → ℝ), (g = (·.x) ∨ g = (·.y) ∨ g = (·.z)) →
      (Htm.dot v1 v1 * Htm.dot v2 v2 - Htm.dot v1 v2 ^ 2) * g p = (Htm.dot p v1 * Htm.dot v2 v2 - Htm.dot v1 v2 * Htm.dot p v2) * g v1 +
        (Htm.dot p v2 * Htm.dot v1 v1 - Htm.dot v1 v2 * Htm.dot p v1) * g v2 + Htm.dot (cross v1 v2) p * g (cross v1 v2) := by
    intro g hg
    rcases hg with rfl | rfl | rfl <;> unfold Htm.dot cross <;> ring
  simp only [e1, e2, mul_one] at full
  apply vec_ext <;> simp only [Htm.add, Htm.smul] <;> apply key
  · exact full (·.x) (Or.inl rfl)
  · exact full (·.y) (Or.inr (Or.inl rfl))
  · exact full (·.z) (Or.inr (Or.inr rfl))

/-- C138 in part. When the planes are not close to parallel, every point on both circles is returned; when the two
points are so close that one is returned for both, it is within `2e-10` of them. Missing: planes closer to parallel, for which no point is returned. -/
theorem C138_meet_all_partial (h1 h2 : Half) (u1 : IsUnit3 h1.v) (u2 : IsUnit3 h2.v) (hg : 1 / 10 ^ 20 ≤ 1 - abs (Htm.dot h1.v h2.v)) (p : Vec)
    (hp : OnBoth h1 h2 p) : ∃ q ∈ meetPoints h1 h2, Htm.dot (Htm.sub p q) (Htm.sub p q) ≤ 2 / 10 ^ 20 ∧ ((meetPoints h1 h2).length ≠ 1 → q = p) := by
  obtain ⟨up, e1, e2⟩ := hp
  have ha : abs (Htm.dot h1.v h2.v) < 1 := by
    have : (0 : ℝ) < 1 / 10 ^ 20 := by positivity
    linarith
  have hd : 0 < 1 - Htm.dot h1.v h2.v ^ 2 := by
    have := (sq_lt_one_iff_abs_lt_one _).2 ha
    linarith
  have hfr := frame_point u1 u2 hd p
  rw [e1, e2] at hfr
  have hgr := gram3 h1.v h2.v p
  rw [unit3_dot u1, unit3_dot u2, unit3_dot up, dot_comm3 h2.v p, e1, e2] at hgr
  have hnum : Htm.dot (cross h1.v h2.v) p ^ 2 = (1 - Htm.dot h1.v h2.v ^ 2) - (h1.d ^ 2 + h2.d ^ 2 - 2 * Htm.dot h1.v h2.v * h1.d * h2.d) := by
    linear_combination hgr
  have hn : h1.d ^ 2 + h2.d ^ 2 - 2 * Htm.dot h1.v h2.v * h1.d * h2.d ≤ 1 - Htm.dot h1.v h2.v ^ 2 := by
    have := sq_nonneg (Htm.dot (cross h1.v h2.v) p)
    linarith
  have hw := ww_sq hd hn
  have hw' : (Htm.dot (cross h1.v h2.v) p / (1 - Htm.dot h1.v h2.v ^ 2)) ^ 2 * (1 - Htm.dot h1.v h2.v ^ 2) =
      1 - (h1.d ^ 2 + h2.d ^ 2 - 2 * Htm.dot h1.v h2.v * h1.d * h2.d) / (1 - Htm.dot h1.v h2.v ^ 2) := by
    rw [div_pow, hnum]
    have := hd.ne'
    field_simp
  have c1 := C138_meet h1 h2 u1 u2
  have cc := lagrange h1.v h2.v
  rw [unit3_dot u1, unit3_dot u2, mul_one] at cc
  unfold meetPoints at c1 ⊢
  simp only at c1 ⊢
  have n1 : ¬ abs (1 - abs (Htm.dot h1.v h2.v)) < 1 / 10 ^ 20 := by
    rw [abs_of_pos (by linarith)]
    linarith
  rw [if_neg n1, if_neg (not_lt.2 hd.le), if_neg (not_lt.2 hn)] at c1 ⊢
  generalize (h1.d - Htm.dot h1.v h2.v * h2.d) / (1 - Htm.dot h1.v h2.v ^ 2) = a at *
  generalize (h2.d - Htm.dot h1.v h2.v * h1.d) / (1 - Htm.dot h1.v h2.v ^ 2) = b at *
  generalize √((1 - (h1.d ^ 2 + h2.d ^ 2 - 2 * Htm.dot h1.v h2.v * h1.d * h2.d) / (1 - Htm.dot h1.v h2.v ^ 2)) / (1 - Htm.dot h1.v h2.v ^ 2)) = w at *
  generalize Htm.dot (cross h1.v h2.v) p / (1 - Htm.dot h1.v h2.v ^ 2) = w' at *
  have hww : w' = w ∨ w' = -w := by
    apply sq_eq_sq_iff_eq_or_eq_neg.1
    exact mul_right_cancel₀ hd.ne' (hw'.trans hw.symm)
  have em : Htm.sub (Htm.add (Htm.smul a h1.v) (Htm.smul b h2.v)) (Htm.smul w (cross h1.v h2.v)) =
      Htm.add (Htm.add (Htm.smul a h1.v) (Htm.smul b h2.v)) (Htm.smul (-w) (cross h1.v h2.v)) := by
    apply vec_ext <;> simp only [Htm.sub, Htm.add, Htm.smul] <;> ring
  rw [em] at c1 ⊢
  have zero : Htm.dot (Htm.sub p p) (Htm.sub p p) ≤ 2 / 10 ^ 20 := by
    have : Htm.dot (Htm.sub p p) (Htm.sub p p) = 0 := by unfold Htm.dot Htm.sub; ring
    rw [this]; positivity
  by_cases hc : abs (1 - Htm.dot (Htm.add (Htm.add (Htm.smul a h1.v) (Htm.smul b h2.v)) (Htm.smul w (cross h1.v h2.v)))
      (Htm.add (Htm.add (Htm.smul a h1.v) (Htm.smul b h2.v)) (Htm.smul (-w) (cross h1.v h2.v)))) < 1 / 10 ^ 20
  · rw [if_pos hc] at c1 ⊢
    refine ⟨_, List.mem_singleton_self _, ?_, by simp⟩
    rcases hww with e | e
    · rw [← e, ← hfr]; exact zero
    · obtain ⟨uq, -, -⟩ := c1 _ (List.mem_singleton_self _)
      rw [← e, ← hfr] at hc
      generalize Htm.add (Htm.add (Htm.smul a h1.v) (Htm.smul b h2.v)) (Htm.smul w (cross h1.v h2.v)) = q at *
      have : Htm.dot (Htm.sub p q) (Htm.sub p q) = 2 * (1 - Htm.dot q p) := by
        unfold IsUnit3 at up uq
        unfold Htm.dot Htm.sub
        linear_combination up + uq
      rw [this]
      have := (abs_lt.1 hc).2
      linarith
  · rw [if_neg hc]
    refine ⟨p, ?_, zero, fun _ => rfl⟩
    rcases hww with e | e
    · rw [← e]; exact List.mem_cons.2 (Or.inl hfr)
    · rw [← e]; exact List.mem_cons_of_mem _ (List.mem_cons.2 (Or.inl hfr))

/-- C138 does not hold in full: two great circles `2e-11` apart meet at the pole, and no point is returned. -/
theorem C138_parallel_violated : ∃ h1 h2 p, IsUnit3 h1.v ∧ IsUnit3 h2.v ∧ h1.v ≠ h2.v ∧ OnBoth h1 h2 p ∧ meetPoints h1 h2 = [] := by
  refine ⟨⟨⟨1, 0, 0⟩, 0⟩, ⟨⟨(1 - (1 / 10 ^ 11) ^ 2) / (1 + (1 / 10 ^ 11) ^ 2), 2 * (1 / 10 ^ 11) / (1 + (1 / 10 ^ 11) ^ 2), 0⟩, 0⟩, ⟨0, 0, 1⟩, ?_, ?_, ?_, ?_, ?_⟩
  · unfold IsUnit3; norm_num
  · unfold IsUnit3; norm_num
  · intro h
    have := congrArg Vec.y h
    norm_num at this
  · unfold OnBoth IsUnit3 Htm.dot; norm_num
  · unfold meetPoints
    simp only
    rw [if_pos]
    unfold Htm.dot
    norm_num [abs_of_pos]

/-- The equator and a meridian circle: two points are returned. -/
example : (meetPoints ⟨⟨0, 0, 1⟩, 0⟩ ⟨⟨1, 0, 0⟩, 0⟩).length = 2 ∧ OnBoth ⟨⟨0, 0, 1⟩, 0⟩ ⟨⟨1, 0, 0⟩, 0⟩ ⟨0, 1, 0⟩ := by
  constructor
  · unfold meetPoints
    norm_num [Htm.dot, cross, Htm.add, Htm.sub, Htm.smul]
  · unfold OnBoth IsUnit3 Htm.dot
    norm_num

end Verif
