import Verif.Props.AltAz
import Mathlib.Tactic.Positivity

/-! C121: angular separation; C122: vectors and the radius of a search; C117: separations on the sky. -/

namespace Verif

open Sph Real

theorem dot_comm' (a b : Vec) : dot a b = dot b a := by unfold dot; ring

/-- Cauchy-Schwarz for unit vectors, as squares. -/
theorem unit_dot (a b : Vec) (ha : dot a a = 1) (hb : dot b b = 1) :
    2 - 2 * dot a b = (b.x - a.x) ^ 2 + (b.y - a.y) ^ 2 + (b.z - a.z) ^ 2 ∧
    2 + 2 * dot a b = (b.x + a.x) ^ 2 + (b.y + a.y) ^ 2 + (b.z + a.z) ^ 2 := by
  unfold dot at *
  constructor
  · linear_combination -ha - hb
  · linear_combination -ha - hb

theorem unit_dot_le (a b : Vec) (ha : dot a a = 1) (hb : dot b b = 1) : -1 ≤ dot a b ∧ dot a b ≤ 1 := by
  obtain ⟨h1, h2⟩ := unit_dot a b ha hb
  constructor
  · nlinarith [sq_nonneg (b.x + a.x), sq_nonneg (b.y + a.y), sq_nonneg (b.z + a.z)]
  · nlinarith [sq_nonneg (b.x - a.x), sq_nonneg (b.y - a.y), sq_nonneg (b.z - a.z)]

theorem unit_eq (a b : Vec) (ha : dot a a = 1) (hb : dot b b = 1) (h : dot a b = 1) : a = b := by
  obtain ⟨h1, _⟩ := unit_dot a b ha hb
  rw [h] at h1
  have e1 : b.x - a.x = 0 := by nlinarith [sq_nonneg (b.x - a.x), sq_nonneg (b.y - a.y), sq_nonneg (b.z - a.z)]
  have e2 : b.y - a.y = 0 := by nlinarith [sq_nonneg (b.x - a.x), sq_nonneg (b.y - a.y), sq_nonneg (b.z - a.z)]
  have e3 : b.z - a.z = 0 := by nlinarith [sq_nonneg (b.x - a.x), sq_nonneg (b.y - a.y), sq_nonneg (b.z - a.z)]
  cases a; cases b
  simp only at e1 e2 e3
  congr 1 <;> linarith

/-- C121: the separation of two positions is the angle between their directions, from 0 to half a turn. -/
theorem C121_angle (r1 d1 r2 d2 : ℝ) :
    cos (sep r1 d1 r2 d2) = dot (xyz r1 d1) (xyz r2 d2) ∧ 0 ≤ sep r1 d1 r2 d2 ∧ sep r1 d1 r2 d2 ≤ π := by
  have hs : sin (d2 / 2 - d1 / 2) ^ 2 + cos d1 * cos d2 * sin (r2 / 2 - r1 / 2) ^ 2 = (1 - dot (xyz r1 d1) (xyz r2 d2)) / 2 := by
    rw [dot_xyz, Real.sin_sq_eq_half_sub, Real.sin_sq_eq_half_sub,
      show 2 * (d2 / 2 - d1 / 2) = d1 - d2 - 2 * (d1 - d2) by ring, show 2 * (r2 / 2 - r1 / 2) = -(r1 - r2) by ring, Real.cos_neg,
      show d1 - d2 - 2 * (d1 - d2) = -(d1 - d2) by ring, Real.cos_neg, Real.cos_sub d1 d2]
    ring
  obtain ⟨b1, b2⟩ := unit_dot_le _ _ (xyz_unit r1 d1) (xyz_unit r2 d2)
  set D := dot (xyz r1 d1) (xyz r2 d2) with hD
  have hsep : sep r1 d1 r2 d2 = 2 * arcsin √((1 - D) / 2) := by
    unfold sep
    dsimp only
    rw [hs, if_neg (by linarith)]
  have n0 : 0 ≤ (1 - D) / 2 := by linarith
  have q0 : 0 ≤ √((1 - D) / 2) := Real.sqrt_nonneg _
  have q1 : √((1 - D) / 2) ≤ 1 := by
    have : (1 - D) / 2 ≤ 1 ^ 2 := by linarith
    exact (Real.sqrt_le_sqrt this).trans (by rw [Real.sqrt_sq (by norm_num)])
  rw [hsep]
  refine ⟨?_, ?_, ?_⟩
  · rw [Real.cos_two_mul, Real.cos_sq', Real.sin_arcsin (by linarith) q1, Real.sq_sqrt n0]
    ring
  · linarith [Real.arcsin_nonneg.2 q0]
  · linarith [Real.arcsin_le_pi_div_two √((1 - D) / 2)]

theorem eq_of_cos {a b : ℝ} (ha : 0 ≤ a ∧ a ≤ π) (hb : 0 ≤ b ∧ b ≤ π) (h : cos a = cos b) : a = b :=
  Real.injOn_cos ⟨ha.1, ha.2⟩ ⟨hb.1, hb.2⟩ h

/-- C121: the separation is the same in both directions. -/
theorem C121_symm (r1 d1 r2 d2 : ℝ) : sep r1 d1 r2 d2 = sep r2 d2 r1 d1 := by
  obtain ⟨h1, h2⟩ := C121_angle r1 d1 r2 d2
  obtain ⟨g1, g2⟩ := C121_angle r2 d2 r1 d1
  exact eq_of_cos h2 g2 (by rw [h1, g1, dot_comm'])

/-- C121: it is zero exactly for the same place on the sky. -/
theorem C121_zero (r1 d1 r2 d2 : ℝ) (h1 : IsLat d1) (h2 : IsLat d2) :
    sep r1 d1 r2 d2 = 0 ↔ d1 = d2 ∧ (0 < cos d1 → SameTurn r1 r2) := by
  obtain ⟨g1, g2⟩ := C121_angle r1 d1 r2 d2
  constructor
  · intro h
    rw [h, Real.cos_zero] at g1
    exact xyz_unique (unit_eq _ _ (xyz_unit _ _) (xyz_unit _ _) g1.symm) h1 h2
  · rintro ⟨rfl, h⟩
    refine eq_of_cos g2 ⟨le_refl _, Real.pi_pos.le⟩ ?_
    rw [g1, Real.cos_zero, dot_xyz]
    rcases h1.cos_nonneg.eq_or_lt with hc | hc
    · rw [← hc]
      have := Real.cos_sq_add_sin_sq d1
      rw [← hc] at this
      linarith
    · have : cos (r1 - r2) = 1 := by
        obtain ⟨k, rfl⟩ := h hc
        rw [show r2 + k * (2 * π) - r2 = 0 + k * (2 * π) by ring, Real.cos_add_int_mul_two_pi, Real.cos_zero]
      rw [this]
      linear_combination Real.cos_sq_add_sin_sq d1

/-- The volume spanned by three unit vectors, squared. -/
theorem gram (a b c : Vec) (ha : dot a a = 1) (hb : dot b b = 1) (hc : dot c c = 1) :
    (dot a c - dot a b * dot b c) ^ 2 ≤ (1 - dot a b ^ 2) * (1 - dot b c ^ 2) := by
  have key : (1 - dot a b ^ 2) * (1 - dot b c ^ 2) - (dot a c - dot a b * dot b c) ^ 2 =
      (a.x * (b.y * c.z - b.z * c.y) + a.y * (b.z * c.x - b.x * c.z) + a.z * (b.x * c.y - b.y * c.x)) ^ 2 := by
    have e : (1 - dot a b ^ 2) * (1 - dot b c ^ 2) - (dot a c - dot a b * dot b c) ^ 2 =
        1 + 2 * dot a b * dot b c * dot a c - dot a b ^ 2 - dot b c ^ 2 - dot a c ^ 2 := by ring
    have e2 : 1 + 2 * dot a b * dot b c * dot a c - dot a b ^ 2 - dot b c ^ 2 - dot a c ^ 2 =
        dot a a * dot b b * dot c c + 2 * dot a b * dot b c * dot a c - dot c c * dot a b ^ 2 - dot a a * dot b c ^ 2 - dot b b * dot a c ^ 2 := by
      rw [ha, hb, hc]; ring
    rw [e, e2]
    unfold dot
    ring
  have := sq_nonneg (a.x * (b.y * c.z - b.z * c.y) + a.y * (b.z * c.x - b.x * c.z) + a.z * (b.x * c.y - b.y * c.x))
  linarith

/-- C121: a detour is never shorter. -/
theorem C121_triangle (r1 d1 r2 d2 r3 d3 : ℝ) : sep r1 d1 r3 d3 ≤ sep r1 d1 r2 d2 + sep r2 d2 r3 d3 := by
  obtain ⟨a1, a2, a3⟩ := C121_angle r1 d1 r2 d2
  obtain ⟨b1, b2, b3⟩ := C121_angle r2 d2 r3 d3
  obtain ⟨c1, c2, c3⟩ := C121_angle r1 d1 r3 d3
  have hg := gram _ _ _ (xyz_unit r1 d1) (xyz_unit r2 d2) (xyz_unit r3 d3)
  rw [← a1, ← b1, ← c1] at hg
  set A := sep r1 d1 r2 d2
  set B := sep r2 d2 r3 d3
  set C := sep r1 d1 r3 d3
  by_contra hlt
  push Not at hlt
  have hsA : 0 ≤ sin A := Real.sin_nonneg_of_nonneg_of_le_pi a2 a3
  have hsB : 0 ≤ sin B := Real.sin_nonneg_of_nonneg_of_le_pi b2 b3
  have h1 : cos C < cos (A + B) := Real.cos_lt_cos_of_nonneg_of_le_pi (by linarith) c3 hlt
  rw [Real.cos_add] at h1
  have h2 : (1 - cos A ^ 2) * (1 - cos B ^ 2) = (sin A * sin B) ^ 2 := by
    rw [← Real.sin_sq, ← Real.sin_sq]; ring
  rw [h2] at hg
  have h3 := abs_le.1 (abs_le_of_sq_le_sq hg (mul_nonneg hsA hsB))
  linarith [h3.1]

/-- C117: the separation of two targets is that of the places where they are seen. -/
theorem C117_separation {lat t r1 d1 r2 d2 alt1 az1 alt2 az2 : ℝ} (h1 : SeenAt lat t (xyz r1 d1) alt1 az1)
    (h2 : SeenAt lat t (xyz r2 d2) alt2 az2) : sep az1 alt1 az2 alt2 = sep r1 d1 r2 d2 := by
  obtain ⟨a1, a2⟩ := C121_angle az1 alt1 az2 alt2
  obtain ⟨b1, b2⟩ := C121_angle r1 d1 r2 d2
  refine eq_of_cos a2 b2 ?_
  rw [a1, b1, ← frame_dot lat t (xyz r1 d1) (xyz r2 d2), h1.1, h1.2.1, h1.2.2, h2.1, h2.2.1, h2.2.2, dot_xyz, Real.cos_sub]
  ring

/-- C117: what is above the horizon: the altitude is positive exactly when the direction is within 90 degrees of the zenith. -/
theorem C117_up {lat t ra dec alt az : ℝ} (h : SeenAt lat t (xyz ra dec) alt az) (ha : IsLat alt) : sep ra dec t lat = π / 2 - alt := by
  obtain ⟨b1, b2⟩ := C121_angle ra dec t lat
  refine eq_of_cos b2 ⟨by linarith [ha.2], by linarith [ha.1]⟩ ?_
  rw [b1, Real.cos_pi_div_two_sub, ← h.1]
  unfold dot xyz upV
  ring

/-- C122: two positions are within an angle of each other exactly when the distance of their vectors is at most that
given by `xyz_angular_radius`, so that searching a tree of vectors finds what is within the angle. -/
theorem C122_radius (r1 d1 r2 d2 r : ℝ) (h0 : 0 ≤ r) (h1 : r ≤ π) :
    chord (xyz r1 d1) (xyz r2 d2) ≤ radius3 r ↔ sep r1 d1 r2 d2 ≤ r := by
  obtain ⟨a1, a2, a3⟩ := C121_angle r1 d1 r2 d2
  have e1 : chord (xyz r1 d1) (xyz r2 d2) = √(2 - 2 * cos (sep r1 d1 r2 d2)) := by
    unfold chord
    rw [← (unit_dot _ _ (xyz_unit r1 d1) (xyz_unit r2 d2)).1, a1]
  have e2 : radius3 r = √(2 - 2 * cos r) := by
    unfold radius3 chord xyz
    congr 1
    simp only [Real.cos_zero, Real.sin_zero, mul_one]
    linear_combination Real.cos_sq_add_sin_sq r
  rw [e1, e2, Real.sqrt_le_sqrt_iff (by linarith [Real.cos_le_one r])]
  constructor
  · intro h
    by_contra hc
    push Not at hc
    have := Real.cos_lt_cos_of_nonneg_of_le_pi h0 a3 hc
    linarith
  · intro h
    have := Real.cos_le_cos_of_nonneg_of_le_pi a2 h1 h
    linarith

/-- C122: the position of a vector is in its direction, whatever its length. -/
theorem C122_direction (v : Vec) (hv : 0 < dot v v) :
    let p := raDec v
    let n := √(dot v v)
    v = ⟨n * (xyz p.1 p.2).x, n * (xyz p.1 p.2).y, n * (xyz p.1 p.2).z⟩ ∧ IsLat p.2 := by
  intro p n
  have hn : 0 < n := Real.sqrt_pos.2 hv
  have hn2 : n ^ 2 = dot v v := Real.sq_sqrt hv.le
  have hp : p = (atan2 v.y v.x, arcsin (v.z / n)) := by
    simp only [p, n, raDec, dot]
    congr 4
    ring
  have hz1 : v.z ^ 2 ≤ n ^ 2 := by rw [hn2]; unfold dot; nlinarith [sq_nonneg v.x, sq_nonneg v.y]
  have hz := abs_le.1 (abs_le_of_sq_le_sq hz1 hn.le)
  have b1 : -1 ≤ v.z / n := by rw [le_div_iff₀ hn]; linarith [hz.1]
  have b2 : v.z / n ≤ 1 := by rw [div_le_iff₀ hn]; linarith [hz.2]
  have hs : n * sin (arcsin (v.z / n)) = v.z := by
    rw [Real.sin_arcsin b1 b2, mul_div_assoc', mul_comm, mul_div_assoc, div_self hn.ne', mul_one]
  have hc : n * cos (arcsin (v.z / n)) = √(v.x ^ 2 + v.y ^ 2) := by
    rw [Real.cos_arcsin]
    nth_rewrite 1 [← Real.sqrt_sq hn.le]
    rw [← Real.sqrt_mul (by positivity)]
    congr 1
    rw [mul_sub, div_pow, mul_div_assoc', mul_comm (n ^ 2) (v.z ^ 2), mul_div_assoc, div_self (by positivity), hn2]
    unfold dot
    ring
  rw [hp]
  refine ⟨?_, isLat_arcsin _⟩
  have h1 := atan2_cos v.y v.x
  have h2 := atan2_sin v.y v.x
  rw [← hc] at h1 h2
  unfold xyz
  cases v
  simp only [Vec.mk.injEq] at *
  refine ⟨?_, ?_, hs.symm⟩
  · linear_combination -h1
  · linear_combination -h2

/-- C122: back from the vector of a position to the position. -/
theorem C122_round (ra dec : ℝ) (hd : IsLat dec) (hc : 0 < cos dec) :
    SameTurn (raDec (xyz ra dec)).1 ra ∧ (raDec (xyz ra dec)).2 = dec := by
  obtain ⟨h1, h2⟩ := C122_direction (xyz ra dec) (by rw [xyz_unit]; norm_num)
  simp only [xyz_unit, Real.sqrt_one, one_mul] at h1
  obtain ⟨e1, e2⟩ := xyz_unique (h1 : xyz ra dec = xyz _ _) hd h2
  exact ⟨(e2 hc).symm, e1.symm⟩

/-- C122: turning about an axis keeps all angles; turning about the z axis adds to the right ascension; and
the turns take one axis to another as described. -/
theorem C122_turns (t : ℝ) (a b : Vec) (ra dec : ℝ) :
    dot (rotX t a) (rotX t b) = dot a b ∧ dot (rotY t a) (rotY t b) = dot a b ∧ dot (rotZ t a) (rotZ t b) = dot a b ∧
    rotZ t (xyz ra dec) = xyz (ra + t) dec ∧
    rotX (π / 2) ⟨0, 1, 0⟩ = ⟨0, 0, 1⟩ ∧ rotY (π / 2) ⟨1, 0, 0⟩ = ⟨0, 0, -1⟩ ∧ rotZ (π / 2) ⟨1, 0, 0⟩ = ⟨0, 1, 0⟩ ∧
    rotX t ⟨1, 0, 0⟩ = ⟨1, 0, 0⟩ ∧ rotY t ⟨0, 1, 0⟩ = ⟨0, 1, 0⟩ ∧ rotZ t ⟨0, 0, 1⟩ = ⟨0, 0, 1⟩ := by
  have h := Real.cos_sq_add_sin_sq t
  refine ⟨?_, ?_, ?_, ?_, ?_, ?_, ?_, ?_, ?_, ?_⟩
  · unfold dot rotX
    linear_combination (a.y * b.y + a.z * b.z) * h
  · unfold dot rotY
    linear_combination (a.x * b.x + a.z * b.z) * h
  · unfold dot rotZ
    linear_combination (a.x * b.x + a.y * b.y) * h
  · unfold rotZ xyz
    rw [Real.cos_add, Real.sin_add]
    congr 1 <;> ring
  all_goals simp [rotX, rotY, rotZ]

/-- Two directions a quarter of a turn apart. -/
example : sep 0 0 (π / 2) 0 = π / 2 ∧ 0 < dot (xyz 1 1) (xyz 1 1) := by
  obtain ⟨h1, h2⟩ := C121_angle 0 0 (π / 2) 0
  have p := Real.pi_pos
  refine ⟨eq_of_cos h2 ⟨by linarith, by linarith⟩ ?_, by rw [xyz_unit]; norm_num⟩
  rw [h1, dot_xyz]
  simp

end Verif
