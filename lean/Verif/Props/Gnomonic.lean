import Verif.Props.Bearing

/-! C124: the projection to the plane that touches the sky at the pointing, and back. C125: what the camera sees. -/

namespace Verif

open Sph Real

/-- The point of the plane touching the sky at a pointing, `x` to the east and `y` to the north of it. -/
noncomputable def onPlane (ra0 dec0 x y : ℝ) : Vec :=
  ⟨(xyz ra0 dec0).x + x * (eastAt ra0).x + y * (northAt ra0 dec0).x,
    (xyz ra0 dec0).y + x * (eastAt ra0).y + y * (northAt ra0 dec0).y,
    (xyz ra0 dec0).z + x * (eastAt ra0).z + y * (northAt ra0 dec0).z⟩

theorem onPlane_dots (ra0 dec0 x y : ℝ) :
    dot (onPlane ra0 dec0 x y) (xyz ra0 dec0) = 1 ∧ dot (onPlane ra0 dec0 x y) (northAt ra0 dec0) = y ∧
    dot (onPlane ra0 dec0 x y) (eastAt ra0) = x := by
  have ol : sin ra0 ^ 2 = 1 - cos ra0 ^ 2 := by linarith [Real.cos_sq_add_sin_sq ra0]
  have ll : sin dec0 ^ 2 = 1 - cos dec0 ^ 2 := by linarith [Real.cos_sq_add_sin_sq dec0]
  refine ⟨?_, ?_, ?_⟩ <;>
  · unfold dot onPlane xyz northAt eastAt
    dsimp only
    ring_nf
    simp only [ol, ll]
    ring

/-- A vector, stretched. -/
def stretched (k : ℝ) (v : Vec) : Vec := ⟨k * v.x, k * v.y, k * v.z⟩

theorem dot_stretched (k : ℝ) (v w : Vec) : dot (stretched k v) w = k * dot v w := by unfold dot stretched; ring

theorem sky_dots (ra dec ra0 dec0 : ℝ) :
    dot (xyz ra dec) (xyz ra0 dec0) = sin dec0 * sin dec + cos dec0 * cos dec * cos (ra - ra0) ∧
    dot (xyz ra dec) (eastAt ra0) = cos dec * sin (ra - ra0) ∧
    dot (xyz ra dec) (northAt ra0 dec0) = cos dec0 * sin dec - sin dec0 * cos dec * cos (ra - ra0) := by
  refine ⟨?_, ?_, ?_⟩
  · rw [Real.cos_sub]; unfold dot xyz; ring
  · rw [Real.sin_sub]; unfold dot xyz eastAt; ring
  · rw [Real.cos_sub]; unfold dot xyz northAt; ring

/-- C124: the projection is along the line of sight: a position less than 90 degrees from the pointing is the direction to the point of
the touching plane it is projected to. -/
theorem C124_plane (ra dec ra0 dec0 : ℝ) (h : 0 < dot (xyz ra dec) (xyz ra0 dec0)) :
    let p := toXY ra dec ra0 dec0
    ∃ k, 0 < k ∧ stretched k (onPlane ra0 dec0 p.1 p.2) = xyz ra dec := by
  intro p
  obtain ⟨s1, s2, s3⟩ := sky_dots ra dec ra0 dec0
  refine ⟨_, h, ?_⟩
  have hp : p = (dot (xyz ra dec) (eastAt ra0) / dot (xyz ra dec) (xyz ra0 dec0),
      dot (xyz ra dec) (northAt ra0 dec0) / dot (xyz ra dec) (xyz ra0 dec0)) := by rw [s1, s2, s3]; rfl
  obtain ⟨a1, a2, a3⟩ := onPlane_dots ra0 dec0 p.1 p.2
  refine eq_of_dots ra0 dec0 ?_ ?_ ?_
  · rw [dot_stretched, a1, mul_one]
  · rw [dot_stretched, a2, hp]; exact mul_div_cancel₀ _ h.ne'
  · rw [dot_stretched, a3, hp]; exact mul_div_cancel₀ _ h.ne'

/-- C124: and back: the position for a point of the plane is the direction to it, with a declination between the poles. -/
theorem C124_sky (x y ra0 dec0 : ℝ) :
    let p := toSky x y ra0 dec0
    stretched √(1 + x ^ 2 + y ^ 2) (xyz p.1 p.2) = onPlane ra0 dec0 x y ∧ IsLat p.2 := by
  intro p
  set u := cos dec0 - y * sin dec0 with hu
  set z := sin dec0 + y * cos dec0 with hz
  have hp : p = (ra0 + atan2 x u, atan2 z √(x * x + u * u)) := rfl
  set r := √(x * x + u * u) with hr
  have hr0 : 0 ≤ r := Real.sqrt_nonneg _
  have hr2 : r ^ 2 = x * x + u * u := Real.sq_sqrt (by nlinarith [sq_nonneg x, sq_nonneg u])
  have cs := Real.cos_sq_add_sin_sq dec0
  have hR : r ^ 2 + z ^ 2 = 1 + x ^ 2 + y ^ 2 := by
    rw [hr2, hu, hz]; linear_combination (1 + y ^ 2) * cs
  set R := √(1 + x ^ 2 + y ^ 2) with hRd
  have hRpos : 0 < R := Real.sqrt_pos.2 (by nlinarith [sq_nonneg x, sq_nonneg y])
  have e1 : R * cos p.2 = r := by rw [hp, hRd, ← hR]; exact atan2_cos z r
  have e2 : R * sin p.2 = z := by rw [hp, hRd, ← hR]; exact atan2_sin z r
  have e3 : r * cos (atan2 x u) = u := by
    have := atan2_cos x u; rwa [show u ^ 2 + x ^ 2 = x * x + u * u by ring, ← hr] at this
  have e4 : r * sin (atan2 x u) = x := by
    have := atan2_sin x u; rwa [show u ^ 2 + x ^ 2 = x * x + u * u by ring, ← hr] at this
  constructor
  · obtain ⟨s1, s2, s3⟩ := sky_dots p.1 p.2 ra0 dec0
    obtain ⟨a1, a2, a3⟩ := onPlane_dots ra0 dec0 x y
    have hd : p.1 - ra0 = atan2 x u := by rw [hp]; ring
    rw [hd] at s1 s2 s3
    refine eq_of_dots ra0 dec0 ?_ ?_ ?_
    · rw [dot_stretched, a1, s1]
      linear_combination sin dec0 * e2 + cos dec0 * cos (atan2 x u) * e1 + cos dec0 * e3 + cos dec0 * hu + sin dec0 * hz + cs
    · rw [dot_stretched, a2, s3]
      linear_combination cos dec0 * e2 - sin dec0 * cos (atan2 x u) * e1 - sin dec0 * e3 - sin dec0 * hu + cos dec0 * hz + y * cs
    · rw [dot_stretched, a3, s2]
      linear_combination sin (atan2 x u) * e1 + e4
  · have hpos : 0 ≤ cos p.2 := by
      by_contra hneg
      have := mul_neg_of_pos_of_neg hRpos (not_le.1 hneg)
      linarith
    have hab : |atan2 z r| ≤ π / 2 := by
      rw [atan2, Complex.abs_arg_le_pi_div_two_iff]
      exact hr0
    rw [hp]
    exact abs_le.1 hab

/-- C124: projecting and going back returns the position, when it is less than 90 degrees from the pointing. -/
theorem C124_there_and_back (ra dec ra0 dec0 : ℝ) (h : 0 < dot (xyz ra dec) (xyz ra0 dec0)) (hd : IsLat dec) :
    let p := toXY ra dec ra0 dec0
    let q := toSky p.1 p.2 ra0 dec0
    q.2 = dec ∧ (0 < cos dec → SameTurn q.1 ra) := by
  intro p q
  obtain ⟨k, hk, e⟩ := C124_plane ra dec ra0 dec0 h
  obtain ⟨g, l⟩ := C124_sky p.1 p.2 ra0 dec0
  set R := √(1 + p.1 ^ 2 + p.2 ^ 2)
  have hR : 0 ≤ R := Real.sqrt_nonneg _
  have e' : stretched (k * R) (xyz q.1 q.2) = xyz ra dec := by
    rw [← e]
    show _ = stretched k (onPlane ra0 dec0 p.1 p.2)
    rw [← g]
    unfold stretched
    congr 1 <;> ring
  -- both are unit vectors, so the factor is one
  have hone : (k * R) ^ 2 = 1 := by
    have h1 := xyz_unit ra dec
    have h2 := xyz_unit q.1 q.2
    rw [← e'] at h1
    have : dot (stretched (k * R) (xyz q.1 q.2)) (stretched (k * R) (xyz q.1 q.2)) = (k * R) ^ 2 * dot (xyz q.1 q.2) (xyz q.1 q.2) := by
      unfold dot stretched; ring
    rw [this, h2, mul_one] at h1
    exact h1
  have h1 : k * R = 1 := by
    have : 0 ≤ k * R := mul_nonneg hk.le hR
    nlinarith
  have e2 : xyz q.1 q.2 = xyz ra dec := by
    rw [← e', h1]; unfold stretched; simp
  obtain ⟨r1, r2⟩ := xyz_unique e2 l hd
  exact ⟨r1, fun hc => r2 (by rw [r1]; exact hc)⟩

/-- C124: going to the sky and projecting returns the point of the plane, for every point. -/
theorem C124_back_and_there (x y ra0 dec0 : ℝ) :
    let p := toSky x y ra0 dec0
    toXY p.1 p.2 ra0 dec0 = (x, y) := by
  intro p
  obtain ⟨g, _⟩ := C124_sky x y ra0 dec0
  set R := √(1 + x ^ 2 + y ^ 2) with hR
  have hRpos : 0 < R := Real.sqrt_pos.2 (by nlinarith [sq_nonneg x, sq_nonneg y])
  obtain ⟨s1, s2, s3⟩ := sky_dots p.1 p.2 ra0 dec0
  obtain ⟨a1, a2, a3⟩ := onPlane_dots ra0 dec0 x y
  rw [← g, dot_stretched] at a1 a2 a3
  have hc : dot (xyz p.1 p.2) (xyz ra0 dec0) ≠ 0 := by
    intro h0; rw [h0] at a1; simp at a1
  have hx : dot (xyz p.1 p.2) (eastAt ra0) = x * dot (xyz p.1 p.2) (xyz ra0 dec0) := by
    apply mul_left_cancel₀ hRpos.ne'
    rw [a3]
    linear_combination (-x) * a1
  have hy : dot (xyz p.1 p.2) (northAt ra0 dec0) = y * dot (xyz p.1 p.2) (xyz ra0 dec0) := by
    apply mul_left_cancel₀ hRpos.ne'
    rw [a2]
    linear_combination (-y) * a1
  unfold toXY
  dsimp only
  rw [← s1, ← s2, ← s3, hx, hy, mul_div_assoc, mul_div_assoc, div_self hc, mul_one, mul_one]

/-- C124: the distance in the plane is the tangent of the separation from the pointing. -/
theorem C124_distance (ra dec ra0 dec0 : ℝ) (h : sep ra dec ra0 dec0 < π / 2) :
    let p := toXY ra dec ra0 dec0
    √(p.1 ^ 2 + p.2 ^ 2) = tan (sep ra dec ra0 dec0) := by
  intro p
  obtain ⟨d1, d2, d3⟩ := C121_angle ra dec ra0 dec0
  obtain ⟨s1, s2, s3⟩ := sky_dots ra dec ra0 dec0
  have hp : p = (dot (xyz ra dec) (eastAt ra0) / dot (xyz ra dec) (xyz ra0 dec0),
      dot (xyz ra dec) (northAt ra0 dec0) / dot (xyz ra dec) (xyz ra0 dec0)) := by rw [s1, s2, s3]; rfl
  have hf := here_frame ra0 dec0 (xyz ra dec) (xyz ra dec)
  rw [xyz_unit, ← d1] at hf
  have hcos : 0 < cos (sep ra dec ra0 dec0) := Real.cos_pos_of_mem_Ioo ⟨by linarith [Real.pi_pos], h⟩
  have hsin : 0 ≤ sin (sep ra dec ra0 dec0) := Real.sin_nonneg_of_nonneg_of_le_pi d2 d3
  rw [hp, ← d1]
  dsimp only
  have hs2 := Real.sin_sq (sep ra dec ra0 dec0)
  have : (dot (xyz ra dec) (eastAt ra0) / cos (sep ra dec ra0 dec0)) ^ 2 +
      (dot (xyz ra dec) (northAt ra0 dec0) / cos (sep ra dec ra0 dec0)) ^ 2 =
      (sin (sep ra dec ra0 dec0) / cos (sep ra dec ra0 dec0)) ^ 2 := by
    rw [div_pow, div_pow, div_pow, ← add_div]
    congr 1
    linarith
  rw [this, Real.sqrt_sq (div_nonneg hsin hcos.le), Real.tan_eq_sin_div_cos]

/-- C124 is violated beyond 90 degrees: a position and the one opposite to it on the sky are projected to the same point. -/
theorem C124_opposite_violated (ra dec ra0 dec0 : ℝ) : toXY (ra + π) (-dec) ra0 dec0 = toXY ra dec ra0 dec0 := by
  unfold toXY
  dsimp only
  rw [show ra + π - ra0 = (ra - ra0) + π by ring, Real.sin_add_pi, Real.cos_add_pi, Real.sin_neg, Real.cos_neg]
  rw [show sin dec0 * -sin dec + cos dec0 * cos dec * -cos (ra - ra0) =
    -(sin dec0 * sin dec + cos dec0 * cos dec * cos (ra - ra0)) by ring]
  refine Prod.ext ?_ ?_
  · dsimp only
    rw [mul_neg, neg_div_neg_eq]
  · dsimp only
    rw [show cos dec0 * -sin dec - sin dec0 * cos dec * -cos (ra - ra0) =
      -(cos dec0 * sin dec - sin dec0 * cos dec * cos (ra - ra0)) by ring, neg_div_neg_eq]

/-- C124: rotating keeps the distance to the centre, turns add, and a turn by nothing changes nothing; a point at the angle `t` goes to
`t` plus the rotation. -/
theorem C124_rotate (x y s t : ℝ) :
    (rotate x y s).1 ^ 2 + (rotate x y s).2 ^ 2 = x ^ 2 + y ^ 2 ∧
    rotate (rotate x y s).1 (rotate x y s).2 t = rotate x y (s + t) ∧
    rotate x y 0 = (x, y) ∧
    ∀ r, rotate (r * cos t) (r * sin t) s = (r * cos (t + s), r * sin (t + s)) := by
  have h := Real.cos_sq_add_sin_sq s
  refine ⟨?_, ?_, ?_, fun r => ?_⟩
  · unfold rotate; linear_combination (x ^ 2 + y ^ 2) * h
  · unfold rotate
    rw [Real.cos_add, Real.sin_add]
    refine Prod.ext ?_ ?_ <;> · dsimp only; ring
  · unfold rotate; simp
  · unfold rotate
    rw [Real.cos_add, Real.sin_add]
    refine Prod.ext ?_ ?_ <;> · dsimp only; ring

theorem rnd_near (x : ℝ) : |x - rnd x| ≤ 1 / 2 := by
  have h1 := Int.floor_le x
  have h2 := Int.lt_floor_add_one x
  unfold rnd
  rw [abs_le]
  split
  · constructor <;> linarith
  · split
    · push_cast; constructor <;> linarith
    · split
      · constructor <;> linarith
      · push_cast; constructor <;> linarith

theorem rnd_of_near {x : ℝ} {i : ℤ} (h : |x - i| < 1 / 2) : rnd x = i := by
  have h1 := rnd_near x
  rw [abs_le] at h1
  rw [abs_lt] at h
  have a : ((rnd x - i : ℤ) : ℝ) < 1 := by push_cast; linarith [h1.1, h.2]
  have b : (-1 : ℝ) < ((rnd x - i : ℤ) : ℝ) := by push_cast; linarith [h1.2, h.1]
  have a' : rnd x - i < 1 := by exact_mod_cast a
  have b' : -1 < rnd x - i := by exact_mod_cast b
  omega

/-- Where on the camera a position falls. -/
noncomputable def focal (ra dec ra0 dec0 rot : ℝ) : ℝ × ℝ :=
  rotate (toXY ra dec ra0 dec0).1 (toXY ra dec ra0 dec0).2 rot

/-- C125: what the camera is said to see falls in a cell of its map (within half a cell on both axes) that is silicon and within the largest radius. -/
theorem C125_sound (c : Camera) (ra dec ra0 dec0 rot : ℝ) (hs : 0 < c.scale) (h : c.sees ra dec ra0 dec0 rot) :
    let q := focal ra dec ra0 dec0 rot
    ∃ i j : ℤ, 0 ≤ i ∧ i < c.n ∧ 0 ≤ j ∧ j < c.n ∧ c.image i j = true ∧
      |q.1 - c.place i| ≤ c.scale / 2 ∧ |q.2 - c.place j| ≤ c.scale / 2 ∧
      √(c.place i ^ 2 + c.place j ^ 2) ≤ c.maxRadius := by
  intro q
  obtain ⟨i0, i1, j0, j1, im, mr⟩ := h
  have cell : ∀ t : ℝ, |t - c.place (rnd ((t - c.place 0) / c.scale))| ≤ c.scale / 2 := by
    intro t
    have h1 := rnd_near ((t - c.place 0) / c.scale)
    set k := rnd ((t - c.place 0) / c.scale)
    have e : t - c.place k = ((t - c.place 0) / c.scale - k) * c.scale := by
      have := div_mul_cancel₀ (t - c.place 0) hs.ne'
      rw [sub_mul, this]
      unfold Camera.place
      push_cast
      ring
    rw [e, abs_mul, abs_of_pos hs]
    nlinarith
  refine ⟨_, _, i0, i1, j0, j1, im, cell _, cell _, ?_⟩
  rw [add_comm]
  exact not_lt.1 mr

/-- C125: and it sees what falls inside such a cell. -/
theorem C125_complete (c : Camera) (ra dec ra0 dec0 rot : ℝ) (hs : 0 < c.scale) {i j : ℤ}
    (hi : 0 ≤ i ∧ i < c.n) (hj : 0 ≤ j ∧ j < c.n) (him : c.image i j = true)
    (hx : |(focal ra dec ra0 dec0 rot).1 - c.place i| < c.scale / 2)
    (hy : |(focal ra dec ra0 dec0 rot).2 - c.place j| < c.scale / 2)
    (hr : √(c.place i ^ 2 + c.place j ^ 2) ≤ c.maxRadius) : c.sees ra dec ra0 dec0 rot := by
  have cell : ∀ (t : ℝ) (k : ℤ), |t - c.place k| < c.scale / 2 → rnd ((t - c.place 0) / c.scale) = k := by
    intro t k hk
    apply rnd_of_near
    have e : (t - c.place 0) / c.scale - k = (t - c.place k) / c.scale := by
      rw [div_sub' hs.ne']
      congr 1
      unfold Camera.place
      push_cast
      ring
    rw [e, abs_div, abs_of_pos hs, div_lt_iff₀ hs]
    linarith
  unfold Camera.sees
  dsimp only
  have e1 := cell _ _ hx
  have e2 := cell _ _ hy
  unfold focal at e1 e2
  rw [e1, e2]
  refine ⟨hi.1, hi.2, hj.1, hj.2, him, ?_⟩
  rw [add_comm]
  exact not_lt.2 hr

/-- C125, in part: nothing within 90 degrees of the pointing is seen whose separation from it is more than the largest radius and half the
diagonal of a cell (in the plane, so as a tangent). Missing: what is further away, see below. -/
theorem C125_radius_partial (c : Camera) (ra dec ra0 dec0 rot : ℝ) (hs : 0 < c.scale) (h : c.sees ra dec ra0 dec0 rot)
    (hn : sep ra dec ra0 dec0 < π / 2) : tan (sep ra dec ra0 dec0) ≤ c.maxRadius + c.scale / √2 := by
  obtain ⟨i, j, _, _, _, _, _, hx, hy, hr⟩ := C125_sound c ra dec ra0 dec0 rot hs h
  have hd := C124_distance ra dec ra0 dec0 hn
  have hrot := (C124_rotate (toXY ra dec ra0 dec0).1 (toXY ra dec ra0 dec0).2 rot 0).1
  change (focal ra dec ra0 dec0 rot).1 ^ 2 + (focal ra dec ra0 dec0 rot).2 ^ 2 = _ at hrot
  dsimp only at hd
  rw [← hrot] at hd
  rw [← hd]
  set q := focal ra dec ra0 dec0 rot
  -- the triangle inequality in the plane
  have key : √(q.1 ^ 2 + q.2 ^ 2) ≤ √(c.place i ^ 2 + c.place j ^ 2) + √((q.1 - c.place i) ^ 2 + (q.2 - c.place j) ^ 2) := by
    have := norm_add_le (⟨c.place i, c.place j⟩ : ℂ) ⟨q.1 - c.place i, q.2 - c.place j⟩
    rw [Complex.norm_eq_sqrt_sq_add_sq, Complex.norm_eq_sqrt_sq_add_sq, Complex.norm_eq_sqrt_sq_add_sq] at this
    simpa using this
  have hdiag : √((q.1 - c.place i) ^ 2 + (q.2 - c.place j) ^ 2) ≤ c.scale / √2 := by
    have h1 : (q.1 - c.place i) ^ 2 ≤ (c.scale / 2) ^ 2 := by rw [← sq_abs]; exact pow_le_pow_left₀ (abs_nonneg _) hx 2
    have h2 : (q.2 - c.place j) ^ 2 ≤ (c.scale / 2) ^ 2 := by rw [← sq_abs]; exact pow_le_pow_left₀ (abs_nonneg _) hy 2
    apply Real.sqrt_le_iff.2
    refine ⟨by positivity, ?_⟩
    rw [div_pow, Real.sq_sqrt (by norm_num)]
    nlinarith
  linarith

/-- C125 is violated on the other side of the sky: whatever is opposite to something the camera sees is said to be seen too. -/
theorem C125_opposite_violated (c : Camera) (ra dec ra0 dec0 rot : ℝ) (h : c.sees ra dec ra0 dec0 rot) :
    c.sees (ra + π) (-dec) ra0 dec0 rot := by
  unfold Camera.sees at h ⊢
  rw [C124_opposite_violated]
  exact h

/-- A camera of one cell sees the pointing, and the point opposite to it. -/
example : let c : Camera := ⟨1, 0, 1, fun _ _ => true, 1⟩
    c.sees 0 0 0 0 0 ∧ c.sees (0 + π) (-0) 0 0 0 := by
  intro c
  have h : c.sees 0 0 0 0 0 := by
    refine C125_complete c 0 0 0 0 0 (by norm_num [c]) (i := 0) (j := 0) ⟨le_refl _, by norm_num [c]⟩ ⟨le_refl _, by norm_num [c]⟩ rfl ?_ ?_ ?_ <;>
      norm_num [focal, rotate, toXY, Camera.place, c]
  exact ⟨h, C125_opposite_violated c 0 0 0 0 0 h⟩

/-- A position sixty degrees from the pointing. -/
example : 0 < dot (xyz (π / 3) 0) (xyz 0 0) ∧ sep (π / 3) 0 0 0 < π / 2 := by
  obtain ⟨h1, h2⟩ := C121_angle (π / 3) 0 0 0
  have p := Real.pi_pos
  have h3 : dot (xyz (π / 3) 0) (xyz 0 0) = cos (π / 3) := by rw [dot_xyz]; simp
  have h4 : 0 < cos (π / 3) := Real.cos_pos_of_mem_Ioo ⟨by linarith, by linarith⟩
  refine ⟨by rw [h3]; exact h4, ?_⟩
  have : sep (π / 3) 0 0 0 = π / 3 := eq_of_cos h2 ⟨by linarith, by linarith⟩ (by rw [h1, h3])
  rw [this]
  linarith

end Verif
