import Verif.Props.Sphere

/-! C123: bearings, destinations and the distance to an arc. -/

namespace Verif

open Sph Real

/-- The direction reached by going the angle `s` from a position towards the bearing `b` (from north through east). -/
noncomputable def along (lon lat b s : ℝ) : Vec :=
  ⟨cos s * (xyz lon lat).x + sin s * (cos b * (northAt lon lat).x + sin b * (eastAt lon).x),
    cos s * (xyz lon lat).y + sin s * (cos b * (northAt lon lat).y + sin b * (eastAt lon).y),
    cos s * (xyz lon lat).z + sin s * (cos b * (northAt lon lat).z + sin b * (eastAt lon).z)⟩

/-- The position and the directions north and east there are an orthonormal frame. -/
theorem here_frame (lon lat : ℝ) (a b : Vec) :
    dot a (xyz lon lat) * dot b (xyz lon lat) + dot a (northAt lon lat) * dot b (northAt lon lat) +
      dot a (eastAt lon) * dot b (eastAt lon) = dot a b := by
  have h := frame_dot lat lon a b
  have e1 : upV lat lon = xyz lon lat := by unfold upV xyz; congr 1 <;> ring
  have e2 : northV lat lon = northAt lon lat := rfl
  have e3 : eastV lon = eastAt lon := rfl
  rw [e1, e2, e3] at h
  exact h

theorem eq_of_dots {v w : Vec} (lon lat : ℝ) (h1 : dot v (xyz lon lat) = dot w (xyz lon lat))
    (h2 : dot v (northAt lon lat) = dot w (northAt lon lat)) (h3 : dot v (eastAt lon) = dot w (eastAt lon)) : v = w := by
  have hx : ∀ u : Vec, dot v u = dot w u := by
    intro u
    rw [← here_frame lon lat v u, ← here_frame lon lat w u, h1, h2, h3]
  have g1 := hx ⟨1, 0, 0⟩
  have g2 := hx ⟨0, 1, 0⟩
  have g3 := hx ⟨0, 0, 1⟩
  unfold dot at g1 g2 g3
  cases v; cases w
  simp at g1 g2 g3
  simp [g1, g2, g3]

theorem along_dots (lon lat b s : ℝ) :
    dot (along lon lat b s) (xyz lon lat) = cos s ∧ dot (along lon lat b s) (northAt lon lat) = sin s * cos b ∧
    dot (along lon lat b s) (eastAt lon) = sin s * sin b := by
  have l := Real.cos_sq_add_sin_sq lat
  have o := Real.cos_sq_add_sin_sq lon
  have ol : sin lon ^ 2 = 1 - cos lon ^ 2 := by linarith
  have ll : sin lat ^ 2 = 1 - cos lat ^ 2 := by linarith
  refine ⟨?_, ?_, ?_⟩ <;>
  · unfold dot along xyz northAt eastAt
    dsimp only
    ring_nf
    simp only [ol, ll]
    ring

/-- C123: the bearing from one position to another is that of the great circle: the second is reached by going their
separation towards it. The bearing is from minus to plus half a turn. -/
theorem C123_bearing (lon1 lat1 lon2 lat2 : ℝ) :
    xyz lon2 lat2 = along lon1 lat1 (bearing lon1 lat1 lon2 lat2) (sep lon1 lat1 lon2 lat2) ∧
    -π < bearing lon1 lat1 lon2 lat2 ∧ bearing lon1 lat1 lon2 lat2 ≤ π := by
  obtain ⟨d1, d2, d3⟩ := C121_angle lon1 lat1 lon2 lat2
  set X := cos lat2 * sin (lon2 - lon1) with hX
  set Y := cos lat1 * sin lat2 - sin lat1 * cos lat2 * cos (lon2 - lon1) with hY
  have hb : bearing lon1 lat1 lon2 lat2 = atan2 X Y := rfl
  have hE : dot (xyz lon2 lat2) (eastAt lon1) = X := by
    rw [hX, Real.sin_sub]; unfold dot xyz eastAt; ring
  have hN : dot (xyz lon2 lat2) (northAt lon1 lat1) = Y := by
    rw [hY, Real.cos_sub]; unfold dot xyz northAt; ring
  have hf := here_frame lon1 lat1 (xyz lon2 lat2) (xyz lon2 lat2)
  rw [xyz_unit, hE, hN, dot_comm' _ (xyz lon1 lat1), ← d1] at hf
  have hs : 0 ≤ sin (sep lon1 lat1 lon2 lat2) := Real.sin_nonneg_of_nonneg_of_le_pi d2 d3
  have hr : √(Y ^ 2 + X ^ 2) = sin (sep lon1 lat1 lon2 lat2) := by
    have : Y ^ 2 + X ^ 2 = sin (sep lon1 lat1 lon2 lat2) ^ 2 := by
      rw [Real.sin_sq]; linarith
    rw [this, Real.sqrt_sq hs]
  have q1 := atan2_cos X Y
  have q2 := atan2_sin X Y
  rw [hr, ← hb] at q1 q2
  obtain ⟨a1, a2, a3⟩ := along_dots lon1 lat1 (bearing lon1 lat1 lon2 lat2) (sep lon1 lat1 lon2 lat2)
  refine ⟨eq_of_dots lon1 lat1 ?_ ?_ ?_, (atan2_range _ _).1, (atan2_range _ _).2⟩
  · rw [a1, d1, dot_comm']
  · rw [a2, hN, q1]
  · rw [a3, hE, q2]

/-- C123: the destination is the direction reached by going the distance towards the bearing, from any place but the poles. -/
theorem C123_dest (s b lat lon : ℝ) (hc : 0 < cos lat) :
    xyz (dest s b lat lon).2 (dest s b lat lon).1 = along lon lat b s ∧ IsLat (dest s b lat lon).1 := by
  set S := sin lat * cos s + cos lat * sin s * cos b with hS
  set X := sin b * sin s with hX
  set Y := cos lat * cos s - sin lat * sin s * cos b with hY
  have l := Real.cos_sq_add_sin_sq lat
  have cs := Real.cos_sq_add_sin_sq s
  have cb := Real.cos_sq_add_sin_sq b
  have hone : Y ^ 2 + X ^ 2 = 1 - S ^ 2 := by
    rw [hX, hY, hS]
    linear_combination (cos s ^ 2 + sin s ^ 2 * cos b ^ 2) * l + cs + sin s ^ 2 * cb
  have hS1 : -1 ≤ S := by nlinarith [sq_nonneg X, sq_nonneg Y]
  have hS2 : S ≤ 1 := by nlinarith [sq_nonneg X, sq_nonneg Y]
  have hsl : sin (arcsin S) = S := Real.sin_arcsin hS1 hS2
  have hd : dest s b lat lon = (arcsin S, lon + atan2 X Y) := by
    unfold dest
    dsimp only
    rw [← hS, hsl]
    congr 2
    rw [← atan2_scale hc X Y]
    congr 1
    · rw [hX]; ring
    · rw [hY, hS]; linear_combination (-cos s) * l
  have hcl : cos (arcsin S) = √(Y ^ 2 + X ^ 2) := by rw [Real.cos_arcsin, hone]
  have q1 := atan2_cos X Y
  have q2 := atan2_sin X Y
  rw [← hcl] at q1 q2
  rw [hd]
  refine ⟨?_, isLat_arcsin S⟩
  obtain ⟨a1, a2, a3⟩ := along_dots lon lat b s
  refine eq_of_dots lon lat ?_ ?_ ?_
  · rw [a1, dot_xyz, hsl, show lon + atan2 X Y - lon = atan2 X Y by ring]
    have : cos (arcsin S) * cos lat * cos (atan2 X Y) = cos lat * Y := by linear_combination cos lat * q1
    rw [this, hS, hY]
    linear_combination cos s * l
  · rw [a2]
    have e : dot (xyz (lon + atan2 X Y) (arcsin S)) (northAt lon lat) = cos lat * sin (arcsin S) - sin lat * cos (arcsin S) * cos (lon + atan2 X Y - lon) := by
      rw [Real.cos_sub]; unfold dot xyz northAt; ring
    rw [e, hsl, show lon + atan2 X Y - lon = atan2 X Y by ring]
    have : sin lat * cos (arcsin S) * cos (atan2 X Y) = sin lat * Y := by linear_combination sin lat * q1
    rw [this, hS, hY]
    linear_combination (sin s * cos b) * l
  · rw [a3]
    have e : dot (xyz (lon + atan2 X Y) (arcsin S)) (eastAt lon) = cos (arcsin S) * sin (lon + atan2 X Y - lon) := by
      rw [Real.sin_sub]; unfold dot xyz eastAt; ring
    rw [e, show lon + atan2 X Y - lon = atan2 X Y by ring, q2, hX]
    ring

/-- C123: the destination is as far away as asked for, and in the direction asked for. -/
theorem C123_arrive (s b lat lon : ℝ) (hc : 0 < cos lat) (h0 : 0 ≤ s) (h1 : s ≤ π) :
    sep lon lat (dest s b lat lon).2 (dest s b lat lon).1 = s ∧
    (0 < s → s < π → SameTurn (bearing lon lat (dest s b lat lon).2 (dest s b lat lon).1) b) := by
  obtain ⟨g1, _⟩ := C123_dest s b lat lon hc
  obtain ⟨a1, a2, a3⟩ := along_dots lon lat b s
  obtain ⟨d1, d2⟩ := C121_angle lon lat (dest s b lat lon).2 (dest s b lat lon).1
  have hs : sep lon lat (dest s b lat lon).2 (dest s b lat lon).1 = s := by
    refine eq_of_cos d2 ⟨h0, h1⟩ ?_
    rw [d1, g1, dot_comm', a1]
  refine ⟨hs, fun p0 p1 => ?_⟩
  obtain ⟨b1, _⟩ := C123_bearing lon lat (dest s b lat lon).2 (dest s b lat lon).1
  rw [hs, g1] at b1
  have hsin : 0 < sin s := Real.sin_pos_of_pos_of_lt_pi p0 p1
  obtain ⟨_, c2, c3⟩ := along_dots lon lat (bearing lon lat (dest s b lat lon).2 (dest s b lat lon).1) s
  rw [← b1] at c2 c3
  exact sameTurn_of (mul_left_cancel₀ hsin.ne' (c2.symm.trans a2)) (mul_left_cancel₀ hsin.ne' (c3.symm.trans a3))

/-- C123: the destination is as far away as asked for, also from the poles and for negative distances. -/
theorem C123_far_as_asked (s b lat lon : ℝ) (hc : 0 ≤ cos lat) (h : |s| ≤ π) :
    sep lon lat (dest s b lat lon).2 (dest s b lat lon).1 = |s| ∧ IsLat (dest s b lat lon).1 := by
  obtain ⟨d1, d2⟩ := C121_angle lon lat (dest s b lat lon).2 (dest s b lat lon).1
  have key : dot (xyz (dest s b lat lon).2 (dest s b lat lon).1) (xyz lon lat) = cos s := by
    rcases hc.eq_or_lt with h0 | h0
    · have l := Real.cos_sq_add_sin_sq lat
      rw [← h0] at l
      have hd : (dest s b lat lon).1 = arcsin (sin lat * cos s) := by
        unfold dest; dsimp only; rw [← h0]; congr 1; ring
      have hb : -1 ≤ sin lat * cos s ∧ sin lat * cos s ≤ 1 := by
        have : (sin lat * cos s) ^ 2 ≤ 1 := by
          have := Real.sin_sq_add_cos_sq s
          rw [mul_pow]; nlinarith [sq_nonneg (sin s), sq_nonneg (cos s)]
        exact abs_le.1 (abs_le_one_iff_mul_self_le_one.2 (by linarith [sq (sin lat * cos s)]))
      rw [dot_xyz, hd, ← h0, Real.sin_arcsin hb.1 hb.2]
      linear_combination cos s * l
    · rw [(C123_dest s b lat lon h0).1, (along_dots lon lat b s).1]
  refine ⟨eq_of_cos d2 ⟨abs_nonneg _, h⟩ ?_, isLat_arcsin _⟩
  rw [d1, dot_comm', key, Real.cos_abs]

/-- C123: going the separation towards the bearing leads to the other position. -/
theorem C123_round (lon1 lat1 lon2 lat2 : ℝ) (hc : 0 < cos lat1) (h2 : IsLat lat2) :
    let p := dest (sep lon1 lat1 lon2 lat2) (bearing lon1 lat1 lon2 lat2) lat1 lon1
    p.1 = lat2 ∧ (0 < cos lat2 → SameTurn p.2 lon2) := by
  intro p
  obtain ⟨g1, g2⟩ := C123_dest (sep lon1 lat1 lon2 lat2) (bearing lon1 lat1 lon2 lat2) lat1 lon1 hc
  rw [← (C123_bearing lon1 lat1 lon2 lat2).1] at g1
  obtain ⟨e1, e2⟩ := xyz_unique g1 g2 h2
  exact ⟨e1, fun h => e2 (by rw [e1]; exact h)⟩

theorem dot_along (lon lat b s b' s' : ℝ) :
    dot (along lon lat b s) (along lon lat b' s') = cos s * cos s' + sin s * sin s' * cos (b' - b) := by
  obtain ⟨a1, a2, a3⟩ := along_dots lon lat b s
  obtain ⟨c1, c2, c3⟩ := along_dots lon lat b' s'
  rw [← here_frame lon lat, a1, a2, a3, c1, c2, c3, Real.cos_sub]
  ring

/-- The cosine of the separation along a great circle, by its peak: its height `c` and its place. -/
theorem circle_peak {d θ : ℝ} (hsd : 0 ≤ sin d) (hpos : 0 ≤ cos θ) (hcd : 0 ≤ cos d) :
    0 ≤ cos (arcsin (sin d * sin θ)) ∧
    (cos (arcsin (sin d * sin θ)) = 0 → cos d = 0 ∧ sin d * cos θ = 0) ∧
    (0 < cos (arcsin (sin d * sin θ)) → ∀ s, cos s * cos d + sin s * sin d * cos θ =
      cos (arcsin (sin d * sin θ)) * cos (s - arccos (cos d / cos (arcsin (sin d * sin θ))))) := by
  have hθ := Real.cos_sq_add_sin_sq θ
  have hd2 := Real.cos_sq_add_sin_sq d
  generalize hq : sin d * sin θ = q
  have hq2 : 1 - q ^ 2 = cos d ^ 2 + (sin d * cos θ) ^ 2 := by
    rw [← hq]; linear_combination (-sin d ^ 2) * hθ - hd2
  have hq3 : 0 ≤ 1 - q ^ 2 := by rw [hq2]; positivity
  generalize hc : cos (arcsin q) = c
  have hcv : c = √(1 - q ^ 2) := by rw [← hc]; exact Real.cos_arcsin q
  have hc0 : 0 ≤ c := by rw [hcv]; exact Real.sqrt_nonneg _
  have hc2 : c ^ 2 = cos d ^ 2 + (sin d * cos θ) ^ 2 := by rw [hcv, Real.sq_sqrt hq3, hq2]
  refine ⟨hc0, fun hz => ?_, fun hz s => ?_⟩
  · rw [hz] at hc2
    have h1 := sq_nonneg (cos d)
    have h2 := sq_nonneg (sin d * cos θ)
    exact ⟨pow_eq_zero_iff (two_ne_zero) |>.1 (by linarith), pow_eq_zero_iff (two_ne_zero) |>.1 (by linarith)⟩
  · generalize hφ : arccos (cos d / c) = φ
    have w1 : cos d / c ≤ 1 := by
      rw [div_le_one hz]
      exact abs_le_of_sq_le_sq' (by rw [hc2]; have := sq_nonneg (sin d * cos θ); linarith) hz.le |>.2
    have w0 : 0 ≤ cos d / c := div_nonneg hcd hz.le
    have hcφ : c * cos φ = cos d := by
      rw [← hφ, Real.cos_arccos (by linarith) w1]
      exact mul_div_cancel₀ _ hz.ne'
    have hsφ : c * sin φ = sin d * cos θ := by
      have h0 : 0 ≤ sin φ := by
        rw [← hφ]; exact Real.sin_nonneg_of_nonneg_of_le_pi (Real.arccos_nonneg _) (Real.arccos_le_pi _)
      have h1 : (c * sin φ) ^ 2 = (sin d * cos θ) ^ 2 := by
        have := Real.cos_sq_add_sin_sq φ
        have h2 : (c * cos φ) ^ 2 + (c * sin φ) ^ 2 = c ^ 2 := by linear_combination c ^ 2 * this
        rw [hcφ, hc2] at h2
        linarith
      have h2 : |c * sin φ| = |sin d * cos θ| := (sq_eq_sq_iff_abs_eq_abs _ _).1 h1
      rwa [abs_of_nonneg (mul_nonneg hz.le h0), abs_of_nonneg (mul_nonneg hsd hpos)] at h2
    rw [Real.cos_sub]
    linear_combination (-cos s) * hcφ - sin s * hsφ

/-- C123, in part: for a point within 90 degrees of the first end, the distance to an arc is the smallest separation from the point to a
point of the arc: no point of the arc is nearer, and one is as near. (By cosines, which fall as the angle grows.) Missing: points
further from the first end, see below. -/
theorem C123_line_partial (lon1 lat1 lon2 lat2 lon3 lat3 : ℝ) (hnear : sep lon1 lat1 lon3 lat3 ≤ π / 2) :
    let arc := along lon1 lat1 (bearing lon1 lat1 lon2 lat2)
    let D := lineDist lon1 lat1 lon2 lat2 lon3 lat3
    0 ≤ D ∧ D ≤ π ∧
    (∀ s, 0 ≤ s → s ≤ sep lon1 lat1 lon2 lat2 → dot (arc s) (xyz lon3 lat3) ≤ cos D) ∧
    ∃ s, 0 ≤ s ∧ s ≤ sep lon1 lat1 lon2 lat2 ∧ dot (arc s) (xyz lon3 lat3) = cos D := by
  intro arc D
  obtain ⟨v2, _, _⟩ := C123_bearing lon1 lat1 lon2 lat2
  obtain ⟨v3, _, _⟩ := C123_bearing lon1 lat1 lon3 lat3
  obtain ⟨_, L0, L1⟩ := C121_angle lon1 lat1 lon2 lat2
  obtain ⟨_, d0, d1⟩ := C121_angle lon1 lat1 lon3 lat3
  obtain ⟨e1, e0, e2⟩ := C121_angle lon2 lat2 lon3 lat3
  have r12 := (C123_bearing lon1 lat1 lon2 lat2).2
  have r13 := (C123_bearing lon1 lat1 lon3 lat3).2
  have hD : D = lineDist lon1 lat1 lon2 lat2 lon3 lat3 := rfl
  unfold lineDist at hD
  dsimp only at hD
  set b12 := bearing lon1 lat1 lon2 lat2
  set b13 := bearing lon1 lat1 lon3 lat3
  set L := sep lon1 lat1 lon2 lat2
  set d := sep lon1 lat1 lon3 lat3
  have hf : ∀ s, dot (arc s) (xyz lon3 lat3) = cos s * cos d + sin s * sin d * cos (b13 - b12) := by
    intro s; rw [v3]; exact dot_along _ _ _ _ _ _
  have hsd : 0 ≤ sin d := Real.sin_nonneg_of_nonneg_of_le_pi d0 d1
  have hcd : 0 ≤ cos d := Real.cos_nonneg_of_neg_pi_div_two_le_of_le (by linarith) hnear
  have pp := Real.pi_pos
  -- the folded difference of the bearings has the same cosine
  have hfold : cos (if π < |b13 - b12| then 2 * π - |b13 - b12| else |b13 - b12|) = cos (b13 - b12) ∧
      0 ≤ (if π < |b13 - b12| then 2 * π - |b13 - b12| else |b13 - b12|) ∧
      (if π < |b13 - b12| then 2 * π - |b13 - b12| else |b13 - b12|) ≤ π := by
    have hb : |b13 - b12| ≤ 2 * π := by rw [abs_le]; constructor <;> linarith [r12.1, r12.2, r13.1, r13.2]
    split
    · rename_i h
      exact ⟨by rw [Real.cos_two_pi_sub, Real.cos_abs], by linarith, by linarith⟩
    · rename_i h
      exact ⟨Real.cos_abs _, abs_nonneg _, not_lt.1 h⟩
  obtain ⟨f1, f2, f3⟩ := hfold
  set δ := (if π < |b13 - b12| then 2 * π - |b13 - b12| else |b13 - b12|)
  by_cases hobt : π / 2 < δ
  · rw [if_pos hobt] at hD
    have hneg : cos (b13 - b12) ≤ 0 := by
      rw [← f1]; exact (Real.cos_nonpos_of_pi_div_two_le_of_le hobt.le (by linarith))
    rw [hD]
    refine ⟨d0, d1, fun s s0 s1 => ?_, 0, le_refl _, L0, ?_⟩
    · rw [hf]
      have hss : 0 ≤ sin s := Real.sin_nonneg_of_nonneg_of_le_pi s0 (by linarith)
      have h1 := mul_nonneg hss hsd
      have h2 := Real.cos_le_one s
      nlinarith
    · rw [hf]; simp
  · rw [if_neg hobt] at hD
    have hpos : 0 ≤ cos (b13 - b12) := by
      rw [← f1]; exact Real.cos_nonneg_of_neg_pi_div_two_le_of_le (by linarith) (not_lt.1 hobt)
    obtain ⟨hc0, hzero, hpeak⟩ := circle_peak hsd hpos hcd
    have hcD : cos |arcsin (sin d * sin (b13 - b12))| = cos (arcsin (sin d * sin (b13 - b12))) := Real.cos_abs _
    have habs : |arcsin (sin d * sin (b13 - b12))| ≤ π := by
      rw [abs_le]
      constructor <;> linarith [Real.neg_pi_div_two_le_arcsin (sin d * sin (b13 - b12)),
        Real.arcsin_le_pi_div_two (sin d * sin (b13 - b12))]
    generalize arcsin (sin d * sin (b13 - b12)) = q at *
    generalize cos q = c at *
    rcases hc0.eq_or_lt with hz | hz
    · -- the point is the pole of the arc: everything is 90 degrees away
      obtain ⟨z1, z2⟩ := hzero hz.symm
      have hall : ∀ s, dot (arc s) (xyz lon3 lat3) = 0 := by
        intro s; rw [hf, z1, mul_assoc, z2]; ring
      have hcosD : cos D = 0 ∧ 0 ≤ D ∧ D ≤ π := by
        split at hD
        · rw [hD]
          refine ⟨?_, e0, e2⟩
          rw [e1, v2]
          exact hall L
        · rw [hD]
          exact ⟨by rw [hcD, ← hz], abs_nonneg _, habs⟩
      refine ⟨hcosD.2.1, hcosD.2.2, fun s _ _ => by rw [hall, hcosD.1], 0, le_refl _, L0, by rw [hall, hcosD.1]⟩
    · -- the nearest point of the whole circle is at φ
      have hf' : ∀ s, dot (arc s) (xyz lon3 lat3) = c * cos (s - arccos (cos d / c)) := by
        intro s
        rw [hf, hpeak hz]
      generalize hφ : arccos (cos d / c) = φ at *
      have φ0 : 0 ≤ φ := hφ ▸ Real.arccos_nonneg _
      have φ1 : φ ≤ π := hφ ▸ Real.arccos_le_pi _
      by_cases hend : L < φ
      · rw [if_pos hend] at hD
        have hv2 : cos D = c * cos (L - φ) := by
          rw [hD, e1, v2, ← hf']
        rw [hv2]
        refine ⟨by rw [hD]; exact e0, by rw [hD]; exact e2, fun s s0 s1 => ?_, L, L0, le_refl _, hf' L⟩
        rw [hf']
        apply mul_le_mul_of_nonneg_left _ hz.le
        rw [← Real.cos_neg (s - φ), ← Real.cos_neg (L - φ)]
        exact Real.cos_le_cos_of_nonneg_of_le_pi (by linarith) (by linarith) (by linarith)
      · rw [if_neg hend] at hD
        rw [hD, hcD]
        refine ⟨abs_nonneg _, habs, fun s s0 s1 => ?_, φ, φ0, not_lt.1 hend, by rw [hf', sub_self, Real.cos_zero, mul_one]⟩
        rw [hf']
        nlinarith [Real.cos_le_one (s - φ)]

/-- C123 is violated for points further away: here the second end of the arc is nearer than the distance answered. -/
theorem C123_far_violated :
    lineDist 0 0 (2 * π / 3) 0 (-(3 * π / 4)) 0 = 3 * π / 4 ∧ sep (2 * π / 3) 0 (-(3 * π / 4)) 0 < 3 * π / 4 := by
  have p := Real.pi_pos
  have b12 : bearing 0 0 (2 * π / 3) 0 = π / 2 := by
    unfold bearing atan2
    dsimp only
    rw [Complex.arg_eq_pi_div_two_iff]
    simp only [sub_zero, Real.cos_zero, one_mul, Real.sin_zero, mul_zero, zero_mul, true_and]
    exact Real.sin_pos_of_pos_of_lt_pi (by linarith) (by linarith)
  have b13 : bearing 0 0 (-(3 * π / 4)) 0 = -(π / 2) := by
    unfold bearing atan2
    dsimp only
    rw [← neg_div, Complex.arg_eq_neg_pi_div_two_iff]
    simp only [sub_zero, Real.cos_zero, one_mul, Real.sin_zero, mul_zero, zero_mul, true_and]
    have := Real.sin_pos_of_pos_of_lt_pi (show 0 < 3 * π / 4 by linarith) (by linarith)
    rw [neg_div, Real.sin_neg]
    linarith
  have d13 : sep 0 0 (-(3 * π / 4)) 0 = 3 * π / 4 := by
    obtain ⟨h1, h2⟩ := C121_angle 0 0 (-(3 * π / 4)) 0
    refine eq_of_cos h2 ⟨by linarith, by linarith⟩ ?_
    rw [h1, dot_xyz]
    simp
  have d23 : sep (2 * π / 3) 0 (-(3 * π / 4)) 0 = 7 * π / 12 := by
    obtain ⟨h1, h2⟩ := C121_angle (2 * π / 3) 0 (-(3 * π / 4)) 0
    refine eq_of_cos h2 ⟨by linarith, by linarith⟩ ?_
    rw [h1, dot_xyz, ← Real.cos_two_pi_sub (7 * π / 12)]
    simp only [Real.cos_zero, Real.sin_zero, mul_one, one_mul, mul_zero, add_zero]
    congr 1
    ring
  refine ⟨?_, by rw [d23]; linarith⟩
  unfold lineDist
  dsimp only
  rw [b12, b13, d13]
  have e : |-(π / 2) - π / 2| = π := by
    rw [show -(π / 2) - π / 2 = -π by ring, abs_neg, abs_of_pos p]
  rw [e, if_neg (lt_irrefl _), if_pos (by linarith)]

/-- A quarter of the equator, and the pole. -/
example : sep 0 0 0 (π / 2) ≤ π / 2 ∧ 0 < cos (0 : ℝ) := by
  obtain ⟨h1, h2⟩ := C121_angle 0 0 0 (π / 2)
  have p := Real.pi_pos
  refine ⟨le_of_eq (eq_of_cos h2 ⟨by linarith, by linarith⟩ ?_), by simp⟩
  rw [h1, dot_xyz]
  simp

end Verif
