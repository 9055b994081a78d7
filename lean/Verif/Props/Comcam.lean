import Verif.Model.Comcam
import Verif.Props.Fov
import Verif.Props.Gnomonic
import Mathlib.Analysis.SpecialFunctions.Trigonometric.Bounds

/-! C199: the pixels in the field of view of a square camera. -/

namespace Verif

open Fov Sph Real

theorem toward0_near (x : ℝ) : |(toward0 x : ℝ) - x| ≤ 1 := by
  unfold toward0
  rw [abs_le]
  split_ifs with h
  · constructor <;> linarith [Int.floor_le x, Int.lt_floor_add_one x]
  · constructor <;> linarith [Int.le_ceil x, Int.ceil_lt_add_one x]

theorem abs_sum_le {x y r : ℝ} (hr : 0 ≤ r) (h : x ^ 2 + y ^ 2 ≤ r ^ 2) : |x| + |y| ≤ 1415 / 1000 * r := by
  have h1 : (|x| + |y|) ^ 2 ≤ (1415 / 1000 * r) ^ 2 := by
    have e1 := sq_abs x
    have e2 := sq_abs y
    nlinarith [sq_nonneg (|x| - |y|)]
  exact abs_le_of_sq_le_sq' h1 (by positivity) |>.2

/-- Side of a line through corners that were moved by at most 1 on each axis, of a point moved likewise: off by at most this. -/
theorem left_near {S tx ty ax ay bx by' px py a1 a2 b1 b2 p1 p2 r : ℝ} (hS : 0 ≤ S) (ht : tx ^ 2 + ty ^ 2 = 1) (hbx : bx = ax + S * tx)
    (hby : by' = ay + S * ty) (h1 : |a1 - ax| ≤ 1) (h2 : |a2 - ay| ≤ 1) (h3 : |b1 - bx| ≤ 1) (h4 : |b2 - by'| ≤ 1) (h5 : |p1 - px| ≤ 1)
    (h6 : |p2 - py| ≤ 1) (hr : 0 ≤ r) (hw : (px - ax) ^ 2 + (py - ay) ^ 2 ≤ r ^ 2) :
    |((b1 - a1) * (p2 - a2) - (b2 - a2) * (p1 - a1)) - S * (tx * (py - ay) - ty * (px - ax))| ≤ 283 / 100 * S + 283 / 100 * r + 8 := by
  set ex := b1 - a1 - S * tx with hex
  set ey := b2 - a2 - S * ty with hey
  set fx := p1 - a1 - (px - ax) with hfx
  set fy := p2 - a2 - (py - ay) with hfy
  have bex : |ex| ≤ 2 := by
    have : ex = (b1 - bx) - (a1 - ax) := by rw [hex, hbx]; ring
    rw [this]; exact (abs_sub _ _).trans (by linarith)
  have bey : |ey| ≤ 2 := by
    have : ey = (b2 - by') - (a2 - ay) := by rw [hey, hby]; ring
    rw [this]; exact (abs_sub _ _).trans (by linarith)
  have bfx : |fx| ≤ 2 := by
    have : fx = (p1 - px) - (a1 - ax) := by rw [hfx]; ring
    rw [this]; exact (abs_sub _ _).trans (by linarith)
  have bfy : |fy| ≤ 2 := by
    have : fy = (p2 - py) - (a2 - ay) := by rw [hfy]; ring
    rw [this]; exact (abs_sub _ _).trans (by linarith)
  have e : ((b1 - a1) * (p2 - a2) - (b2 - a2) * (p1 - a1)) - S * (tx * (py - ay) - ty * (px - ax)) =
      S * (tx * fy - ty * fx) + (ex * (py - ay) - ey * (px - ax)) + (ex * fy - ey * fx) := by
    rw [hex, hey, hfx, hfy]; ring
  have t1 := abs_sum_le (x := tx) (y := ty) (r := 1) (by norm_num) (by rw [ht]; norm_num)
  have t2 := abs_sum_le hr hw
  have prod : ∀ u v w z : ℝ, |u * v - w * z| ≤ |u| * |v| + |w| * |z| := by
    intro u v w z
    refine (abs_sub _ _).trans ?_
    rw [abs_mul, abs_mul]
  have g1 : |tx * fy - ty * fx| ≤ 283 / 100 := by
    refine (prod _ _ _ _).trans ?_
    nlinarith [abs_nonneg tx, abs_nonneg ty, abs_nonneg fx, abs_nonneg fy]
  have g2 : |ex * (py - ay) - ey * (px - ax)| ≤ 283 / 100 * r := by
    refine (prod _ _ _ _).trans ?_
    nlinarith [abs_nonneg (py - ay), abs_nonneg (px - ax), abs_nonneg ex, abs_nonneg ey]
  have g3 : |ex * fy - ey * fx| ≤ 8 := by
    refine (prod _ _ _ _).trans ?_
    nlinarith [abs_nonneg ex, abs_nonneg ey, abs_nonneg fx, abs_nonneg fy]
  rw [e]
  refine (abs_add_le _ _).trans ?_
  refine (add_le_add (abs_add_le _ _) le_rfl).trans ?_
  rw [abs_mul, abs_of_nonneg hS]
  nlinarith

/-- The point in the frame of the square. -/
noncomputable def sqU (rot x y : ℝ) : ℝ := x * cos rot + y * sin rot
noncomputable def sqV (rot x y : ℝ) : ℝ := -x * sin rot + y * cos rot

/-- One side of the square: the corners `(u, v)` and `(u + S * a, v + S * b)` in its own frame. -/
theorem side_near {S rot u v a b X Y : ℝ} (hS : 100 ≤ S + 1 / 2) (hab : a ^ 2 + b ^ 2 = 1) (hu : u ^ 2 = (S / 2) ^ 2) (hv : v ^ 2 = (S / 2) ^ 2)
    (hP : X ^ 2 + Y ^ 2 ≤ (742 / 1000 * (S + 1 / 2)) ^ 2) {u' v' : ℝ} (hu' : u' = u + S * a) (hv' : v' = v + S * b) :
    |(leftOf (corner rot u v) (corner rot u' v') (toward0 X, toward0 Y) : ℝ) - S * (a * (sqV rot X Y - v) - b * (sqU rot X Y - u))| <
      71 / 10 * S := by
  have c := Real.cos_sq_add_sin_sq rot
  have hS0 : 0 ≤ S := by linarith
  set tx := a * cos rot - b * sin rot with htx
  set ty := a * sin rot + b * cos rot with hty
  have ht : tx ^ 2 + ty ^ 2 = 1 := by
    have : (a * cos rot - b * sin rot) ^ 2 + (a * sin rot + b * cos rot) ^ 2 = (a ^ 2 + b ^ 2) * (cos rot ^ 2 + sin rot ^ 2) := by ring
    rw [htx, hty, this, c, hab, one_mul]
  have hA : (u * cos rot - v * sin rot) ^ 2 + (u * sin rot + v * cos rot) ^ 2 = S ^ 2 / 2 := by
    have : (u * cos rot - v * sin rot) ^ 2 + (u * sin rot + v * cos rot) ^ 2 = (u ^ 2 + v ^ 2) * (cos rot ^ 2 + sin rot ^ 2) := by ring
    rw [this, c, hu, hv]; ring
  have hw : (X - (u * cos rot - v * sin rot)) ^ 2 + (Y - (u * sin rot + v * cos rot)) ^ 2 ≤ (1455 / 1000 * (S + 1 / 2)) ^ 2 := by
    set A := u * cos rot - v * sin rot
    set B := u * sin rot + v * cos rot
    have hA' : A ^ 2 + B ^ 2 ≤ (7072 / 10000 * (S + 1 / 2)) ^ 2 := by rw [hA]; nlinarith
    have hcs : |X * A + Y * B| ≤ (742 / 1000 * (S + 1 / 2)) * (7072 / 10000 * (S + 1 / 2)) := by
      apply abs_le_of_sq_le_sq _ (by positivity)
      have : (X * A + Y * B) ^ 2 ≤ (X ^ 2 + Y ^ 2) * (A ^ 2 + B ^ 2) := by nlinarith [sq_nonneg (X * B - Y * A)]
      refine this.trans ?_
      rw [mul_pow]
      exact mul_le_mul hP hA' (by positivity) (by positivity)
    have := (abs_le.1 hcs).1
    nlinarith
  have key := left_near (S := S) (tx := tx) (ty := ty) (ax := u * cos rot - v * sin rot) (ay := u * sin rot + v * cos rot)
    (bx := u' * cos rot - v' * sin rot) (by' := u' * sin rot + v' * cos rot) (px := X) (py := Y) hS0 ht
    (by rw [hu', hv', htx]; ring) (by rw [hu', hv', hty]; ring) (toward0_near _) (toward0_near _) (toward0_near _) (toward0_near _)
    (toward0_near X) (toward0_near Y) (by linarith : 0 ≤ 1455 / 1000 * (S + 1 / 2)) hw
  have e : tx * (Y - (u * sin rot + v * cos rot)) - ty * (X - (u * cos rot - v * sin rot)) =
      a * (sqV rot X Y - v) - b * (sqU rot X Y - u) := by
    rw [htx, hty]
    unfold sqV sqU
    linear_combination (b * u - a * v) * c
  rw [e] at key
  have hl : ((leftOf (corner rot u v) (corner rot u' v') (toward0 X, toward0 Y) : ℤ) : ℝ) =
      ((toward0 (u' * cos rot - v' * sin rot) : ℝ) - (toward0 (u * cos rot - v * sin rot) : ℝ)) *
        ((toward0 Y : ℝ) - (toward0 (u * sin rot + v * cos rot) : ℝ)) -
      ((toward0 (u' * sin rot + v' * cos rot) : ℝ) - (toward0 (u * sin rot + v * cos rot) : ℝ)) *
        ((toward0 X : ℝ) - (toward0 (u * cos rot - v * sin rot) : ℝ)) := by
    unfold leftOf corner
    push_cast
    rfl
  rw [hl]
  refine key.trans_lt ?_
  nlinarith

/-- The test of a point: true well inside the square, false well outside of it. -/
theorem contains_near {S : ℤ} {rot X Y : ℝ} (tie : ℤ × ℤ → Bool) (hS : 100 ≤ (S : ℝ) + 1 / 2)
    (hP : X ^ 2 + Y ^ 2 ≤ (742 / 1000 * ((S : ℝ) + 1 / 2)) ^ 2) (f : Comcam) (hf : f.side = S) :
    (|sqU rot X Y| ≤ (S : ℝ) / 2 - 71 / 10 → |sqV rot X Y| ≤ (S : ℝ) / 2 - 71 / 10 →
      contains tie (f.polygon rot) (toward0 X, toward0 Y) = true) ∧
    (contains tie (f.polygon rot) (toward0 X, toward0 Y) = true →
      |sqU rot X Y| ≤ (S : ℝ) / 2 + 71 / 10 ∧ |sqV rot X Y| ≤ (S : ℝ) / 2 + 71 / 10) := by
  have hS0 : 0 < (S : ℝ) := by linarith
  set h := (S : ℝ) / 2 with hh
  have hsq : ∀ z : ℝ, z = h ∨ z = -h → z ^ 2 = ((S : ℝ) / 2) ^ 2 := by
    rintro z (rfl | rfl) <;> ring
  have k1 := side_near (S := S) (rot := rot) (u := -h) (v := h) (a := 0) (b := -1) (u' := -h) (v' := -h) hS (by norm_num) (hsq _ (.inr rfl))
    (hsq _ (.inl rfl)) hP (by ring) (by rw [hh]; ring)
  have k2 := side_near (S := S) (rot := rot) (u := -h) (v := -h) (a := 1) (b := 0) (u' := h) (v' := -h) hS (by norm_num) (hsq _ (.inr rfl))
    (hsq _ (.inr rfl)) hP (by rw [hh]; ring) (by ring)
  have k3 := side_near (S := S) (rot := rot) (u := h) (v := -h) (a := 0) (b := 1) (u' := h) (v' := h) hS (by norm_num) (hsq _ (.inl rfl))
    (hsq _ (.inr rfl)) hP (by ring) (by rw [hh]; ring)
  have k4 := side_near (S := S) (rot := rot) (u := h) (v := h) (a := -1) (b := 0) (u' := -h) (v' := h) hS (by norm_num) (hsq _ (.inl rfl))
    (hsq _ (.inl rfl)) hP (by rw [hh]; ring) (by ring)
  have hp : f.polygon rot = [corner rot (-h) h, corner rot (-h) (-h), corner rot h (-h), corner rot h h] := by
    unfold Comcam.polygon
    rw [hf]
  have hsides : sides (f.polygon rot) = [(corner rot (-h) h, corner rot (-h) (-h)), (corner rot (-h) (-h), corner rot h (-h)),
      (corner rot h (-h), corner rot h h), (corner rot h h, corner rot (-h) h)] := by
    rw [hp]; rfl
  rw [abs_lt] at k1 k2 k3 k4
  set l1 := leftOf (corner rot (-h) h) (corner rot (-h) (-h)) (toward0 X, toward0 Y)
  set l2 := leftOf (corner rot (-h) (-h)) (corner rot h (-h)) (toward0 X, toward0 Y)
  set l3 := leftOf (corner rot h (-h)) (corner rot h h) (toward0 X, toward0 Y)
  set l4 := leftOf (corner rot h h) (corner rot (-h) h) (toward0 X, toward0 Y)
  constructor
  · intro hu hv
    rw [abs_le] at hu hv
    have p1 : 0 < l1 := by
      have : (0 : ℝ) < l1 := by nlinarith
      exact_mod_cast this
    have p2 : 0 < l2 := by
      have : (0 : ℝ) < l2 := by nlinarith
      exact_mod_cast this
    have p3 : 0 < l3 := by
      have : (0 : ℝ) < l3 := by nlinarith
      exact_mod_cast this
    have p4 : 0 < l4 := by
      have : (0 : ℝ) < l4 := by nlinarith
      exact_mod_cast this
    unfold contains
    rw [hsides, if_pos]
    simp only [List.all_cons, List.all_nil, Bool.and_true, Bool.and_eq_true, decide_eq_true_eq]
    exact ⟨p1, p2, p3, p4⟩
  · intro hc
    have hn : 0 ≤ l1 ∧ 0 ≤ l2 ∧ 0 ≤ l3 ∧ 0 ≤ l4 := by
      unfold contains at hc
      rw [hsides] at hc
      simp only [List.all_cons, List.all_nil, Bool.and_true, Bool.and_eq_true, decide_eq_true_eq, List.any_cons, List.any_nil, Bool.or_false,
        Bool.or_eq_true] at hc
      by_cases h1 : 0 < l1 ∧ 0 < l2 ∧ 0 < l3 ∧ 0 < l4
      · omega
      · rw [if_neg h1] at hc
        by_cases h2 : l1 < 0 ∨ l2 < 0 ∨ l3 < 0 ∨ l4 < 0
        · rw [if_pos h2] at hc; cases hc
        · omega
    obtain ⟨n1, n2, n3, n4⟩ := hn
    have n1' : (0 : ℝ) ≤ l1 := by exact_mod_cast n1
    have n2' : (0 : ℝ) ≤ l2 := by exact_mod_cast n2
    have n3' : (0 : ℝ) ≤ l3 := by exact_mod_cast n3
    have n4' : (0 : ℝ) ≤ l4 := by exact_mod_cast n4
    rw [abs_le, abs_le]
    refine ⟨⟨?_, ?_⟩, ?_, ?_⟩ <;> by_contra hcon <;> push Not at hcon <;> nlinarith

/-! ### From the sky to the plane -/

theorem tan_small {c : ℝ} (h0 : 0 ≤ c) (h1 : c ≤ 1) : tan c ≤ c + c ^ 3 := by
  have hc := Real.one_sub_sq_div_two_le_cos (x := c)
  have hs := Real.sin_le h0
  have hpos : 0 < cos c := by nlinarith
  rw [Real.tan_eq_sin_div_cos, div_le_iff₀ hpos]
  have h2 : c ^ 2 ≤ 1 := by nlinarith
  have h3 : c * 1 ≤ c * ((1 + c ^ 2) * (1 - c ^ 2 / 2)) := mul_le_mul_of_nonneg_left (by nlinarith [sq_nonneg c]) h0
  have h4 : (c + c ^ 3) * (1 - c ^ 2 / 2) ≤ (c + c ^ 3) * cos c := mul_le_mul_of_nonneg_left hc (by positivity)
  nlinarith

theorem sqrt_two_near : (1414 : ℝ) / 1000 ≤ √2 ∧ √2 ≤ (14143 : ℝ) / 10000 := by
  constructor
  · rw [Real.le_sqrt (by norm_num) (by norm_num)]; norm_num
  · rw [Real.sqrt_le_left (by norm_num)]; norm_num

/-- Sizes that the scheduler uses. -/
structure Sized (s k : ℝ) : Prop where
  pos : 0 < k
  large : 100 ≤ s * k
  small : s ^ 3 * k ≤ 1

theorem Sized.facts {s k : ℝ} (h : Sized s k) : 0 < s ∧ s ≤ 1 / 10 ∧ 3 / k ≤ 3 / 100 * s := by
  obtain ⟨h1, h2, h3⟩ := h
  have hs : 0 < s := by
    by_contra hn
    nlinarith
  refine ⟨hs, ?_, ?_⟩
  · by_contra hn
    push Not at hn
    nlinarith [mul_pos hs h1, mul_self_nonneg (s - 1 / 10)]
  · rw [div_le_iff₀ h1]; linarith

/-- How far from the pointing, in the plane, what the circles find can be; and that the outer one finds what it should. -/
theorem circles {s k : ℝ} (h : Sized s k) {c R : ℝ} (h0 : 0 ≤ c) :
    (c ≤ s / 2 + 3 / k → c < π / 2 ∧ (R = tan c → R * k ≤ s * k / 2 + 4)) ∧
    (c ≤ s / 2 * √2 + 3 / k → c < π / 2 ∧ (R = tan c → R * k ≤ 742 / 1000 * (s * k))) ∧
    (c < π / 2 → R = tan c → R ≤ √2 * (s / 2 - 8 / k) → c ≤ s / 2 * √2 - 3 / k) := by
  obtain ⟨hs, hs1, hk⟩ := h.facts
  obtain ⟨r1, r2⟩ := sqrt_two_near
  obtain ⟨hk0, hl, hsm⟩ := h
  have e3 : 3 / k * k = 3 := div_mul_cancel₀ _ hk0.ne'
  refine ⟨fun hc => ⟨by linarith [Real.two_le_pi], ?_⟩, fun hc => ⟨by nlinarith [Real.two_le_pi], ?_⟩, ?_⟩
  · rintro rfl
    have hc1 : c ≤ 53 / 100 * s := by linarith
    have ht := tan_small h0 (by linarith)
    have hc3 : c ^ 3 ≤ (53 / 100 * s) ^ 3 := pow_le_pow_left₀ h0 hc1 3
    have m1 : tan c * k ≤ (c + c ^ 3) * k := mul_le_mul_of_nonneg_right ht hk0.le
    have m2 : c * k ≤ (s / 2 + 3 / k) * k := mul_le_mul_of_nonneg_right hc hk0.le
    have m3 : c ^ 3 * k ≤ (53 / 100 * s) ^ 3 * k := mul_le_mul_of_nonneg_right hc3 hk0.le
    nlinarith
  · rintro rfl
    have hc1 : c ≤ 7372 / 10000 * s := by nlinarith
    have ht := tan_small h0 (by linarith)
    have hc2 : c ^ 2 ≤ 55 / 10000 := by nlinarith
    have m0 : c + c ^ 3 ≤ 7372 / 10000 * s * (1 + 55 / 10000) := by
      have : c + c ^ 3 = c * (1 + c ^ 2) := by ring
      rw [this]
      exact mul_le_mul hc1 (by linarith) (by positivity) (by positivity)
    have m1 : tan c * k ≤ (7372 / 10000 * s * (1 + 55 / 10000)) * k := mul_le_mul_of_nonneg_right (ht.trans m0) hk0.le
    nlinarith
  · rintro hc rfl hR
    have := Real.le_tan h0 hc
    have e8 : (8 : ℝ) / k = 8 / 3 * (3 / k) := by ring
    have : 0 < 3 / k := by positivity
    rw [e8] at hR
    nlinarith

theorem query_nodup (t : List Grid) (p : Grid) (r : ℤ) : (query t p r).Nodup := List.nodup_range.filter _

/-- Which pixels are found, with the square turned as the code turns it. -/
theorem comcam_call {centres : List (ℝ × ℝ)} {s k : ℝ} {f : Comcam} (h : Comcam.make centres s k = some f) (hz : Sized s k) (tie : ℤ × ℤ → Bool)
    (ra dec rot : ℝ) {i : ℕ} {c : ℝ × ℝ} (hc : centres[i]? = some c) :
    (sep c.1 c.2 ra dec < π / 2 → |(focal c.1 c.2 ra dec (-rot)).1| ≤ s / 2 - 8 / k → |(focal c.1 c.2 ra dec (-rot)).2| ≤ s / 2 - 8 / k →
      i ∈ f.call tie ra dec rot) ∧
    (i ∈ f.call tie ra dec rot → sep c.1 c.2 ra dec < π / 2 ∧ |(focal c.1 c.2 ra dec (-rot)).1| ≤ s / 2 + 8 / k ∧
      |(focal c.1 c.2 ra dec (-rot)).2| ≤ s / 2 + 8 / k) := by
  unfold Comcam.make at h
  rw [Option.map_eq_some_iff] at h
  obtain ⟨tree, ht, rfl⟩ := h
  have htree := buildTree_get ht
  obtain ⟨hs, hs1, hk3⟩ := hz.facts
  have hk := hz.pos
  have hl := hz.large
  obtain ⟨r1, r2⟩ := sqrt_two_near
  have hpi := Real.two_le_pi
  have hget : tree[i]? = some (toGrid k c.1 c.2) := by rw [htree, List.getElem?_map, hc]; rfl
  have n1 := found_near hk (r := s / 2) (by linarith) (by linarith) c.1 c.2 ra dec
  have n2 := found_near hk (r := s / 2 * √2) (by nlinarith) (by nlinarith) c.1 c.2 ra dec
  have hsep0 : 0 ≤ sep c.1 c.2 ra dec := (C121_angle c.1 c.2 ra dec).2.1
  obtain ⟨q1, q2, q3⟩ := circles hz (c := sep c.1 c.2 ra dec) (R := tan (sep c.1 c.2 ra dec)) hsep0
  set p := toXY c.1 c.2 ra dec with hp
  have hfoc : focal c.1 c.2 ra dec (-rot) = (p.1 * cos rot + p.2 * sin rot, -p.1 * sin rot + p.2 * cos rot) := by
    unfold focal
    rw [← hp]
    unfold Sph.rotate
    rw [Real.cos_neg, Real.sin_neg]
    refine Prod.ext ?_ ?_ <;> · dsimp only; ring
  have hdist : sep c.1 c.2 ra dec < π / 2 → √(p.1 ^ 2 + p.2 ^ 2) = tan (sep c.1 c.2 ra dec) := C124_distance c.1 c.2 ra dec
  have hnorm : (p.1 * cos rot + p.2 * sin rot) ^ 2 + (-p.1 * sin rot + p.2 * cos rot) ^ 2 = p.1 ^ 2 + p.2 ^ 2 := by
    linear_combination (p.1 ^ 2 + p.2 ^ 2) * Real.cos_sq_add_sin_sq rot
  rw [hfoc]
  dsimp only
  set U := p.1 * cos rot + p.2 * sin rot with hU
  set V := -p.1 * sin rot + p.2 * cos rot with hV
  set S := nearest (s * k) with hS
  have hnS := abs_le.1 (fov_nearest (s * k))
  rw [← hS] at hnS
  have hS100 : 100 ≤ (S : ℝ) + 1 / 2 := by linarith
  have e8 : 8 / k * k = 8 := div_mul_cancel₀ _ hk.ne'
  have hUk : sqU rot (p.1 * k) (p.2 * k) = U * k := by unfold sqU; rw [hU]; ring
  have hVk : sqV rot (p.1 * k) (p.2 * k) = V * k := by unfold sqV; rw [hV]; ring
  set F : Comcam := ⟨centres, tree, S, nearest (radius3 (s / 2) * k), nearest (radius3 (s / 2 * √2) * k), k⟩ with hF
  have hsq : F.inSquare tie ra dec rot i = contains tie (F.polygon rot) (toward0 (p.1 * k), toward0 (p.2 * k)) := by
    unfold Comcam.inSquare
    have : F.centres[i]? = some c := hc
    rw [this]
  have hmem : i ∈ F.call tie ra dec rot ↔ near (toGrid k c.1 c.2) (toGrid k ra dec) (nearest (radius3 (s / 2) * k)) = true ∨
      (near (toGrid k c.1 c.2) (toGrid k ra dec) (nearest (radius3 (s / 2 * √2) * k)) = true ∧ F.inSquare tie ra dec rot i = true) := by
    have m1 : ∀ r, i ∈ query tree (toGrid k ra dec) r ↔ near (toGrid k c.1 c.2) (toGrid k ra dec) r = true := by
      intro r
      rw [mem_query, hget]
      simp
    have : F.call tie ra dec rot = query tree (toGrid k ra dec) F.inner ++ ((query tree (toGrid k ra dec) F.outer).filter
        (fun i => !(query tree (toGrid k ra dec) F.inner).contains i)).filter (F.inSquare tie ra dec rot) := rfl
    rw [this, List.mem_append, List.mem_filter, List.mem_filter, m1, m1]
    simp only [Bool.not_eq_true', List.contains_eq_mem, decide_eq_false_iff_not, m1]
    constructor
    · rintro (a | ⟨⟨a, -⟩, b⟩)
      · exact .inl a
      · exact .inr ⟨a, b⟩
    · rintro (a | ⟨a, b⟩)
      · exact .inl a
      · by_cases hh : near (toGrid k c.1 c.2) (toGrid k ra dec) F.inner = true
        · exact .inl hh
        · exact .inr ⟨⟨a, hh⟩, b⟩
  have hbound : sep c.1 c.2 ra dec ≤ s / 2 * √2 + 3 / k → (p.1 * k) ^ 2 + (p.2 * k) ^ 2 ≤ (742 / 1000 * ((S : ℝ) + 1 / 2)) ^ 2 := by
    intro hsep
    obtain ⟨a, b⟩ := q2 hsep
    have b := b rfl
    rw [← hdist a] at b
    have e : (p.1 * k) ^ 2 + (p.2 * k) ^ 2 = (√(p.1 ^ 2 + p.2 ^ 2) * k) ^ 2 := by
      rw [mul_pow (√(p.1 ^ 2 + p.2 ^ 2)), Real.sq_sqrt (by positivity)]; ring
    rw [e]
    exact pow_le_pow_left₀ (by positivity) (by linarith) 2
  rw [hmem]
  constructor
  · intro hsep hu hv
    have hR : tan (sep c.1 c.2 ra dec) ≤ √2 * (s / 2 - 8 / k) := by
      rw [← hdist hsep, ← hnorm]
      have h0 : 0 ≤ s / 2 - 8 / k := le_trans (abs_nonneg _) hu
      rw [Real.sqrt_le_left (by positivity), mul_pow, Real.sq_sqrt (by norm_num)]
      have := sq_le_sq' (by linarith [neg_abs_le U]) ((le_abs_self U).trans hu)
      have := sq_le_sq' (by linarith [neg_abs_le V]) ((le_abs_self V).trans hv)
      linarith
    have hin := q3 hsep rfl hR
    have h3k : 0 < 3 / k := by have := hk; positivity
    refine .inr ⟨n2.1 hin, ?_⟩
    rw [hsq]
    have key := (contains_near (rot := rot) tie hS100 (hbound (by linarith)) F rfl).1
    rw [hUk, hVk, abs_mul, abs_mul, abs_of_pos hk] at key
    apply key
    · nlinarith [mul_le_mul_of_nonneg_right hu hk.le]
    · nlinarith [mul_le_mul_of_nonneg_right hv hk.le]
  · rintro (hin | ⟨hout, hsqr⟩)
    · obtain ⟨a, b⟩ := q1 (n1.2 hin)
      have b := b rfl
      rw [← hdist a] at b
      have hu : |U| ≤ √(p.1 ^ 2 + p.2 ^ 2) := by
        rw [← hnorm]; exact Real.abs_le_sqrt (by nlinarith [sq_nonneg V])
      have hv : |V| ≤ √(p.1 ^ 2 + p.2 ^ 2) := by
        rw [← hnorm]; exact Real.abs_le_sqrt (by nlinarith [sq_nonneg U])
      have hR : √(p.1 ^ 2 + p.2 ^ 2) ≤ s / 2 + 8 / k := by
        by_contra hn
        push Not at hn
        nlinarith
      exact ⟨a, hu.trans hR, hv.trans hR⟩
    · rw [hsq] at hsqr
      have hsep := n2.2 hout
      obtain ⟨g1, g2⟩ := (contains_near (rot := rot) tie hS100 (hbound hsep) F rfl).2 hsqr
      rw [hUk, abs_mul, abs_of_pos hk] at g1
      rw [hVk, abs_mul, abs_of_pos hk] at g2
      have fin : ∀ z : ℝ, z * k ≤ (S : ℝ) / 2 + 71 / 10 → z ≤ s / 2 + 8 / k := by
        intro z hz'
        by_contra hn
        push Not at hn
        have := mul_lt_mul_of_pos_right hn hk
        linarith [add_mul (s / 2) (8 / k) k]
      exact ⟨(q2 hsep).1, fin _ g1, fin _ g2⟩

/-- C199, in part: the pixels returned are each returned once and are those whose centre is in the square, up to 8 in units of the scale for rounding (with
a scale of 10⁵ this is 17 arc seconds), when the square is turned clockwise on the sky by the angle given. Missing: the square should be
turned from north to east, as `focal` with the angle itself does and as the footprint of the main camera is. -/
theorem C199_square_partial (centres : List (ℝ × ℝ)) (s k : ℝ) (f : Comcam) (h : Comcam.make centres s k = some f) (hz : Sized s k)
    (tie : ℤ × ℤ → Bool) (ra dec rot : ℝ) :
    (f.call tie ra dec rot).Nodup ∧ (∀ i ∈ f.call tie ra dec rot, i < centres.length) ∧ ∀ i c, centres[i]? = some c →
      (sep c.1 c.2 ra dec < π / 2 → |(focal c.1 c.2 ra dec (-rot)).1| ≤ s / 2 - 8 / k → |(focal c.1 c.2 ra dec (-rot)).2| ≤ s / 2 - 8 / k →
        i ∈ f.call tie ra dec rot) ∧
      (i ∈ f.call tie ra dec rot → sep c.1 c.2 ra dec < π / 2 ∧ |(focal c.1 c.2 ra dec (-rot)).1| ≤ s / 2 + 8 / k ∧
        |(focal c.1 c.2 ra dec (-rot)).2| ≤ s / 2 + 8 / k) := by
  refine ⟨?_, ?_, fun i c hc => comcam_call h hz tie ra dec rot hc⟩
  · unfold Comcam.call
    refine List.Nodup.append (query_nodup _ _ _) (((query_nodup _ _ _).filter _).filter _) ?_
    intro i h1 h2
    rw [List.mem_filter, List.mem_filter] at h2
    have := h2.1.2
    simp only [Bool.not_eq_true', List.contains_eq_mem, decide_eq_false_iff_not] at this
    exact this h1
  · unfold Comcam.make at h
    rw [Option.map_eq_some_iff] at h
    obtain ⟨tree, ht, rfl⟩ := h
    have hq : ∀ p r, ∀ i ∈ query tree p r, i < centres.length := by
      intro p r i hi
      unfold query at hi
      rw [List.mem_filter, List.mem_range, buildTree_get ht, List.length_map] at hi
      exact hi.1
    intro i hi
    unfold Comcam.call at hi
    rw [List.mem_append, List.mem_filter, List.mem_filter] at hi
    rcases hi with hi | ⟨⟨hi, -⟩, -⟩ <;> exact hq _ _ i hi

/-- A square looks the same after quarter turns. -/
theorem square_turned {x y a : ℝ} (m : ℤ) (q : ℝ) :
    (|(rotate x y (a + m * (π / 2))).1| ≤ q ∧ |(rotate x y (a + m * (π / 2))).2| ≤ q) ↔ (|(rotate x y a).1| ≤ q ∧ |(rotate x y a).2| ≤ q) := by
  have hr := (C124_rotate x y a (m * (π / 2))).2.1
  rw [← hr]
  set u := rotate x y a
  have h2 : sin (m * (π / 2)) * cos (m * (π / 2)) = 0 := by
    have : 2 * (sin (m * (π / 2)) * cos (m * (π / 2))) = sin (2 * (m * (π / 2))) := by rw [Real.sin_two_mul]; ring
    have h3 : sin (2 * (m * (π / 2))) = 0 := by rw [show 2 * ((m : ℝ) * (π / 2)) = m * π by ring]; exact Real.sin_int_mul_pi m
    linarith
  have h1 := Real.cos_sq_add_sin_sq (m * (π / 2))
  unfold rotate
  rcases mul_eq_zero.1 h2 with h0 | h0
  · rw [h0] at h1 ⊢
    have hc : |cos (m * (π / 2))| = 1 := by rw [← sq_eq_sq₀ (abs_nonneg _) one_pos.le, sq_abs]; linarith
    simp [abs_mul, hc]
  · rw [h0] at h1 ⊢
    have hc : |sin (m * (π / 2))| = 1 := by rw [← sq_eq_sq₀ (abs_nonneg _) one_pos.le, sq_abs]; linarith
    simp [abs_mul, hc]
    tauto

/-- C199, in part: for a camera turned by a multiple of 45 degrees, the pixels are those in the square turned from north to east. Missing: other angles, see
below. -/
theorem C199_eighths_partial (centres : List (ℝ × ℝ)) (s k : ℝ) (f : Comcam) (h : Comcam.make centres s k = some f) (hz : Sized s k)
    (tie : ℤ × ℤ → Bool) (ra dec rot : ℝ) (m : ℤ) (hm : rot = m * (π / 4)) (i : ℕ) (c : ℝ × ℝ) (hc : centres[i]? = some c) :
    (sep c.1 c.2 ra dec < π / 2 → |(focal c.1 c.2 ra dec rot).1| ≤ s / 2 - 8 / k ∧ |(focal c.1 c.2 ra dec rot).2| ≤ s / 2 - 8 / k →
      i ∈ f.call tie ra dec rot) ∧
    (i ∈ f.call tie ra dec rot → sep c.1 c.2 ra dec < π / 2 ∧ |(focal c.1 c.2 ra dec rot).1| ≤ s / 2 + 8 / k ∧
      |(focal c.1 c.2 ra dec rot).2| ≤ s / 2 + 8 / k) := by
  obtain ⟨a, b⟩ := comcam_call h hz tie ra dec rot hc
  have e : rot = -rot + m * (π / 2) := by rw [hm]; ring
  have t : ∀ q, (|(focal c.1 c.2 ra dec rot).1| ≤ q ∧ |(focal c.1 c.2 ra dec rot).2| ≤ q) ↔
      (|(focal c.1 c.2 ra dec (-rot)).1| ≤ q ∧ |(focal c.1 c.2 ra dec (-rot)).2| ≤ q) := by
    intro q
    have := square_turned (x := (toXY c.1 c.2 ra dec).1) (y := (toXY c.1 c.2 ra dec).2) (a := -rot) m q
    rw [← e] at this
    exact this
  refine ⟨fun h1 h2 => ?_, fun h1 => ?_⟩
  · obtain ⟨h3, h4⟩ := (t _).1 h2
    exact a h1 h3 h4
  · obtain ⟨h2, h3⟩ := b h1
    exact ⟨h2, (t _).2 h3⟩

/-- C199 does not hold in full: at 30 degrees a pixel well inside of the field of the camera is not returned, whatever the size and the pointing on the equator. -/
theorem C199_turned_violated (s k : ℝ) (hz : Sized s k) (hl : 200 ≤ s * k) (tie : ℤ × ℤ → Bool) :
    ∃ (c : ℝ × ℝ) (f : Comcam), Comcam.make [c] s k = some f ∧ sep c.1 c.2 0 0 < π / 2 ∧ |(focal c.1 c.2 0 0 (π / 6)).1| ≤ s / 2 - 1 / 50 * s ∧
      |(focal c.1 c.2 0 0 (π / 6)).2| ≤ s / 2 - 1 / 50 * s ∧ f.call tie 0 0 (π / 6) = [] := by
  obtain ⟨hs, hs1, hk3⟩ := hz.facts
  have hk := hz.pos
  have h3 : (√3 : ℝ) ^ 2 = 3 := Real.sq_sqrt (by norm_num)
  have h30 : 0 ≤ √3 := Real.sqrt_nonneg _
  have h31 := sqrt_three_lt
  set r := 11 / 10 * (s / 2) with hr
  have hr0 : 0 < r := by rw [hr]; positivity
  set c := toSky (r * (√3 / 2)) (r * (1 / 2)) 0 0 with hc
  have hxy : toXY c.1 c.2 0 0 = (r * (√3 / 2), r * (1 / 2)) := C124_back_and_there _ _ 0 0
  obtain ⟨g1, g2⟩ := C124_sky (r * (√3 / 2)) (r * (1 / 2)) 0 0
  rw [← hc] at g1 g2
  have hpi := Real.pi_pos
  have hra : |c.1| ≤ π := by
    rw [hc]
    unfold toSky atan2
    dsimp only
    rw [zero_add]
    exact Complex.abs_arg_le_pi _
  have hdec : |c.2| ≤ π / 2 := abs_le.2 g2
  have hb : buildTree k [c] = some [toGrid k c.1 c.2] := by
    unfold buildTree
    rw [if_neg]
    · rfl
    · rintro (⟨d, hd, h⟩ | ⟨d, hd, h⟩) <;> · rw [List.mem_singleton] at hd; subst hd; linarith
  obtain ⟨f, hf⟩ : ∃ f, Comcam.make [c] s k = some f := by unfold Comcam.make; rw [hb]; exact ⟨_, rfl⟩
  have f1 : focal c.1 c.2 0 0 (π / 6) = (r * (1 / 2), r * (√3 / 2)) := by
    unfold focal
    rw [hxy]
    unfold rotate
    rw [Real.cos_pi_div_six, Real.sin_pi_div_six]
    refine Prod.ext ?_ ?_
    · dsimp only; linear_combination r / 4 * h3
    · dsimp only; ring
  have f2 : focal c.1 c.2 0 0 (-(π / 6)) = (r, 0) := by
    unfold focal
    rw [hxy]
    unfold rotate
    rw [Real.cos_neg, Real.sin_neg, Real.cos_pi_div_six, Real.sin_pi_div_six]
    refine Prod.ext ?_ ?_
    · dsimp only; linear_combination r / 4 * h3
    · dsimp only; ring
  refine ⟨c, f, hf, ?_, ?_, ?_, ?_⟩
  · obtain ⟨d1, d2, d3⟩ := C121_angle c.1 c.2 0 0
    obtain ⟨a1, -, -⟩ := onPlane_dots 0 0 (r * (√3 / 2)) (r * (1 / 2))
    rw [← g1, dot_stretched] at a1
    by_contra hn
    push Not at hn
    have : cos (sep c.1 c.2 0 0) ≤ 0 := Real.cos_nonpos_of_pi_div_two_le_of_le hn (by linarith)
    rw [d1] at this
    nlinarith [Real.sqrt_nonneg (1 + (r * (√3 / 2)) ^ 2 + (r * (1 / 2)) ^ 2)]
  · rw [f1, abs_of_nonneg (by positivity), hr]; linarith
  · rw [f1, abs_of_nonneg (by positivity), hr]; nlinarith
  · rw [List.eq_nil_iff_forall_not_mem]
    intro i hi
    have hlen := (C199_square_partial [c] s k f hf hz tie 0 0 (π / 6)).2.1 i hi
    have hi0 : i = 0 := by simpa using hlen
    subst hi0
    obtain ⟨-, b, -⟩ := (comcam_call hf hz tie 0 0 (π / 6) (i := 0) (c := c) rfl).2 hi
    rw [f2, abs_of_pos hr0, hr] at b
    have e8 : 8 / k * k = 8 := div_mul_cancel₀ _ hk.ne'
    have := mul_le_mul_of_nonneg_right b hk.le
    nlinarith

/-- The default side, 0.7 degrees, and scale. -/
example : Sized (7 / 10 * (π / 180)) 100000 ∧ (200 : ℝ) ≤ 7 / 10 * (π / 180) * 100000 := by
  have h1 := Real.two_le_pi
  have h2 := Real.pi_le_four
  have h3 : π ^ 3 ≤ 4 ^ 3 := pow_le_pow_left₀ Real.pi_pos.le h2 3
  refine ⟨⟨by norm_num, by linarith, ?_⟩, by linarith⟩
  have : (7 / 10 * (π / 180)) ^ 3 * 100000 = π ^ 3 * ((7 / 1800) ^ 3 * 100000) := by ring
  rw [this]
  nlinarith

end Verif
