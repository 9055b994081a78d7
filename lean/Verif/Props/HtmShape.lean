import Verif.Props.HtmFind
import Mathlib.Analysis.SpecialFunctions.Trigonometric.Bounds

/-!
# The shape of trixels (C136)
-/

namespace Verif

open Real Sph Htm

/-- A trixel whose sides are at most a quarter of a circle and whose angles are at most right angles. -/
structure RightTrixel (t : Trixel) : Prop extends GoodTrixel t where
  p0 : 0 ≤ dot t.c1 t.c2
  q0 : 0 ≤ dot t.c2 t.c0
  r0 : 0 ≤ dot t.c0 t.c1
  pq : dot t.c2 t.c0 * dot t.c0 t.c1 ≤ dot t.c1 t.c2
  qr : dot t.c0 t.c1 * dot t.c1 t.c2 ≤ dot t.c2 t.c0
  rp : dot t.c1 t.c2 * dot t.c2 t.c0 ≤ dot t.c0 t.c1

/-- Its sides are at most 60 degrees. -/
structure SmallTrixel (t : Trixel) : Prop extends RightTrixel t where
  p1 : 1 / 2 ≤ dot t.c1 t.c2
  q1 : 1 / 2 ≤ dot t.c2 t.c0
  r1 : 1 / 2 ≤ dot t.c0 t.c1

theorem unit3_dot {v : Vec} (h : IsUnit3 v) : dot v v = 1 := by unfold IsUnit3 at h; unfold dot; linarith

theorem dot_comm3 (a b : Vec) : dot a b = dot b a := by unfold dot; ring

theorem dot_add (a b c : Vec) : dot a (add b c) = dot a b + dot a c := by unfold dot add; ring

theorem dot_smul (k : ℝ) (a b : Vec) : dot a (smul k b) = k * dot a b := by unfold dot smul; ring

theorem smul_dot (k : ℝ) (a b : Vec) : dot (smul k a) b = k * dot a b := by unfold dot smul; ring

theorem add_dot (a b c : Vec) : dot (add a b) c = dot a c + dot b c := by unfold dot add; ring

/-- The dot product of two vectors of length one. -/
theorem dot_le_one {a b : Vec} (ha : IsUnit3 a) (hb : IsUnit3 b) : dot a b ≤ 1 := by
  unfold IsUnit3 at *
  unfold dot
  nlinarith [sq_nonneg (a.x - b.x), sq_nonneg (a.y - b.y), sq_nonneg (a.z - b.z)]

theorem neg_one_le_dot {a b : Vec} (ha : IsUnit3 a) (hb : IsUnit3 b) : -1 ≤ dot a b := by
  unfold IsUnit3 at *
  unfold dot
  nlinarith [sq_nonneg (a.x + b.x), sq_nonneg (a.y + b.y), sq_nonneg (a.z + b.z)]

/-- Half a side: the product of a corner and a midpoint is `k (1 + r)` with `k² (2 + 2 r) = 1`. -/
theorem half_side {k r : ℝ} (hk : 0 < k) (hr : 0 ≤ r) (h : k ^ 2 * (2 + 2 * r) = 1) : 1 / 2 ≤ k * (1 + r) := by
  nlinarith [mul_pos hk (show 0 < 1 + r by linarith)]

theorem right_sum {p q r : ℝ} (hp : q * r ≤ p) (hq : q ≤ 1) (hr : r ≤ 1) : q + r ≤ 1 + p := by nlinarith

theorem mid_large {k k' p q r : ℝ} (hk : 0 < k) (hk' : 0 < k') (h : q * r ≤ p) : k * (1 + q) * (k' * (1 + r)) ≤ k * k' * (1 + p + q + r) := by
  have h1 : 0 ≤ k * k' * (p - q * r) := mul_nonneg (mul_pos hk hk').le (sub_nonneg.2 h)
  have h2 : k * k' * (1 + p + q + r) - k * (1 + q) * (k' * (1 + r)) = k * k' * (p - q * r) := by ring
  linarith

theorem half_side_sq {k r : ℝ} (hr : 0 ≤ r) (h : k ^ 2 * (2 + 2 * r) = 1) : 1 / 2 ≤ (k * (1 + r)) ^ 2 := by
  have : (k * (1 + r)) ^ 2 = (k ^ 2 * (2 + 2 * r)) * ((1 + r) / 2) := by ring
  rw [this, h]; linarith

theorem half_prod {x y : ℝ} (hx : 0 ≤ x) (hy : 0 ≤ y) (h1 : 1 / 2 ≤ x ^ 2) (h2 : 1 / 2 ≤ y ^ 2) : 1 / 2 ≤ x * y := by
  refine (abs_le_of_sq_le_sq' ?_ (mul_nonneg hx hy)).2
  rw [mul_pow]
  nlinarith

/-- A line between midpoints times a half side is at most the other half side. -/
theorem mid_half {k k' x y S : ℝ} (hk : 0 < k) (hn : k' ^ 2 * (2 + 2 * y) = 1) (hS : S ≤ 2 * (1 + x)) : k * k' * S * (k' * (1 + y)) ≤ k * (1 + x) := by
  have : k * k' * S * (k' * (1 + y)) = k * (S / 2) * (k' ^ 2 * (2 + 2 * y)) := by ring
  rw [this, hn]
  nlinarith

theorem mid_mid {k k' k'' x S : ℝ} (hk : 0 < k) (hk' : 0 < k') (hS : 0 ≤ S) (hn : k'' ^ 2 * (2 + 2 * x) = 1) (hle : S ≤ 2 + 2 * x) :
    k'' * k * S * (k' * k'' * S) ≤ k * k' * S := by
  have e : k'' * k * S * (k' * k'' * S) = (k * k' * S) * (k'' ^ 2 * S) := by ring
  rw [e]
  have h1 : k'' ^ 2 * S ≤ 1 := by rw [← hn]; exact mul_le_mul_of_nonneg_left hle (sq_nonneg _)
  have h2 : 0 ≤ k * k' * S := by positivity
  nlinarith

/-- The four children of a trixel without angles over 90 degrees have none either, and sides of at most 60 degrees. -/
theorem child_small {t : Trixel} (h : RightTrixel t) {j : ℕ} {c : Trixel} (hc : t.child j = some c) : SmallTrixel c := by
  obtain ⟨k0, k1, k2, a0, a1, a2, e0, e1, e2, v0, v1, v2⟩ := mids h.toGoodTrixel
  have hg := (child_sides h.toGoodTrixel hc).1
  have u0 := unit3_dot h.u0
  have u1 := unit3_dot h.u1
  have u2 := unit3_dot h.u2
  have hp1 := dot_le_one h.u1 h.u2
  have hq1 := dot_le_one h.u2 h.u0
  have hr1 := dot_le_one h.u0 h.u1
  obtain ⟨-, p0, q0, r0, pq, qr, rp⟩ := h
  have n0 : k0 ^ 2 * (2 + 2 * dot t.c1 t.c2) = 1 := by
    have := unit3_dot v0
    rw [e0] at this
    simp only [dot_smul, smul_dot, dot_add, add_dot, u1, u2, dot_comm3 t.c2 t.c1] at this
    linarith
  have n1 : k1 ^ 2 * (2 + 2 * dot t.c2 t.c0) = 1 := by
    have := unit3_dot v1
    rw [e1] at this
    simp only [dot_smul, smul_dot, dot_add, add_dot, u0, u2, dot_comm3 t.c0 t.c2] at this
    linarith
  have n2 : k2 ^ 2 * (2 + 2 * dot t.c0 t.c1) = 1 := by
    have := unit3_dot v2
    rw [e2] at this
    simp only [dot_smul, smul_dot, dot_add, add_dot, u0, u1, dot_comm3 t.c1 t.c0] at this
    linarith
  have d01 : dot t.w0 t.w1 = k0 * k1 * (1 + dot t.c1 t.c2 + dot t.c2 t.c0 + dot t.c0 t.c1) := by
    rw [e0, e1]
    simp only [dot_smul, smul_dot, dot_add, add_dot, u0, u1, u2, dot_comm3 t.c1 t.c0]
    ring
  have d12 : dot t.w1 t.w2 = k1 * k2 * (1 + dot t.c1 t.c2 + dot t.c2 t.c0 + dot t.c0 t.c1) := by
    rw [e1, e2]
    simp only [dot_smul, smul_dot, dot_add, add_dot, u0, u1, u2, dot_comm3 t.c2 t.c1]
    ring
  have d20 : dot t.w2 t.w0 = k2 * k0 * (1 + dot t.c1 t.c2 + dot t.c2 t.c0 + dot t.c0 t.c1) := by
    rw [e2, e0]
    simp only [dot_smul, smul_dot, dot_add, add_dot, u0, u1, u2, dot_comm3 t.c0 t.c2]
    ring
  have x01 : dot t.c0 t.w1 = k1 * (1 + dot t.c2 t.c0) := by
    rw [e1]; simp only [dot_smul, dot_add, u0, dot_comm3 t.c0 t.c2]
  have x02 : dot t.c0 t.w2 = k2 * (1 + dot t.c0 t.c1) := by
    rw [e2]; simp only [dot_smul, dot_add, u0]
  have x10 : dot t.c1 t.w0 = k0 * (1 + dot t.c1 t.c2) := by
    rw [e0]; simp only [dot_smul, dot_add, u1]
  have x12 : dot t.c1 t.w2 = k2 * (1 + dot t.c0 t.c1) := by
    rw [e2]; simp only [dot_smul, dot_add, u1, dot_comm3 t.c1 t.c0]; ring
  have x20 : dot t.c2 t.w0 = k0 * (1 + dot t.c1 t.c2) := by
    rw [e0]; simp only [dot_smul, dot_add, u2, dot_comm3 t.c2 t.c1]; ring
  have x21 : dot t.c2 t.w1 = k1 * (1 + dot t.c2 t.c0) := by
    rw [e1]; simp only [dot_smul, dot_add, u2]; ring
  generalize dot t.c1 t.c2 = p at *
  generalize dot t.c2 t.c0 = q at *
  generalize dot t.c0 t.c1 = r at *
  have l0 := half_side a0 p0 n0
  have l1 := half_side a1 q0 n1
  have l2 := half_side a2 r0 n2
  have s1 := right_sum pq hq1 hr1
  have s2 := right_sum qr hr1 hp1
  have s3 := right_sum rp hp1 hq1
  have m12 := mid_large (k := k1) (k' := k2) a1 a2 pq
  have m20 := mid_large (k := k2) (k' := k0) a2 a0 qr
  have m01 := mid_large (k := k0) (k' := k1) a0 a1 rp
  have b0 := half_side_sq p0 n0
  have b1 := half_side_sq q0 n1
  have b2 := half_side_sq r0 n2
  have g12 : 1 / 2 ≤ k1 * k2 * (1 + p + q + r) := by have := half_prod (by linarith) (by linarith) b1 b2; linarith
  have g20 : 1 / 2 ≤ k2 * k0 * (1 + p + q + r) := by have := half_prod (by linarith) (by linarith) b2 b0; linarith
  have g01 : 1 / 2 ≤ k0 * k1 * (1 + p + q + r) := by have := half_prod (by linarith) (by linarith) b0 b1; linarith
  unfold Trixel.child at hc
  split_ifs at hc with h0 h1 h2 h3
  all_goals
    simp only [Option.some.injEq] at hc
    subst hc
  · refine ⟨⟨hg, ?_, ?_, ?_, ?_, ?_, ?_⟩, ?_, ?_, ?_⟩ <;> simp only [dot_comm3 t.w2 t.w1, dot_comm3 t.w1 t.c0, d12, x01, x02]
    · linarith
    · linarith
    · linarith
    · linarith
    · have := @mid_half k1 k2 q r (1 + p + q + r) a1 n2 (by linarith)
      linarith
    · have := @mid_half k2 k1 r q (1 + p + q + r) a2 n1 (by linarith)
      linarith
    · exact g12
    · exact l1
    · exact l2
  · refine ⟨⟨hg, ?_, ?_, ?_, ?_, ?_, ?_⟩, ?_, ?_, ?_⟩ <;> simp only [dot_comm3 t.w0 t.w2, dot_comm3 t.w2 t.c1, d20, x10, x12]
    · linarith
    · linarith
    · linarith
    · linarith
    · have := @mid_half k2 k0 r p (1 + p + q + r) a2 n0 (by linarith)
      linarith
    · have := @mid_half k0 k2 p r (1 + p + q + r) a0 n2 (by linarith)
      linarith
    · exact g20
    · exact l2
    · exact l0
  · refine ⟨⟨hg, ?_, ?_, ?_, ?_, ?_, ?_⟩, ?_, ?_, ?_⟩ <;> simp only [dot_comm3 t.w1 t.w0, dot_comm3 t.w0 t.c2, d01, x20, x21]
    · linarith
    · linarith
    · linarith
    · linarith
    · have := @mid_half k0 k1 p q (1 + p + q + r) a0 n1 (by linarith)
      linarith
    · have := @mid_half k1 k0 q p (1 + p + q + r) a1 n0 (by linarith)
      linarith
    · exact g01
    · exact l0
    · exact l1
  · refine ⟨⟨hg, ?_, ?_, ?_, ?_, ?_, ?_⟩, ?_, ?_, ?_⟩ <;> simp only [d01, d12, d20]
    · linarith
    · linarith
    · linarith
    · have := @mid_mid k1 k2 k0 p (1 + p + q + r) a1 a2 (by linarith) n0 (by linarith)
      linarith
    · have := @mid_mid k2 k0 k1 q (1 + p + q + r) a2 a0 (by linarith) n1 (by linarith)
      linarith
    · have := @mid_mid k0 k1 k2 r (1 + p + q + r) a0 a1 (by linarith) n2 (by linarith)
      linarith
    · exact g12
    · exact g20
    · exact g01

theorem base_right {b : ℕ} {t : Trixel} (h : baseOf b = some t) : RightTrixel t := by
  refine ⟨base_good h, ?_, ?_, ?_, ?_, ?_, ?_⟩
  all_goals
    unfold baseOf at h
    split_ifs at h
    all_goals
      simp only [Option.some.injEq] at h
      subst h
      simp [dot, s0, s1, s2, s3, n0, n1, n2, n3]

theorem trixel_right : ∀ (L i : ℕ) (t : Trixel), levelFrom i = some L → trixelFrom i = some t → RightTrixel t ∧ (2 ≤ L → SmallTrixel t) := by
  intro L
  induction L with
  | zero => intro i t h; have := ((C134_level _ _).1 h).1; omega
  | succ L ih =>
    intro i t h ht
    by_cases hL : L = 0
    · subst hL
      rw [trixel_base h] at ht
      exact ⟨base_right ht, by omega⟩
    · rw [trixel_parent h hL, Option.bind_eq_some_iff] at ht
      obtain ⟨q, hq, hc⟩ := ht
      have := child_small (ih _ _ (level_parent h hL) hq).1 hc
      exact ⟨this.toRightTrixel, fun _ => this⟩

/-! ### The bounding circle -/

/-- The normal of the plane through the corners. -/
noncomputable def normal (t : Trixel) : Vec := cross (sub t.c1 t.c0) (sub t.c2 t.c1)

theorem normal_dots (t : Trixel) : dot t.c0 (normal t) = dot (cross t.c0 t.c1) t.c2 ∧ dot t.c1 (normal t) = dot (cross t.c0 t.c1) t.c2 ∧
    dot t.c2 (normal t) = dot (cross t.c0 t.c1) t.c2 := by
  refine ⟨?_, ?_, ?_⟩ <;> simp only [normal, dot, cross, sub] <;> ring

theorem normal_pos {t : Trixel} (h : GoodTrixel t) : 0 < (normal t).x ^ 2 + (normal t).y ^ 2 + (normal t).z ^ 2 := by
  have d := h.det
  rw [← (normal_dots t).1] at d
  by_contra hc
  have hx : (normal t).x = 0 := by nlinarith [sq_nonneg (normal t).x, sq_nonneg (normal t).y, sq_nonneg (normal t).z]
  have hy : (normal t).y = 0 := by nlinarith [sq_nonneg (normal t).x, sq_nonneg (normal t).y, sq_nonneg (normal t).z]
  have hz : (normal t).z = 0 := by nlinarith [sq_nonneg (normal t).x, sq_nonneg (normal t).y, sq_nonneg (normal t).z]
  unfold dot at d
  rw [hx, hy, hz] at d
  simp at d

/-- The corners are at the same distance from the centre of the bounding circle. -/
theorem centre_spec {t : Trixel} (h : GoodTrixel t) : IsUnit3 t.centre ∧ 0 < t.dd ∧ dot t.c0 t.centre = t.dd ∧ dot t.c1 t.centre = t.dd ∧ dot t.c2 t.centre = t.dd ∧
    ∃ k, 0 < k ∧ t.centre = smul k (normal t) := by
  obtain ⟨k, hk, e, hu⟩ := unit_spec (normal_pos h)
  have e' : t.centre = smul k (normal t) := e
  obtain ⟨n0, n1, n2⟩ := normal_dots t
  have d := h.det
  have h0 : dot t.c0 t.centre = k * dot (cross t.c0 t.c1) t.c2 := by rw [e', dot_smul, n0]
  have h1 : dot t.c1 t.centre = k * dot (cross t.c0 t.c1) t.c2 := by rw [e', dot_smul, n1]
  have h2 : dot t.c2 t.centre = k * dot (cross t.c0 t.c1) t.c2 := by rw [e', dot_smul, n2]
  have hd : t.dd = k * dot (cross t.c0 t.c1) t.c2 := by unfold Trixel.dd; rw [h0, h1, h2, max_self, max_self]
  refine ⟨hu, ?_, ?_, ?_, ?_, k, hk, e'⟩
  · rw [hd]; positivity
  · rw [h0, hd]
  · rw [h1, hd]
  · rw [h2, hd]

theorem bound_aux {a b c : ℝ} (ha : 0 ≤ a) (hb : 0 ≤ b) (hc : 0 ≤ c) (ha' : a ≤ 1 / 2) (hb' : b ≤ 1 / 2) (hc' : c ≤ 1 / 2)
    (h1 : a ≤ b + c) (h2 : b ≤ a + c) (h3 : c ≤ a + b) : 6 * (a * b * c) ≤ 2 * a * b + 2 * b * c + 2 * c * a - a ^ 2 - b ^ 2 - c ^ 2 := by
  have key : ∀ {a b c : ℝ}, 0 ≤ a → 0 ≤ b → 0 ≤ c → a ≤ 1 / 2 → a ≤ b + c → b ≤ a → c ≤ a →
      6 * (a * b * c) ≤ 2 * a * b + 2 * b * c + 2 * c * a - a ^ 2 - b ^ 2 - c ^ 2 := by
    intro a b c ha hb hc ha' h1 h2 h3
    have hbc := mul_nonneg hb hc
    have x1 : 6 * (a * b * c) ≤ 3 * (b * c) := by nlinarith
    rcases le_total b c with h | h
    · nlinarith [mul_nonneg (sub_nonneg.2 h3) (sub_nonneg.2 h1), mul_nonneg hb (sub_nonneg.2 h)]
    · nlinarith [mul_nonneg (sub_nonneg.2 h2) (sub_nonneg.2 h1), mul_nonneg hc (sub_nonneg.2 h)]
  rcases le_total a b with hab | hab <;> rcases le_total b c with hbc | hbc <;> rcases le_total a c with hac | hac
  · have := key hc ha hb hc' (by linarith) (by linarith) (by linarith); linarith
  · have := key hc ha hb hc' (by linarith) (by linarith) (by linarith); linarith
  · have := key hb hc ha hb' (by linarith) (by linarith) (by linarith); linarith
  · have := key hb hc ha hb' (by linarith) (by linarith) (by linarith); linarith
  · have := key hc ha hb hc' (by linarith) (by linarith) (by linarith); linarith
  · have := key ha hb hc ha' (by linarith) (by linarith) (by linarith); linarith
  · have := key ha hb hc ha' (by linarith) (by linarith) (by linarith); linarith
  · have := key ha hb hc ha' (by linarith) (by linarith) (by linarith); linarith

/-- Gram's determinant. -/
theorem gram3 (a b c : Vec) : dot (cross a b) c ^ 2 = dot a a * dot b b * dot c c + 2 * (dot a b * dot b c * dot c a) - dot a a * dot b c ^ 2 -
    dot b b * dot c a ^ 2 - dot c c * dot a b ^ 2 := by
  unfold dot cross; ring

theorem lagrange (a b : Vec) : dot (cross a b) (cross a b) = dot a a * dot b b - dot a b ^ 2 := by unfold dot cross; ring

/-- For sides of at most 60 degrees the plane of the bounding circle is at least `√(2/3)` away. -/
theorem dd_bound {t : Trixel} (h : SmallTrixel t) : 2 / 3 ≤ t.dd ^ 2 ∧ t.dd ≤ 1 := by
  obtain ⟨hu, hpos, h0, h1, h2, k, hk, e⟩ := centre_spec h.toGoodTrixel
  refine ⟨?_, by rw [← h0]; exact dot_le_one h.u0 hu⟩
  have u0 := unit3_dot h.u0
  have u1 := unit3_dot h.u1
  have u2 := unit3_dot h.u2
  have hn : k ^ 2 * dot (normal t) (normal t) = 1 := by
    have := unit3_dot hu
    rw [e, dot_smul, smul_dot] at this
    linarith
  have hd : t.dd = k * dot (cross t.c0 t.c1) t.c2 := by rw [← h0, e, dot_smul, (normal_dots t).1]
  have hg := gram3 t.c0 t.c1 t.c2
  have hN : dot (normal t) (normal t) = (2 - 2 * dot t.c0 t.c1) * (2 - 2 * dot t.c1 t.c2) - (dot t.c1 t.c2 - 1 - dot t.c2 t.c0 + dot t.c0 t.c1) ^ 2 := by
    unfold normal
    rw [lagrange]
    have a1 : dot (sub t.c1 t.c0) (sub t.c1 t.c0) = dot t.c1 t.c1 + dot t.c0 t.c0 - 2 * dot t.c0 t.c1 := by unfold dot sub; ring
    have a2 : dot (sub t.c2 t.c1) (sub t.c2 t.c1) = dot t.c2 t.c2 + dot t.c1 t.c1 - 2 * dot t.c1 t.c2 := by unfold dot sub; ring
    have a3 : dot (sub t.c1 t.c0) (sub t.c2 t.c1) = dot t.c1 t.c2 - dot t.c1 t.c1 - dot t.c2 t.c0 + dot t.c0 t.c1 := by unfold dot sub; ring
    rw [a1, a2, a3, u0, u1, u2]
    ring
  have hp1 := dot_le_one h.u1 h.u2
  have hq1 := dot_le_one h.u2 h.u0
  have hr1 := dot_le_one h.u0 h.u1
  obtain ⟨⟨-, p0, q0, r0, pq, qr, rp⟩, hp, hq, hr⟩ := h
  rw [u0, u1, u2] at hg
  rw [hd, mul_pow, hg]
  generalize dot t.c1 t.c2 = p at *
  generalize dot t.c2 t.c0 = q at *
  generalize dot t.c0 t.c1 = r at *
  have s1 := right_sum pq hq1 hr1
  have s2 := right_sum qr hr1 hp1
  have s3 := right_sum rp hp1 hq1
  have key := bound_aux (a := 1 - p) (b := 1 - q) (c := 1 - r) (by linarith) (by linarith) (by linarith) (by linarith) (by linarith) (by linarith)
    (by linarith) (by linarith) (by linarith)
  rw [hN] at hn
  have hk2 := sq_nonneg k
  nlinarith [mul_le_mul_of_nonneg_left key hk2]

/-- The number passed as the radius of the bounding circle is then at least its radius. -/
theorem radius_enough {h : ℝ} (h0 : 0 < h) (h1 : 2 / 3 ≤ h ^ 2) (h2 : h ≤ 1) : arccos h ≤ h := by
  have hb := Real.cos_bound (x := h) (by rw [abs_of_pos h0]; exact h2)
  rw [abs_of_pos h0] at hb
  have hb' := (abs_le.1 hb).2
  have hc : cos h ≤ h := by nlinarith [sq_nonneg (h ^ 2 - 2 / 3), sq_nonneg (h - 1), mul_pos h0 h0, pow_pos h0 3, pow_pos h0 4]
  calc arccos h ≤ arccos (cos h) := Real.antitone_arccos hc
    _ = h := Real.arccos_cos h0.le (by linarith [Real.two_le_pi])

/-- The triangle inequality on the sphere. -/
theorem arccos_triangle {a b c : Vec} (ha : IsUnit3 a) (hb : IsUnit3 b) (hc : IsUnit3 c) : arccos (dot a c) ≤ arccos (dot a b) + arccos (dot b c) := by
  have hg := gram3 a b c
  rw [unit3_dot ha, unit3_dot hb, unit3_dot hc, dot_comm3 c a] at hg
  have x1 := dot_le_one ha hb
  have x2 := neg_one_le_dot ha hb
  have y1 := dot_le_one hb hc
  have y2 := neg_one_le_dot hb hc
  have hsq := sq_nonneg (dot (cross a b) c)
  by_cases hpi : arccos (dot a b) + arccos (dot b c) ≤ π
  · have hcos : cos (arccos (dot a b) + arccos (dot b c)) ≤ dot a c := by
      rw [Real.cos_add, Real.cos_arccos x2 x1, Real.cos_arccos y2 y1, Real.sin_arccos, Real.sin_arccos, ← Real.sqrt_mul (by nlinarith)]
      have hle : (dot a b * dot b c - dot a c) ^ 2 ≤ (1 - dot a b ^ 2) * (1 - dot b c ^ 2) := by nlinarith
      have := Real.le_sqrt_of_sq_le hle
      linarith
    calc arccos (dot a c) ≤ arccos (cos (arccos (dot a b) + arccos (dot b c))) := Real.antitone_arccos hcos
      _ = _ := Real.arccos_cos (add_nonneg (Real.arccos_nonneg _) (Real.arccos_nonneg _)) hpi
  · push Not at hpi
    exact le_trans (Real.arccos_le_pi _) hpi.le

end Verif
