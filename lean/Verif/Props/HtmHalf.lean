import Verif.Props.HtmShape

/-!
# Half spaces and trixels (C136)
-/

namespace Verif

open Real Sph Htm

/-! ### Crossing an edge -/

/-- A quadratic that is not positive at 0 and 1 and positive between has a root from 0 to 1. -/
theorem root_between {a b c s : ℝ} (h0 : c ≤ 0) (h1 : a + b + c ≤ 0) (hs0 : 0 ≤ s) (hs1 : s ≤ 1) (hs : 0 < a * s ^ 2 + b * s + c) :
    0 ≤ b * b - 4 * a * c ∧ a ≠ 0 ∧ 0 ≤ (-b + √(b * b - 4 * a * c)) / (2 * a) ∧ (-b + √(b * b - 4 * a * c)) / (2 * a) ≤ 1 := by
  have ha : a < 0 := by
    by_contra hc
    push Not at hc
    have h2 : a * s ^ 2 ≤ a * s := by
      have : s ^ 2 ≤ s := by nlinarith
      exact mul_le_mul_of_nonneg_left this hc
    nlinarith
  have hb : 0 < b := by
    by_contra hc
    push Not at hc
    have : a * s ^ 2 ≤ 0 := by nlinarith [sq_nonneg s]
    nlinarith
  have hdet : (2 * a * s + b) ^ 2 ≤ b * b - 4 * a * c := by nlinarith
  have hd0 : 0 ≤ b * b - 4 * a * c := le_trans (sq_nonneg _) hdet
  have hsq : √(b * b - 4 * a * c) ≤ b := by
    rw [Real.sqrt_le_left hb.le]
    nlinarith
  have hsq' : 2 * a * s + b ≤ √(b * b - 4 * a * c) := Real.le_sqrt_of_sq_le hdet
  refine ⟨hd0, ha.ne, ?_, ?_⟩
  · apply div_nonneg_of_nonpos <;> linarith
  · rw [div_le_one_of_neg (by linarith)]
    nlinarith

/-- The place on an edge of a combination of its ends, in the measure of the code, and the quadratic there. -/
theorem edge_value {α β c g1 g2 d : ℝ} (ha : 0 ≤ α) (hb : 0 ≤ β) (hc : 0 ≤ c) (hn : α ^ 2 + β ^ 2 + 2 * α * β * c = 1) :
    0 ≤ β * (1 + c) / (1 + α + β * c) ∧ β * (1 + c) / (1 + α + β * c) ≤ 1 ∧
      -((1 - c) / (1 + c)) * (g1 + d) * (β * (1 + c) / (1 + α + β * c)) ^ 2 +
        (g1 * ((1 - c) / (1 + c) - 1) + g2 * ((1 - c) / (1 + c) + 1)) * (β * (1 + c) / (1 + α + β * c)) + (g1 - d) =
      2 * (α * g1 + β * g2 - d) / (1 + α + β * c) := by
  have hc1 : 0 < 1 + c := by linarith
  have hD : 0 < 1 + α + β * c := by positivity
  refine ⟨by positivity, ?_, ?_⟩
  · rw [div_le_one hD]
    have : (β - α) ^ 2 ≤ 1 := by nlinarith [mul_nonneg ha hb, mul_nonneg (mul_nonneg ha hb) hc]
    nlinarith
  · have e1 : -((1 - c) / (1 + c)) * (g1 + d) * (β * (1 + c) / (1 + α + β * c)) ^ 2 = -(g1 + d) * ((1 - c ^ 2) * β ^ 2) / (1 + α + β * c) ^ 2 := by
      field_simp; ring
    have e2 : (g1 * ((1 - c) / (1 + c) - 1) + g2 * ((1 - c) / (1 + c) + 1)) * (β * (1 + c) / (1 + α + β * c)) = 2 * β * (g2 - c * g1) / (1 + α + β * c) := by
      field_simp; ring
    have e3 : (1 - c ^ 2) * β ^ 2 = (1 + α + β * c) * (2 - (1 + α + β * c)) := by linear_combination hn
    rw [e1, e2, e3]
    generalize hDD : 1 + α + β * c = D at *
    have hα : α = D - 1 - β * c := by linarith
    field_simp
    rw [hα]
    ring

/-- An edge with a point in the half space and with both ends outside is crossed, for the code. -/
theorem meets_of_point {h : Half} {p1 p2 : Vec} (u1 : IsUnit3 p1) (u2 : IsUnit3 p2) (hc : 0 ≤ dot p1 p2) (h1 : ¬ h.containsUnit p1) (h2 : ¬ h.containsUnit p2)
    {α β : ℝ} (ha : 0 ≤ α) (hb : 0 ≤ β) (hpos : 0 < dot (add (smul α p1) (smul β p2)) (add (smul α p1) (smul β p2)))
    (hin : h.d * √(dot (add (smul α p1) (smul β p2)) (add (smul α p1) (smul β p2))) < dot (add (smul α p1) (smul β p2)) h.v) : h.meetsEdge p1 p2 := by
  unfold Half.containsUnit at h1 h2
  push Not at h1 h2
  have hN : dot (add (smul α p1) (smul β p2)) (add (smul α p1) (smul β p2)) = α ^ 2 + β ^ 2 + 2 * α * β * dot p1 p2 := by
    simp only [dot_add, add_dot, dot_smul, smul_dot, unit3_dot u1, unit3_dot u2, dot_comm3 p2 p1]
    ring
  have hv : dot (add (smul α p1) (smul β p2)) h.v = α * dot h.v p1 + β * dot h.v p2 := by
    simp only [add_dot, smul_dot, dot_comm3 p1 h.v, dot_comm3 p2 h.v]
  rw [hN] at hpos hin
  rw [hv] at hin
  rw [dot_comm3] at h1 h2
  unfold Half.meetsEdge
  simp only
  generalize dot h.v p1 = g1 at *
  generalize dot h.v p2 = g2 at *
  generalize dot p1 p2 = c at *
  have hs := Real.sqrt_pos.2 hpos
  have hss := Real.sq_sqrt hpos.le
  generalize √(α ^ 2 + β ^ 2 + 2 * α * β * c) = N at *
  obtain ⟨e1, e2, e3⟩ := edge_value (α := α / N) (β := β / N) (c := c) (g1 := g1) (g2 := g2) (d := h.d) (by positivity) (by positivity) hc (by
    field_simp
    linarith)
  have hD : 0 < 1 + α / N + β / N * c := by positivity
  have hpv : 0 < 2 * (α / N * g1 + β / N * g2 - h.d) / (1 + α / N + β / N * c) := by
    apply div_pos _ hD
    have : α / N * g1 + β / N * g2 - h.d = (α * g1 + β * g2 - h.d * N) / N := by field_simp
    rw [this]
    have := div_pos (show 0 < α * g1 + β * g2 - h.d * N by linarith) hs
    linarith
  rw [← e3] at hpv
  have hc1 : 0 < 1 + c := by linarith
  obtain ⟨r1, r2, r3, r4⟩ := root_between (a := -((1 - c) / (1 + c)) * (g1 + h.d)) (b := g1 * ((1 - c) / (1 + c) - 1) + g2 * ((1 - c) / (1 + c) + 1)) (c := g1 - h.d)
    (by linarith) (by
      have : -((1 - c) / (1 + c)) * (g1 + h.d) + (g1 * ((1 - c) / (1 + c) - 1) + g2 * ((1 - c) / (1 + c) + 1)) + (g1 - h.d) = (g2 - h.d) * (2 / (1 + c)) := by
        field_simp; ring
      rw [this]
      exact mul_nonpos_of_nonpos_of_nonneg (by linarith) (by positivity)) e1 e2 hpv
  exact ⟨r1, r2, .inl ⟨r3, r4⟩⟩

/-! ### From the centre of the half space to a point of the trixel -/

theorem on_side_A {t : Trixel} (h : 0 < dot (cross t.c0 t.c1) t.c2) {x : Vec} (h0 : sA t x = 0) :
    x = add (smul (sB t x / dot (cross t.c0 t.c1) t.c2) t.c1) (smul (sC t x / dot (cross t.c0 t.c1) t.c2) t.c2) := by
  have e := cramer t x
  rw [h0] at e
  generalize dot (cross t.c0 t.c1) t.c2 = D at *
  have ex := congrArg Vec.x e
  have ey := congrArg Vec.y e
  have ez := congrArg Vec.z e
  simp only [smul, add] at ex ey ez
  apply vec_ext <;> simp only [smul, add] <;> field_simp <;> linarith

theorem on_side_B {t : Trixel} (h : 0 < dot (cross t.c0 t.c1) t.c2) {x : Vec} (h0 : sB t x = 0) :
    x = add (smul (sC t x / dot (cross t.c0 t.c1) t.c2) t.c2) (smul (sA t x / dot (cross t.c0 t.c1) t.c2) t.c0) := by
  have e := cramer t x
  rw [h0] at e
  generalize dot (cross t.c0 t.c1) t.c2 = D at *
  have ex := congrArg Vec.x e
  have ey := congrArg Vec.y e
  have ez := congrArg Vec.z e
  simp only [smul, add] at ex ey ez
  apply vec_ext <;> simp only [smul, add] <;> field_simp <;> linarith

theorem on_side_C {t : Trixel} (h : 0 < dot (cross t.c0 t.c1) t.c2) {x : Vec} (h0 : sC t x = 0) :
    x = add (smul (sA t x / dot (cross t.c0 t.c1) t.c2) t.c0) (smul (sB t x / dot (cross t.c0 t.c1) t.c2) t.c1) := by
  have e := cramer t x
  rw [h0] at e
  generalize dot (cross t.c0 t.c1) t.c2 = D at *
  have ex := congrArg Vec.x e
  have ey := congrArg Vec.y e
  have ez := congrArg Vec.z e
  simp only [smul, add] at ex ey ez
  apply vec_ext <;> simp only [smul, add] <;> field_simp <;> linarith

/-- Three numbers that change along a line, from one that is negative to none: at some place the last of them is zero. -/
theorem line_enters {A0 B0 C0 A1 B1 C1 : ℝ} (h0 : ¬ (0 ≤ A0 ∧ 0 ≤ B0 ∧ 0 ≤ C0)) (hA : 0 ≤ A1) (hB : 0 ≤ B1) (hC : 0 ≤ C1) :
    ∃ s, 0 ≤ s ∧ s ≤ 1 ∧ 0 ≤ (1 - s) * A0 + s * A1 ∧ 0 ≤ (1 - s) * B0 + s * B1 ∧ 0 ≤ (1 - s) * C0 + s * C1 ∧
      ((1 - s) * A0 + s * A1 = 0 ∨ (1 - s) * B0 + s * B1 = 0 ∨ (1 - s) * C0 + s * C1 = 0) := by
  -- the place where one of them reaches zero
  have reach : ∀ {x y : ℝ}, 0 ≤ y → ∃ s, 0 ≤ s ∧ s ≤ 1 ∧ (x < 0 → (1 - s) * x + s * y = 0) ∧ (0 ≤ x → s = 0) := by
    intro x y hy
    by_cases hx : x < 0
    · refine ⟨-x / (y - x), by apply div_nonneg <;> linarith, ?_, fun _ => ?_, fun h => absurd hx (not_lt.2 h)⟩
      · rw [div_le_one (by linarith)]; linarith
      · have : y - x ≠ 0 := by linarith
        field_simp
        ring
    · exact ⟨0, le_rfl, zero_le_one, fun h => absurd h hx, fun _ => rfl⟩
  -- after that place it is not negative
  have after : ∀ {x y s s' : ℝ}, 0 ≤ y → (x < 0 → (1 - s) * x + s * y = 0) → s ≤ s' → s' ≤ 1 → 0 ≤ s' → 0 ≤ (1 - s') * x + s' * y := by
    intro x y s s' hy hr hle h1 h0
    by_cases hx : x < 0
    · have := hr hx
      nlinarith
    · push Not at hx
      have := mul_nonneg (sub_nonneg.2 h1) hx
      have := mul_nonneg h0 hy
      linarith
  obtain ⟨a, a0, a1, ra, za⟩ := reach (x := A0) hA
  obtain ⟨b, b0, b1, rb, zb⟩ := reach (x := B0) hB
  obtain ⟨c, c0, c1, rc, zc⟩ := reach (x := C0) hC
  have pick : ∀ s, a ≤ s → b ≤ s → c ≤ s → 0 ≤ s → s ≤ 1 →
      ((1 - s) * A0 + s * A1 = 0 ∨ (1 - s) * B0 + s * B1 = 0 ∨ (1 - s) * C0 + s * C1 = 0) →
      ∃ s, 0 ≤ s ∧ s ≤ 1 ∧ 0 ≤ (1 - s) * A0 + s * A1 ∧ 0 ≤ (1 - s) * B0 + s * B1 ∧ 0 ≤ (1 - s) * C0 + s * C1 ∧
      ((1 - s) * A0 + s * A1 = 0 ∨ (1 - s) * B0 + s * B1 = 0 ∨ (1 - s) * C0 + s * C1 = 0) := by
    intro s h1 h2 h3 h4 h5 h6
    exact ⟨s, h4, h5, after hA ra h1 h5 h4, after hB rb h2 h5 h4, after hC rc h3 h5 h4, h6⟩
  -- some of them are negative; take the last place
  by_cases hAn : A0 < 0
  · by_cases hab : b ≤ a
    · by_cases hac : c ≤ a
      · exact pick a le_rfl hab hac a0 a1 (.inl (ra hAn))
      · push Not at hac
        have hCn : C0 < 0 := by by_contra hx; push Not at hx; have := zc hx; linarith
        exact pick c hac.le (by linarith) le_rfl c0 c1 (.inr (.inr (rc hCn)))
    · push Not at hab
      have hBn : B0 < 0 := by by_contra hx; push Not at hx; have := zb hx; linarith
      by_cases hbc : c ≤ b
      · exact pick b hab.le le_rfl hbc b0 b1 (.inr (.inl (rb hBn)))
      · push Not at hbc
        have hCn : C0 < 0 := by by_contra hx; push Not at hx; have := zc hx; linarith
        exact pick c (by linarith) hbc.le le_rfl c0 c1 (.inr (.inr (rc hCn)))
  · push Not at hAn
    have ea := za hAn
    by_cases hBn : B0 < 0
    · by_cases hbc : c ≤ b
      · exact pick b (by linarith) le_rfl hbc b0 b1 (.inr (.inl (rb hBn)))
      · push Not at hbc
        have hCn : C0 < 0 := by by_contra hx; push Not at hx; have := zc hx; linarith
        exact pick c (by linarith) hbc.le le_rfl c0 c1 (.inr (.inr (rc hCn)))
    · push Not at hBn
      have eb := zb hBn
      have hCn : C0 < 0 := by by_contra hx; push Not at hx; exact h0 ⟨hAn, hBn, hx⟩
      exact pick c (by linarith) (by linarith) le_rfl c0 c1 (.inr (.inr (rc hCn)))

/-- When the half space has a point of the trixel, but no corner, and its centre is outside the trixel, an edge is crossed. -/
theorem edge_crossed {h : Half} (hv : IsUnit3 h.v) {t : Trixel} (ht : RightTrixel t) {p : Vec} (hp : PointOf t p) (hin : h.containsUnit p)
    (n0 : ¬ h.containsUnit t.c0) (n1 : ¬ h.containsUnit t.c1) (n2 : ¬ h.containsUnit t.c2) (hc : ¬ t.contains h.v) (hd : 0 ≤ h.d) :
    h.meetsEdge t.c0 t.c1 ∨ h.meetsEdge t.c1 t.c2 ∨ h.meetsEdge t.c2 t.c0 := by
  have det := ht.det
  obtain ⟨hpu, hpc⟩ := hp
  rw [cone_iff det, contains_sides] at hpc
  rw [contains_sides] at hc
  obtain ⟨s, s0, s1, eA, eB, eC, ez⟩ := line_enters hc hpc.1 hpc.2.1 hpc.2.2
  obtain ⟨x, hx⟩ : ∃ x : Vec, x = add (smul (1 - s) h.v) (smul s p) := ⟨_, rfl⟩
  have lin : ∀ u : Vec, dot u x = (1 - s) * dot u h.v + s * dot u p := by intro u; rw [hx, dot_add, dot_smul, dot_smul]
  have xA : sA t x = (1 - s) * sA t h.v + s * sA t p := lin _
  have xB : sB t x = (1 - s) * sB t h.v + s * sB t p := lin _
  have xC : sC t x = (1 - s) * sC t h.v + s * sC t p := lin _
  rw [← xA] at eA ez
  rw [← xB] at eB ez
  rw [← xC] at eC ez
  unfold Half.containsUnit at hin
  have hpv : dot p h.v ≤ 1 := dot_le_one hpu hv
  have hxx : dot x x = (1 - s) ^ 2 + s ^ 2 + 2 * s * (1 - s) * dot p h.v := by
    rw [hx]
    simp only [dot_add, add_dot, dot_smul, smul_dot, unit3_dot hv, unit3_dot hpu, dot_comm3 h.v p]
    ring
  have hxv : dot x h.v = (1 - s) + s * dot p h.v := by
    rw [hx, add_dot, smul_dot, smul_dot, unit3_dot hv]
    ring
  have hd1 : h.d < 1 := lt_of_lt_of_le hin hpv
  have hlt : h.d < dot x h.v := by
    rw [hxv]
    rcases eq_or_lt_of_le s0 with e | e
    · rw [← e]; linarith
    · nlinarith
  have hle : dot x x ≤ 1 := by
    rw [hxx]
    have := mul_nonneg s0 (sub_nonneg.2 s1)
    nlinarith
  have hpos : 0 < dot x x := by
    by_contra hn
    have hq : x.x ^ 2 + x.y ^ 2 + x.z ^ 2 ≤ 0 := by unfold dot at hn; nlinarith
    have hx0 : x.x = 0 := by nlinarith [sq_nonneg x.x, sq_nonneg x.y, sq_nonneg x.z]
    have hy0 : x.y = 0 := by nlinarith [sq_nonneg x.x, sq_nonneg x.y, sq_nonneg x.z]
    have hz0 : x.z = 0 := by nlinarith [sq_nonneg x.x, sq_nonneg x.y, sq_nonneg x.z]
    unfold dot at hlt
    rw [hx0, hy0, hz0] at hlt
    linarith
  have hcap : h.d * √(dot x x) < dot x h.v := by
    have : √(dot x x) ≤ 1 := Real.sqrt_le_iff.2 ⟨zero_le_one, by simpa using hle⟩
    nlinarith
  rcases ez with e | e | e
  · have := on_side_A det e
    rw [this] at hpos hcap
    exact .inr (.inl (meets_of_point ht.u1 ht.u2 ht.p0 n1 n2 (div_nonneg eB det.le) (div_nonneg eC det.le) hpos hcap))
  · have := on_side_B det e
    rw [this] at hpos hcap
    exact .inr (.inr (meets_of_point ht.u2 ht.u0 ht.q0 n2 n0 (div_nonneg eC det.le) (div_nonneg eA det.le) hpos hcap))
  · have := on_side_C det e
    rw [this] at hpos hcap
    exact .inl (meets_of_point ht.u0 ht.u1 ht.r0 n0 n1 (div_nonneg eA det.le) (div_nonneg eB det.le) hpos hcap)

/-- The numbers of a point of a trixel add up to at least one. -/
theorem point_weights {t : Trixel} (ht : GoodTrixel t) {p : Vec} (hp : PointOf t p) : ∃ a b c : ℝ, 0 ≤ a ∧ 0 ≤ b ∧ 0 ≤ c ∧ 1 ≤ a + b + c ∧
    ∀ v, dot p v = a * dot t.c0 v + b * dot t.c1 v + c * dot t.c2 v := by
  obtain ⟨hu, a, b, c, ha, hb, hc, e⟩ := hp
  have hlin : ∀ v, dot p v = a * dot t.c0 v + b * dot t.c1 v + c * dot t.c2 v := by
    intro v; rw [e]; simp only [add_dot, smul_dot]
  refine ⟨a, b, c, ha, hb, hc, ?_, hlin⟩
  have h1 := hlin p
  rw [unit3_dot hu] at h1
  have x0 := dot_le_one ht.u0 hu
  have x1 := dot_le_one ht.u1 hu
  have x2 := dot_le_one ht.u2 hu
  nlinarith

/-- A half space of more than a half of the sphere that has no corner has no point of the trixel. -/
theorem no_corner_neg {h : Half} {t : Trixel} (ht : GoodTrixel t) {p : Vec} (hp : PointOf t p) (n0 : ¬ h.containsUnit t.c0) (n1 : ¬ h.containsUnit t.c1)
    (n2 : ¬ h.containsUnit t.c2) (hd : h.d < 0) : ¬ h.containsUnit p := by
  obtain ⟨a, b, c, ha, hb, hc, hs, hl⟩ := point_weights ht hp
  unfold Half.containsUnit at *
  push Not at *
  rw [hl]
  nlinarith

/-- C136 in part. For half spaces of at most a half of the sphere, a trixel found to be inside is inside. -/
theorem C136_full_partial (h : Half) (t : Trixel) (i : ℕ) (ht : trixelFrom i = some t) (hd : 0 ≤ h.d) (hf : h.part t = .full) :
    ∀ p, PointOf t p → h.containsUnit p := by
  intro p hp
  obtain ⟨a, b, c, ha, hb, hc, hs, hl⟩ := point_weights (trixel_good' ht) hp
  have hall : h.containsUnit t.c0 ∧ h.containsUnit t.c1 ∧ h.containsUnit t.c2 := by
    unfold Half.part at hf
    split_ifs at hf with h1
    exact h1
  unfold Half.containsUnit at *
  obtain ⟨h0, h1, h2⟩ := hall
  rw [hl]
  by_cases hz : 0 < a
  · nlinarith
  · have : a = 0 := by linarith
    subst this
    by_cases hz : 0 < b
    · nlinarith
    · have : b = 0 := by linarith
      subst this
      nlinarith

/-- The test by circles does not lose a trixel with sides of at most 60 degrees. -/
theorem circle_enough {h : Half} (hv : IsUnit3 h.v) {t : Trixel} (ht : SmallTrixel t) {p : Vec} (hp : PointOf t p) (hin : h.containsUnit p) : h.meetsBounding t := by
  obtain ⟨hu, hpos, h0, h1, h2, -⟩ := centre_spec ht.toGoodTrixel
  obtain ⟨a, b, c, ha, hb, hc, hs, hl⟩ := point_weights ht.toGoodTrixel hp
  obtain ⟨hdd, hd1⟩ := dd_bound ht
  have hpc : t.dd ≤ dot p t.centre := by
    rw [hl, h0, h1, h2]
    nlinarith
  have hr : arccos (dot p t.centre) ≤ t.dd := le_trans (Real.antitone_arccos hpc) (radius_enough hpos hdd hd1)
  have hphi : arccos (dot p h.v) ≤ h.phi := by
    unfold Half.containsUnit at hin
    unfold Half.phi
    have hle := dot_le_one hp.1 hv
    split_ifs with c1 c2
    · exact Real.antitone_arccos hin.le
    · exact Real.arccos_le_pi _
    · exfalso
      rw [abs_lt] at c1
      apply c1
      constructor <;> linarith
  unfold Half.meetsBounding Half.meetsCircle
  have := arccos_triangle hu hp.1 hv
  rw [dot_comm3 t.centre p] at this
  push Not
  linarith

theorem part_outside {h : Half} {t : Trixel} (hf : h.part t = .outside) : ¬ h.containsUnit t.c0 ∧ ¬ h.containsUnit t.c1 ∧ ¬ h.containsUnit t.c2 ∧
    ¬ t.contains h.v ∧ (¬ h.meetsBounding t ∨ ¬ (h.meetsEdge t.c0 t.c1 ∨ h.meetsEdge t.c1 t.c2 ∨ h.meetsEdge t.c2 t.c0)) := by
  unfold Half.part at hf
  split_ifs at hf with h1 h2 h3 h4 h5 <;> tauto

/-- C136 in part. A trixel of level 2 or more found to be outside a half space is outside. -/
theorem C136_outside_partial (h : Half) (hv : IsUnit3 h.v) (t : Trixel) (i L : ℕ) (hi : levelFrom i = some L) (hL : 2 ≤ L) (ht : trixelFrom i = some t)
    (hf : h.part t = .outside) : ∀ p, PointOf t p → ¬ h.containsUnit p := by
  intro p hp hin
  obtain ⟨n0, n1, n2, hc, ho⟩ := part_outside hf
  obtain ⟨hr, hs⟩ := trixel_right L i t hi ht
  rcases lt_or_ge h.d 0 with hd | hd
  · exact no_corner_neg hr.toGoodTrixel hp n0 n1 n2 hd hin
  · rcases ho with ho | ho
    · exact ho (circle_enough hv (hs hL) hp hin)
    · exact ho (edge_crossed hv hr hp hin n0 n1 n2 hc hd)

/-- A crossed edge has a point on the circle. -/
theorem point_of_meets {h : Half} {p1 p2 : Vec} (u1 : IsUnit3 p1) (u2 : IsUnit3 p2) (hc : 0 ≤ dot p1 p2) (hm : h.meetsEdge p1 p2) :
    ∃ α β : ℝ, 0 ≤ α ∧ 0 ≤ β ∧ IsUnit3 (add (smul α p1) (smul β p2)) ∧ dot (add (smul α p1) (smul β p2)) h.v = h.d := by
  obtain ⟨hdet, ha, hr⟩ := hm
  have hle := dot_le_one u1 u2
  have hroot : ∃ s, 0 ≤ s ∧ s ≤ 1 ∧ (-((1 - dot p1 p2) / (1 + dot p1 p2)) * (dot h.v p1 + h.d)) * s ^ 2 +
      (dot h.v p1 * ((1 - dot p1 p2) / (1 + dot p1 p2) - 1) + dot h.v p2 * ((1 - dot p1 p2) / (1 + dot p1 p2) + 1)) * s + (dot h.v p1 - h.d) = 0 := by
    have quad : ∀ a b c s : ℝ, 0 ≤ b * b - 4 * a * c → a ≠ 0 → (s = (-b + √(b * b - 4 * a * c)) / (2 * a) ∨ s = (-b - √(b * b - 4 * a * c)) / (2 * a)) →
        a * s ^ 2 + b * s + c = 0 := by
      intro a b c s hd ha hs
      have hsq := Real.sq_sqrt hd
      generalize √(b * b - 4 * a * c) = w at *
      rcases hs with rfl | rfl
      · field_simp
        linear_combination hsq
      · field_simp
        linear_combination hsq
    rcases hr with ⟨r0, r1⟩ | ⟨r0, r1⟩
    · exact ⟨_, r0, r1, quad _ _ _ _ hdet ha (.inl rfl)⟩
    · exact ⟨_, r0, r1, quad _ _ _ _ hdet ha (.inr rfl)⟩
  obtain ⟨s, s0, s1, hs⟩ := hroot
  -- the point: `α = (1 - s) (1 + u² s) / (1 + u² s²)`, `β = s (1 + u²) / (1 + u² s²)`
  obtain ⟨c, hcc⟩ : ∃ c, c = dot p1 p2 := ⟨_, rfl⟩
  obtain ⟨w, hw⟩ : ∃ w, w = (1 - c) / (1 + c) := ⟨_, rfl⟩
  rw [← hcc] at hs hc hle
  rw [← hw] at hs
  have hw0 : 0 ≤ w := by rw [hw]; apply div_nonneg <;> linarith
  have hcw : c * (1 + w) = 1 - w := by rw [hw]; field_simp; ring
  have hD : 0 < 1 + w * s ^ 2 := by positivity
  refine ⟨(1 - s) * (1 + w * s) / (1 + w * s ^ 2), s * (1 + w) / (1 + w * s ^ 2), ?_, ?_, ?_, ?_⟩
  · apply div_nonneg _ hD.le
    exact mul_nonneg (by linarith) (by positivity)
  · positivity
  · have hN : ∀ α β : ℝ, α ^ 2 + β ^ 2 + 2 * α * β * c = 1 → IsUnit3 (add (smul α p1) (smul β p2)) := by
      intro α β h1
      have : dot (add (smul α p1) (smul β p2)) (add (smul α p1) (smul β p2)) = 1 := by
        simp only [dot_add, add_dot, dot_smul, smul_dot, unit3_dot u1, unit3_dot u2, dot_comm3 p2 p1, ← hcc]
        linear_combination h1
      unfold IsUnit3
      unfold dot at this
      linear_combination this
    apply hN
    have hnum : ((1 - s) * (1 + w * s)) ^ 2 + (s * (1 + w)) ^ 2 + 2 * ((1 - s) * (1 + w * s)) * (s * (1 + w)) * c = (1 + w * s ^ 2) ^ 2 := by
      linear_combination 2 * ((1 - s) * (1 + w * s)) * s * hcw
    rw [div_pow, div_pow]
    field_simp
    linear_combination hnum
  · rw [add_dot, smul_dot, smul_dot, dot_comm3 p1 h.v, dot_comm3 p2 h.v]
    field_simp
    linear_combination hs

/-- C136. A trixel found to be partly inside has a corner outside; and when the half space is not empty, the half space with its
boundary has a point of the trixel. -/
theorem C136_some (h : Half) (hv : IsUnit3 h.v) (t : Trixel) (i : ℕ) (ht : trixelFrom i = some t) (hf : h.part t = .some) :
    (∃ p, PointOf t p ∧ ¬ h.containsUnit p) ∧ (h.d ≤ 1 → ∃ p, PointOf t p ∧ h.d ≤ dot p h.v) := by
  obtain ⟨L, hL⟩ := Option.isSome_iff_exists.1 (level_of_trixel ht)
  have hg := (trixel_right L i t hL ht).1
  have k0 : PointOf t t.c0 := ⟨hg.u0, 1, 0, 0, by norm_num, by norm_num, by norm_num, by apply vec_ext <;> simp [add, smul]⟩
  have k1 : PointOf t t.c1 := ⟨hg.u1, 0, 1, 0, by norm_num, by norm_num, by norm_num, by apply vec_ext <;> simp [add, smul]⟩
  have k2 : PointOf t t.c2 := ⟨hg.u2, 0, 0, 1, by norm_num, by norm_num, by norm_num, by apply vec_ext <;> simp [add, smul]⟩
  unfold Half.part at hf
  split_ifs at hf with h1 h2 h3 h4 h5
  · refine ⟨?_, fun _ => ?_⟩
    · by_contra hn
      push Not at hn
      exact h1 ⟨hn _ k0, hn _ k1, hn _ k2⟩
    · rcases h2 with h2 | h2 | h2
      · exact ⟨_, k0, le_of_lt h2⟩
      · exact ⟨_, k1, le_of_lt h2⟩
      · exact ⟨_, k2, le_of_lt h2⟩
  · refine ⟨⟨_, k0, fun hn => h2 (.inl hn)⟩, fun hd => ⟨h.v, ⟨hv, (cone_iff hg.det _).2 h3⟩, ?_⟩⟩
    rw [unit3_dot hv]
    exact hd
  · refine ⟨⟨_, k0, fun hn => h2 (.inl hn)⟩, fun hd => ?_⟩
    rcases h5 with h5 | h5 | h5
    · obtain ⟨a, b, ha, hb, hu, he⟩ := point_of_meets hg.u0 hg.u1 hg.r0 h5
      exact ⟨_, ⟨hu, a, b, 0, ha, hb, le_rfl, by apply vec_ext <;> simp [add, smul]⟩, he.ge⟩
    · obtain ⟨a, b, ha, hb, hu, he⟩ := point_of_meets hg.u1 hg.u2 hg.p0 h5
      exact ⟨_, ⟨hu, 0, a, b, le_rfl, ha, hb, by apply vec_ext <;> simp [add, smul]⟩, he.ge⟩
    · obtain ⟨a, b, ha, hb, hu, he⟩ := point_of_meets hg.u2 hg.u0 hg.q0 h5
      exact ⟨_, ⟨hu, b, 0, a, hb, le_rfl, ha, by apply vec_ext <;> simp [add, smul] <;> ring⟩, he.ge⟩

end Verif
