import Verif.Model.Jerk
import Verif.Spec.Jerk
import Mathlib.Tactic.Linarith
import Mathlib.Tactic.Ring
import Mathlib.Tactic.FieldSimp
import Mathlib.Tactic.Positivity
import Mathlib.Tactic.LinearCombination

namespace Verif.Jerk

/-- The constraints on the three times, with distance, speed and acceleration divided by the jerk. -/
structure Feas (A V D x y z : ℝ) : Prop where
  x0 : 0 ≤ x
  xy : x ≤ y
  xyz : x + y ≤ z
  xA : x ≤ A
  xyV : x * y ≤ V
  D : x * y * z = D

theorem within_cons {vmax amax jmax : ℝ} {m : Motion} {p : Plan} {j t : ℝ} (v0 a0 : ℝ) (hv : m.v = v0) (ha : m.a = a0)
    (ht : 0 ≤ t) (hj : |j| ≤ jmax)
    (hs : ∀ s, 0 ≤ s → s ≤ t → 0 ≤ v0 + a0 * s + j * s ^ 2 / 2 ∧ v0 + a0 * s + j * s ^ 2 / 2 ≤ vmax ∧ |a0 + j * s| ≤ amax)
    (hp : ∀ m' : Motion, m'.v = v0 + a0 * t + j * t ^ 2 / 2 → m'.a = a0 + j * t → Plan.Within vmax amax jmax m' p) :
    Plan.Within vmax amax jmax m ((j, t) :: p) := by
  subst hv ha
  exact ⟨ht, hj, hs, hp _ rfl rfl⟩

/-- A symmetric profile reaches `d` within the limits iff its times meet the constraints. -/
theorem reaches_iff {d v a j x y z : ℝ} (hj : 0 < j) :
    Reaches d v a j x y z ↔ Feas (a / j) (v / j) (d / j) x y z := by
  constructor
  · rintro ⟨hw, hf⟩
    simp only [profile, Plan.Within, Plan.finish, Motion.drift, Motion.mk.injEq] at hw hf
    obtain ⟨h1, -, h2, h3, -, -, h4, -, h5, h6, -, -⟩ := hw
    have a1 := (h2 x h1 le_rfl).2.2
    have a2 := (h5 x h4 le_rfl).2.1
    have hx : x ≤ a / j := by
      rw [le_div_iff₀ hj]
      have := le_abs_self (0 + j * x)
      nlinarith
    have hy : x * y ≤ v / j := by
      rw [le_div_iff₀ hj]; nlinarith
    refine ⟨h1, by linarith, by linarith, hx, hy, ?_⟩
    have := hf.1
    rw [eq_div_iff hj.ne', ← this]; ring
  · rintro ⟨h1, h2, h3, h4, h5, h6⟩
    have hy : 0 ≤ y := h1.trans h2
    rw [le_div_iff₀ hj] at h4 h5
    rw [eq_div_iff hj.ne'] at h6
    have hxy : 0 ≤ x * y := mul_nonneg h1 hy
    have hjx : 0 ≤ j * x := mul_nonneg hj.le h1
    have hjxy : j * x * x ≤ j * x * y := mul_le_mul_of_nonneg_left h2 hjx
    have jj : |j| ≤ j := (abs_of_pos hj).le
    have jn : |(-j)| ≤ j := by rw [abs_neg]; exact jj
    have j0 : |(0 : ℝ)| ≤ j := by simpa using hj.le
    refine ⟨?_, ?_⟩
    · unfold profile
      have q1 : ∀ s, 0 ≤ s → s ≤ x → 0 ≤ j * s ∧ j * s ≤ j * x ∧ 0 ≤ j * s ^ 2 ∧ j * s ^ 2 ≤ j * x * s ∧
          j * x * s ≤ j * x * x := by
        intro s s0 s1
        have e2 : j * s ≤ j * x := mul_le_mul_of_nonneg_left s1 hj.le
        refine ⟨mul_nonneg hj.le s0, e2, by positivity, ?_, mul_le_mul_of_nonneg_left s1 hjx⟩
        calc j * s ^ 2 = j * s * s := by ring
          _ ≤ j * x * s := mul_le_mul_of_nonneg_right e2 s0
      have q2 : ∀ s, 0 ≤ s → s ≤ y - x → 0 ≤ j * x * s ∧ j * x * s ≤ j * x * y - j * x * x := by
        intro s s0 s1
        refine ⟨mul_nonneg hjx s0, ?_⟩
        calc j * x * s ≤ j * x * (y - x) := mul_le_mul_of_nonneg_left s1 hjx
          _ = _ := by ring
      have hxx : 0 ≤ j * x * x := mul_nonneg hjx h1
      have hA : j * x ≤ a := by linarith
      have hV : j * x * y ≤ v := by linarith
      refine within_cons 0 0 rfl rfl h1 jj ?_ ?_
      · intro s s0 s1
        obtain ⟨e1, e2, e3, e4, e5⟩ := q1 s s0 s1
        refine ⟨by linarith, by linarith, ?_⟩
        rw [abs_le]; constructor <;> linarith
      intro m hv ha
      refine within_cons (j * x * x / 2) (j * x) (by rw [hv]; ring) (by rw [ha]; ring) (by linarith) j0 ?_ ?_
      · intro s s0 s1
        obtain ⟨e1, e2⟩ := q2 s s0 s1
        refine ⟨by linarith, by linarith, ?_⟩
        rw [abs_le]; constructor <;> linarith
      intro m hv ha
      refine within_cons (j * x * y - j * x * x / 2) (j * x) (by rw [hv]; ring) (by rw [ha]; ring) h1 jn ?_ ?_
      · intro s s0 s1
        obtain ⟨e1, e2, e3, e4, e5⟩ := q1 s s0 s1
        have e7 : 0 ≤ j * (x - s) ^ 2 := by positivity
        have e8 : j * (x - s) ^ 2 = j * x * x - 2 * (j * x * s) + j * s ^ 2 := by ring
        refine ⟨by linarith, by linarith, ?_⟩
        rw [abs_le]; constructor <;> linarith
      intro m hv ha
      refine within_cons (j * x * y) 0 (by rw [hv]; ring) (by rw [ha]; ring) (by linarith) j0 ?_ ?_
      · intro s s0 s1
        refine ⟨by linarith, by linarith, ?_⟩
        rw [abs_le]; constructor <;> linarith
      intro m hv ha
      refine within_cons (j * x * y) 0 (by rw [hv]; ring) (by rw [ha]; ring) h1 jn ?_ ?_
      · intro s s0 s1
        obtain ⟨e1, e2, e3, e4, e5⟩ := q1 s s0 s1
        refine ⟨by linarith, by linarith, ?_⟩
        rw [abs_le]; constructor <;> linarith
      intro m hv ha
      refine within_cons (j * x * y - j * x * x / 2) (-(j * x)) (by rw [hv]; ring) (by rw [ha]; ring) (by linarith) j0 ?_ ?_
      · intro s s0 s1
        obtain ⟨e1, e2⟩ := q2 s s0 s1
        refine ⟨by linarith, by linarith, ?_⟩
        rw [abs_le]; constructor <;> linarith
      intro m hv ha
      refine within_cons (j * x * x / 2) (-(j * x)) (by rw [hv]; ring) (by rw [ha]; ring) h1 jj ?_ ?_
      · intro s s0 s1
        obtain ⟨e1, e2, e3, e4, e5⟩ := q1 s s0 s1
        have e7 : 0 ≤ j * (x - s) ^ 2 := by positivity
        have e8 : j * (x - s) ^ 2 = j * x * x - 2 * (j * x * s) + j * s ^ 2 := by ring
        refine ⟨by linarith, by linarith, ?_⟩
        rw [abs_le]; constructor <;> linarith
      intros
      trivial
    · simp only [profile, Plan.finish, Motion.drift, Motion.mk.injEq]
      refine ⟨?_, by ring, by ring⟩
      rw [← h6]; ring

theorem profile_time (j x y z : ℝ) : Plan.time (profile j x y z) = x + y + z := by
  simp only [Plan.time, profile, List.map_cons, List.map_nil, List.sum_cons, List.sum_nil]; ring

/-! ### Lower bounds on the total time -/

section
variable {A V D x y z : ℝ}

theorem Feas.pz (h : Feas A V D x y z) : x * y * z ≤ (x + y) ^ 2 * z / 4 := by
  have hz : 0 ≤ z := by linarith [h.x0, h.xy, h.xyz]
  nlinarith [sq_nonneg (x - y), mul_nonneg (sq_nonneg (x - y)) hz]

theorem Feas.opt1 (h : Feas A V D x y z) {r : ℝ} (hD : 2 * r ^ 3 = D) : 4 * r ≤ x + y + z := by
  have h0 := h.x0
  have h1 := h.xy
  have h2 := h.xyz
  have hp := h.pz
  have hT : 0 ≤ x + y + z := by linarith
  by_contra hc
  rw [not_le] at hc
  have h3 : (x + y + z) ^ 3 < (4 * r) ^ 3 := pow_lt_pow_left₀ hc hT (by norm_num)
  have h4 : 0 ≤ (z - (x + y)) * (z ^ 2 + 4 * (x + y) * z - (x + y) ^ 2) := by
    apply mul_nonneg (by linarith)
    have : (x + y) ^ 2 ≤ z ^ 2 := by apply pow_le_pow_left₀ <;> linarith
    have : 0 ≤ (x + y) * z := mul_nonneg (by linarith) (by linarith)
    linarith
  have h5 := h.D
  nlinarith

theorem two_w {q w D : ℝ} (hw : 0 < w) (hq : w ≤ q) (hD : 2 * q ^ 3 ≤ D) : 2 * q + D / q ^ 2 ≤ 2 * w + D / w ^ 2 := by
  have hq0 : 0 < q := hw.trans_le hq
  have hD0 : 0 ≤ D := le_trans (by positivity) hD
  have key : 0 ≤ (q - w) * (D * (q + w) - 2 * w ^ 2 * q ^ 2) := by
    apply mul_nonneg (by linarith)
    have e1 : 2 * q ^ 3 * q ≤ D * (q + w) := mul_le_mul hD (by linarith) hq0.le hD0
    have e2 : w ^ 2 * q ^ 2 ≤ q ^ 2 * q ^ 2 := mul_le_mul_of_nonneg_right (pow_le_pow_left₀ hw.le hq 2) (by positivity)
    nlinarith
  have : 2 * w + D / w ^ 2 - (2 * q + D / q ^ 2) = (q - w) * (D * (q + w) - 2 * w ^ 2 * q ^ 2) / (w ^ 2 * q ^ 2) := by
    field_simp; ring
  have h2 : 0 ≤ 2 * w + D / w ^ 2 - (2 * q + D / q ^ 2) := by rw [this]; positivity
  linarith

/-- Total time in terms of `w = √(xy)`. -/
theorem Feas.sqrt_bound (h : Feas A V D x y z) (hD : 0 < D) :
    0 < √(x * y) ∧ √(x * y) ^ 2 = x * y ∧ 2 * √(x * y) ≤ x + y ∧ z = D / √(x * y) ^ 2 := by
  have h0 := h.x0
  have h1 := h.xy
  have hp : 0 < x * y := by
    rcases (mul_nonneg h0 (h0.trans h1)).lt_or_eq with h' | h'
    · exact h'
    · exfalso; have := h.D; rw [← h'] at this; simp at this; linarith
  have hw := Real.sq_sqrt hp.le
  have hw0 := Real.sqrt_pos.2 hp
  refine ⟨hw0, hw, ?_, ?_⟩
  · apply le_of_sq_le_sq _ (by linarith)
    nlinarith [sq_nonneg (x - y)]
  · rw [hw, eq_div_iff hp.ne', ← h.D]; ring

theorem Feas.opt2 (h : Feas A V D x y z) {q : ℝ} (hq : 0 < q) (hV : V = q ^ 2) (hD : 2 * q ^ 3 ≤ D) :
    2 * q + D / V ≤ x + y + z := by
  have hD0 : 0 < D := lt_of_lt_of_le (by positivity) hD
  obtain ⟨w0, w2, wS, wz⟩ := h.sqrt_bound hD0
  have hwq : √(x * y) ≤ q := by
    rw [Real.sqrt_le_left hq.le, ← hV]; exact h.xyV
  have := two_w w0 hwq hD
  rw [hV]; linarith

theorem Feas.opt5 (h : Feas A V D x y z) (hA : 0 < A) (hV : A ^ 2 ≤ V) (hD : V * (V / A + A) ≤ D) :
    A + V / A + D / V ≤ x + y + z := by
  have hV0 : 0 < V := lt_of_lt_of_le (by positivity) hV
  have hVA : A ≤ V / A := by rw [le_div_iff₀ hA]; nlinarith
  have hD0 : 0 < D := lt_of_lt_of_le (by positivity) hD
  -- the bound as a function of p
  have mono : ∀ p, 0 < p → p ≤ V → V / A + D / V ≤ p / A + D / p := by
    intro p hp hpV
    have e : p / A + D / p - (V / A + D / V) = (V - p) * (D * A - p * V) / (p * V * A) := by field_simp; ring
    have : 0 ≤ (V - p) * (D * A - p * V) / (p * V * A) := by
      apply div_nonneg _ (by positivity)
      apply mul_nonneg (by linarith)
      have : V * (V / A + A) * A = V * V + V * A * A := by field_simp
      have h2 : V * (V / A + A) * A ≤ D * A := mul_le_mul_of_nonneg_right hD hA.le
      have h3 : p * V ≤ V * V := mul_le_mul_of_nonneg_right hpV hV0.le
      have : 0 ≤ V * A * A := by positivity
      linarith
    linarith
  have h0 := h.x0
  have h1 := h.xy
  obtain ⟨w0, w2, wS, wz⟩ := h.sqrt_bound hD0
  have hp : 0 < x * y := by rw [← w2]; positivity
  by_cases hA2 : A ^ 2 ≤ x * y
  · have hx : 0 < x := lt_of_le_of_ne h0 (by rintro rfl; simp at hp)
    have e : A + x * y / A ≤ x + y := by
      have e2 : x + y - (A + x * y / A) = (A - x) * (y - A) / A := by field_simp; ring
      have e3 : 0 ≤ (A - x) * (y - A) / A := by
        apply div_nonneg _ hA.le
        apply mul_nonneg (by linarith [h.xA])
        by_contra hc
        have : y < A := by linarith
        nlinarith [h.xA]
      linarith
    have := mono _ hp h.xyV
    rw [w2] at wz
    linarith
  · rw [not_le] at hA2
    have hwA : √(x * y) ≤ A := by rw [Real.sqrt_le_left hA.le]; exact hA2.le
    have hDA : 2 * A ^ 3 ≤ D := by
      have e1 : A ^ 2 * (A + A) ≤ V * (V / A + A) := mul_le_mul hV (by linarith) (by linarith) hV0.le
      nlinarith
    have e1 := two_w w0 hwA hDA
    have e2 := mono (A ^ 2) (by positivity) hV
    have e3 : A ^ 2 / A = A := by field_simp
    rw [e3] at e2
    linarith

theorem Feas.opt6 (h : Feas A V D x y z) (hA : 0 < A) (hD : 2 * A ^ 3 ≤ D) {t : ℝ} (ht : 0 ≤ t) (htD : A * t * (t + A) = D) :
    2 * (A + t) ≤ x + y + z := by
  have h0 := h.x0
  have h1 := h.xy
  have h2 := h.xyz
  have hT4 : 4 * A ≤ x + y + z := by
    by_contra hc
    rw [not_le] at hc
    have hp := h.pz
    have h3 : (x + y + z) ^ 3 < (4 * A) ^ 3 := pow_lt_pow_left₀ hc (by linarith) (by norm_num)
    have h4 : 0 ≤ (z - (x + y)) * (z ^ 2 + 4 * (x + y) * z - (x + y) ^ 2) := by
      apply mul_nonneg (by linarith)
      have : (x + y) ^ 2 ≤ z ^ 2 := by apply pow_le_pow_left₀ <;> linarith
      have : 0 ≤ (x + y) * z := mul_nonneg (by linarith) (by linarith)
      linarith
    have h5 := h.D
    nlinarith
  obtain ⟨T, hT⟩ : ∃ T, T = x + y + z := ⟨_, rfl⟩
  obtain ⟨S, hS⟩ : ∃ S, S = x + y := ⟨_, rfl⟩
  have hz : z = T - S := by rw [hT, hS]; ring
  have hST : 2 * S ≤ T := by linarith
  have hT4' : 4 * A ≤ T := by linarith
  have hz0 : 0 ≤ T - S := by rw [← hz]; linarith
  have hDle : D ≤ A * (T / 2 - A) * (T / 2) := by
    have step : ∀ s, 2 * A ≤ s → 2 * s ≤ T → A * (s - A) * (T - s) ≤ A * (T / 2 - A) * (T / 2) := by
      intro s hs hs2
      have e : A * (T / 2 - A) * (T / 2) - A * (s - A) * (T - s) = A * ((T / 2 - s) * (T / 2 - s + A)) := by ring
      have : 0 ≤ A * ((T / 2 - s) * (T / 2 - s + A)) :=
        mul_nonneg hA.le (mul_nonneg (by linarith) (by linarith))
      linarith
    have hDp : D = x * (S - x) * (T - S) := by rw [← h.D, hz, hS]; ring
    by_cases h2A : 2 * A ≤ S
    · refine le_trans ?_ (step S h2A hST)
      rw [hDp]
      apply mul_le_mul_of_nonneg_right _ hz0
      have e : A * (S - A) - x * (S - x) = (A - x) * (S - A - x) := by ring
      have : 0 ≤ (A - x) * (S - A - x) := mul_nonneg (by linarith [h.xA]) (by linarith [h.xA])
      linarith
    · refine le_trans ?_ (step (2 * A) le_rfl (by linarith))
      rw [not_le] at h2A
      have hS0 : 0 ≤ S := by linarith
      have e1 : D ≤ S ^ 2 / 4 * (T - S) := by
        rw [hDp]
        apply mul_le_mul_of_nonneg_right _ hz0
        nlinarith [sq_nonneg (S - 2 * x)]
      have e2 : 0 ≤ (2 * A - S) * (T * (2 * A + S) - (4 * A ^ 2 + 2 * A * S + S ^ 2)) := by
        apply mul_nonneg (by linarith)
        have : 4 * A * (2 * A + S) ≤ T * (2 * A + S) := mul_le_mul_of_nonneg_right hT4' (by linarith)
        nlinarith
      nlinarith
  rw [← hT]
  by_contra hc
  rw [not_le] at hc
  have e1 : T / 2 - A < t := by linarith
  have e2 : 0 ≤ T / 2 - A := by linarith
  have e3 : (T / 2 - A) * (T / 2) < t * (t + A) := by
    apply mul_lt_mul'' e1 (by linarith) e2 (by linarith)
  have : A * ((T / 2 - A) * (T / 2)) < A * (t * (t + A)) := mul_lt_mul_of_pos_left e3 hA
  nlinarith

end

end Verif.Jerk
