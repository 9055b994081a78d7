import Verif.Model.AlmanacSky
import Verif.Lemmas.Sphere
import Mathlib.Analysis.SpecialFunctions.Trigonometric.Bounds

/-! C201: the positions of sun, moon and planets. -/

namespace Verif

open Alm Sph Real

/-- The times of the samples rise. -/
def RisingAt (l : List (ℝ × ℝ)) : Prop := l.Pairwise fun a b => a.1 < b.1

/-- What is asked of an interpolation: it passes through the samples and answers exactly between the first and the last of them. -/
structure Passes (I : Interp) : Prop where
  hits : ∀ l, RisingAt l → 2 ≤ l.length → ∀ p ∈ l, I l p.1 = some p.2
  inside : ∀ l x, RisingAt l → 2 ≤ l.length → ((I l x).isSome ↔ (∃ p ∈ l, p.1 ≤ x) ∧ ∃ p ∈ l, x ≤ p.1)

theorem up_turn {a : ℝ} (h1 : -π < a) (h2 : a ≤ π) : SameTurn (up a) a ∧ 0 ≤ up a ∧ up a < 2 * π := by
  unfold up
  have := Real.pi_pos
  split_ifs with h
  · exact ⟨⟨1, by push_cast; ring⟩, by linarith, by linarith⟩
  · exact ⟨⟨0, by push_cast; ring⟩, by linarith, by linarith⟩

theorem sameTurn_trans {a b c : ℝ} (h1 : SameTurn a b) (h2 : SameTurn b c) : SameTurn a c := by
  obtain ⟨k, rfl⟩ := h1
  obtain ⟨m, rfl⟩ := h2
  exact ⟨m + k, by push_cast; ring⟩

theorem atan2_self (a : ℝ) : SameTurn (atan2 (sin a) (cos a)) a := by
  have h1 := atan2_cos (sin a) (cos a)
  have h2 := atan2_sin (sin a) (cos a)
  rw [Real.cos_sq_add_sin_sq, Real.sqrt_one, one_mul] at h1 h2
  exact sameTurn_of h1 h2

/-- An interpolated angle is between 0 and a full turn. -/
theorem angle_range {R : Type} {I : Interp} {t : List R} {m f : R → ℝ} {x a : ℝ} (h : angle I t m f x = some a) : 0 ≤ a ∧ a < 2 * π := by
  unfold angle at h
  split at h
  · cases h
    obtain ⟨h1, h2⟩ := atan2_range _ _
    exact (up_turn h1 h2).2
  · cases h

theorem angle_at {R : Type} {I : Interp} (hI : Passes I) {t : List R} {m f : R → ℝ} (hr : t.Pairwise fun a b => m a < m b) (hl : 2 ≤ t.length) {r : R}
    (h : r ∈ t) : ∃ a, angle I t m f (m r) = some a ∧ SameTurn a (f r) ∧ 0 ≤ a ∧ a < 2 * π := by
  have hc : ∀ g : R → ℝ, I (column t m g) (m r) = some (g r) := by
    intro g
    refine hI.hits (column t m g) ?_ (by unfold column; simpa using hl) (m r, g r) (List.mem_map.2 ⟨r, h, rfl⟩)
    unfold RisingAt column
    rw [List.pairwise_map]
    exact hr
  obtain ⟨h1, h2⟩ := atan2_range (sin (f r)) (cos (f r))
  obtain ⟨u1, u2⟩ := up_turn h1 h2
  refine ⟨_, by unfold angle; rw [hc, hc], sameTurn_trans u1 (atan2_self (f r)), u2⟩

/-- C201: at a time of the table the answer is that row of the table, with angles from 0 to a full turn. -/
theorem C201_table (I : Interp) (hI : Passes I) (t : List Row) (hr : t.Pairwise fun a b => a.mjd < b.mjd) (hl : 2 ≤ t.length) (r : Row) (h : r ∈ t) :
    ∃ p, sunMoon I t r.mjd = some p ∧ p.sunAlt = r.sunAlt ∧ p.sunDec = r.sunDec ∧ p.moonAlt = r.moonAlt ∧ p.moonDec = r.moonDec ∧ p.moonPhase = r.moonPhase ∧
      SameTurn p.sunAz r.sunAz ∧ SameTurn p.sunRA r.sunRA ∧ SameTurn p.moonAz r.moonAz ∧ SameTurn p.moonRA r.moonRA := by
  have hc : ∀ g : Row → ℝ, I (column t Row.mjd g) r.mjd = some (g r) := by
    intro g
    refine hI.hits (column t Row.mjd g) ?_ (by unfold column; simpa using hl) (r.mjd, g r) (List.mem_map.2 ⟨r, h, rfl⟩)
    unfold RisingAt column
    rw [List.pairwise_map]
    exact hr
  obtain ⟨a1, e1, s1, -⟩ := angle_at (f := Row.sunAz) hI hr hl h
  obtain ⟨a2, e2, s2, -⟩ := angle_at (f := Row.moonAz) hI hr hl h
  obtain ⟨a3, e3, s3, -⟩ := angle_at (f := Row.sunRA) hI hr hl h
  obtain ⟨a4, e4, s4, -⟩ := angle_at (f := Row.moonRA) hI hr hl h
  refine ⟨⟨r.sunAlt, a1, a3, r.sunDec, r.moonAlt, a2, a4, r.moonDec, r.moonPhase⟩, ?_, rfl, rfl, rfl, rfl, rfl, s1, s3, s2, s4⟩
  unfold sunMoon
  rw [hc, hc, hc, hc, hc, e1, e2, e3, e4]
  rfl

/-- C201: an answer is given for exactly the times that the table covers, and its azimuths and right ascensions are from 0 to less than a full turn. -/
theorem C201_range (I : Interp) (hI : Passes I) (t : List Row) (hr : t.Pairwise fun a b => a.mjd < b.mjd) (hl : 2 ≤ t.length) (x : ℝ) :
    ((sunMoon I t x).isSome ↔ (∃ r ∈ t, r.mjd ≤ x) ∧ ∃ r ∈ t, x ≤ r.mjd) ∧
    ∀ p, sunMoon I t x = some p → (0 ≤ p.sunAz ∧ p.sunAz < 2 * π) ∧ (0 ≤ p.sunRA ∧ p.sunRA < 2 * π) ∧ (0 ≤ p.moonAz ∧ p.moonAz < 2 * π) ∧
      (0 ≤ p.moonRA ∧ p.moonRA < 2 * π) := by
  have hs : ∀ g : Row → ℝ, (I (column t Row.mjd g) x).isSome ↔ (∃ r ∈ t, r.mjd ≤ x) ∧ ∃ r ∈ t, x ≤ r.mjd := by
    intro g
    rw [hI.inside (column t Row.mjd g) x ?_ (by unfold column; simpa using hl)]
    · unfold column
      simp
    · unfold RisingAt column
      rw [List.pairwise_map]
      exact hr
  constructor
  · constructor
    · intro h
      apply (hs Row.sunAlt).1
      unfold sunMoon at h
      cases hv : I (column t Row.mjd Row.sunAlt) x with
      | none => rw [hv] at h; cases h
      | some v => rfl
    · intro h
      have hg : ∀ g : Row → ℝ, ∃ v, I (column t Row.mjd g) x = some v := fun g => Option.isSome_iff_exists.1 ((hs g).2 h)
      have ha : ∀ g : Row → ℝ, ∃ v, angle I t Row.mjd g x = some v := by
        intro g
        obtain ⟨v, hv⟩ := hg (fun r => sin (g r))
        obtain ⟨u, hu⟩ := hg (fun r => cos (g r))
        exact ⟨_, by unfold angle; rw [hv, hu]⟩
      obtain ⟨_, b1⟩ := hg Row.sunAlt
      obtain ⟨_, b2⟩ := hg Row.sunDec
      obtain ⟨_, b3⟩ := hg Row.moonAlt
      obtain ⟨_, b4⟩ := hg Row.moonDec
      obtain ⟨_, b5⟩ := hg Row.moonPhase
      obtain ⟨_, b6⟩ := ha Row.sunAz
      obtain ⟨_, b7⟩ := ha Row.moonAz
      obtain ⟨_, b8⟩ := ha Row.sunRA
      obtain ⟨_, b9⟩ := ha Row.moonRA
      unfold sunMoon
      rw [b1, b2, b3, b4, b5, b6, b7, b8, b9]
      rfl
  · intro p hp
    unfold sunMoon at hp
    simp only [Option.bind_eq_bind, Option.bind_eq_some_iff, Option.some.injEq] at hp
    obtain ⟨_, -, _, -, _, -, _, -, _, -, a, ha, b, hb, c, hc, d, hd, rfl⟩ := hp
    exact ⟨angle_range ha, angle_range hc, angle_range hb, angle_range hd⟩

/-- A direction given by a sine and cosine that are off by at most `e` is off by at most `2 * e`. -/
theorem direction_near {a s c e : ℝ} (he : e ≤ 1 / 10) (hs : |s - sin a| ≤ e) (hc : |c - cos a| ≤ e) : ∃ d, |d| ≤ 2 * e ∧ SameTurn (atan2 s c) (a + d) := by
  have he0 : 0 ≤ e := (abs_nonneg _).trans hs
  have hq := Real.cos_sq_add_sin_sq a
  set x := c * cos a + s * sin a with hx
  set y := s * cos a - c * sin a with hy
  have hs' : |sin a| ≤ 1 := Real.abs_sin_le_one a
  have hc' : |cos a| ≤ 1 := Real.abs_cos_le_one a
  set u := s - sin a with hu
  set v := c - cos a with hv
  have hsum : u ^ 2 + v ^ 2 ≤ 2 * e ^ 2 := by
    have h1 := sq_le_sq' (by linarith [neg_abs_le u]) ((le_abs_self u).trans hs)
    have h2 := sq_le_sq' (by linarith [neg_abs_le v]) ((le_abs_self v).trans hc)
    linarith
  have ex : x = 1 + (v * cos a + u * sin a) := by rw [hx, hv, hu]; linear_combination hq
  have ey : y = u * cos a - v * sin a := by rw [hy, hv, hu]; ring
  have b1 : |v * cos a + u * sin a| ≤ 15 / 10 * e := by
    apply abs_le_of_sq_le_sq _ (by positivity)
    nlinarith [sq_nonneg (v * sin a - u * cos a)]
  have b2 : |y| ≤ 1415 / 1000 * e := by
    rw [ey]
    apply abs_le_of_sq_le_sq _ (by positivity)
    nlinarith [sq_nonneg (v * cos a + u * sin a)]
  have hx0 : 85 / 100 ≤ x := by rw [ex]; linarith [(abs_le.1 b1).1]
  have hd1 := atan2_cos y x
  have hd2 := atan2_sin y x
  set R := √(x ^ 2 + y ^ 2) with hR
  have hRpos : 0 < R := Real.sqrt_pos.2 (by nlinarith [sq_nonneg y])
  set d := atan2 y x with hd
  have hcosd : 0 < cos d := by
    by_contra hn
    push Not at hn
    nlinarith
  have hdr := atan2_range y x
  rw [← hd] at hdr
  have hd90 : |d| < π / 2 := by
    by_contra hn
    push Not at hn
    have : cos |d| ≤ 0 := Real.cos_nonpos_of_pi_div_two_le_of_le hn (by linarith [abs_le.2 ⟨hdr.1.le, hdr.2⟩, Real.pi_pos])
    rw [Real.cos_abs] at this
    linarith
  have hcd : cos |d| = cos d := Real.cos_abs d
  have hsd : R * |sin d| = |y| := by rw [← hd2, abs_mul, abs_of_pos hRpos]
  have hsin : sin |d| = |sin d| := by
    rcases abs_cases d with ⟨h, h0⟩ | ⟨h, h0⟩
    · rw [h, abs_of_nonneg (Real.sin_nonneg_of_nonneg_of_le_pi h0 hdr.2)]
    · rw [h, Real.sin_neg, abs_of_nonpos (Real.sin_nonpos_of_nonpos_of_neg_pi_le h0.le hdr.1.le)]
  refine ⟨d, ?_, ?_⟩
  · have ht := Real.le_tan (abs_nonneg d) hd90
    rw [Real.tan_eq_sin_div_cos, hcd, hsin] at ht
    have : |sin d| / cos d = |y| / x := by
      rw [← hsd, ← hd1]
      field_simp
    rw [this] at ht
    refine ht.trans ?_
    rw [div_le_iff₀ (by linarith)]
    nlinarith
  · have hRR : √(c ^ 2 + s ^ 2) = R := by
      rw [hR]
      congr 1
      rw [hx, hy]
      linear_combination -(c ^ 2 + s ^ 2) * hq
    have k1 := atan2_cos s c
    have k2 := atan2_sin s c
    rw [hRR] at k1 k2
    apply sameTurn_of
    · apply mul_left_cancel₀ hRpos.ne'
      rw [k1, Real.cos_add]
      have : R * (cos a * cos d - sin a * sin d) = cos a * (R * cos d) - sin a * (R * sin d) := by ring
      rw [this, hd1, hd2, hx, hy]
      linear_combination -c * hq
    · apply mul_left_cancel₀ hRpos.ne'
      rw [k2, Real.sin_add]
      have : R * (sin a * cos d + cos a * sin d) = sin a * (R * cos d) + cos a * (R * sin d) := by ring
      rw [this, hd1, hd2, hx, hy]
      linear_combination -s * hq

/-- The interpolated sine and cosine of an angle are off by at most `e` from those of the true angle `a`. -/
def Close {R : Type} (I : Interp) (t : List R) (m f : R → ℝ) (x a e : ℝ) : Prop :=
  ∀ s c, I (column t m (fun r => sin (f r))) x = some s → I (column t m (fun r => cos (f r))) x = some c → |s - sin a| ≤ e ∧ |c - cos a| ≤ e

/-- An angle is at most `e` away from another, by some number of full turns. -/
def OffBy (e a b : ℝ) : Prop := ∃ d, |d| ≤ e ∧ SameTurn a (b + d)

theorem angle_near {R : Type} {I : Interp} {t : List R} {m f : R → ℝ} {x a e b : ℝ} (he : e ≤ 1 / 10) (hc : Close I t m f x a e)
    (h : angle I t m f x = some b) : OffBy (2 * e) b a := by
  unfold angle at h
  split at h
  · rename_i s c h1 h2
    cases h
    obtain ⟨k1, k2⟩ := hc s c h1 h2
    obtain ⟨d, hd, ht⟩ := direction_near he k1 k2
    obtain ⟨r1, r2⟩ := atan2_range s c
    exact ⟨d, hd, sameTurn_trans (up_turn r1 r2).1 ht⟩
  · cases h

/-- C201: where the interpolated sines and cosines are off by at most `e`, also across the jump from a full turn to 0, the angles are off by at most `2 * e`. -/
theorem C201_near (I : Interp) (t : List Row) (x e sunAz sunRA moonAz moonRA : ℝ) (he : e ≤ 1 / 10) (h1 : Close I t Row.mjd Row.sunAz x sunAz e)
    (h2 : Close I t Row.mjd Row.sunRA x sunRA e) (h3 : Close I t Row.mjd Row.moonAz x moonAz e) (h4 : Close I t Row.mjd Row.moonRA x moonRA e)
    (p : Pos) (hp : sunMoon I t x = some p) :
    OffBy (2 * e) p.sunAz sunAz ∧ OffBy (2 * e) p.sunRA sunRA ∧ OffBy (2 * e) p.moonAz moonAz ∧ OffBy (2 * e) p.moonRA moonRA := by
  unfold sunMoon at hp
  simp only [Option.bind_eq_bind, Option.bind_eq_some_iff, Option.some.injEq] at hp
  obtain ⟨_, -, _, -, _, -, _, -, _, -, a, ha, b, hb, c, hc, d, hd, rfl⟩ := hp
  exact ⟨angle_near he h1 ha, angle_near he h2 hc, angle_near he h3 hb, angle_near he h4 hd⟩

/-- C201: a planet at a time of the table. -/
theorem C201_planet (I : Interp) (hI : Passes I) (t : List PRow) (hr : t.Pairwise fun a b => a.mjd < b.mjd) (hl : 2 ≤ t.length) (k : ℕ) :
    (∀ r ∈ t, ∃ a, planet I t k r.mjd = some (a, r.dec k) ∧ SameTurn a (r.ra k)) ∧
    ∀ x q, planet I t k x = some q → 0 ≤ q.1 ∧ q.1 < 2 * π := by
  constructor
  · intro r h
    have hc : I (column t PRow.mjd (fun r => r.dec k)) r.mjd = some (r.dec k) := by
      refine hI.hits (column t PRow.mjd (fun r => r.dec k)) ?_ (by unfold column; simpa using hl) (r.mjd, r.dec k) (List.mem_map.2 ⟨r, h, rfl⟩)
      unfold RisingAt column
      rw [List.pairwise_map]
      exact hr
    obtain ⟨a, e1, s1, -⟩ := angle_at (f := fun r : PRow => r.ra k) hI hr hl h
    refine ⟨a, ?_, s1⟩
    unfold planet
    rw [hc, e1]
    rfl
  · intro x q hq
    unfold planet at hq
    simp only [Option.bind_eq_bind, Option.bind_eq_some_iff, Option.some.injEq] at hq
    obtain ⟨_, -, a, ha, rfl⟩ := hq
    exact angle_range ha

/-! ### Linear interpolation -/

/-- The value at `x` on the line through two samples. -/
noncomputable def lineAt (p q : ℝ × ℝ) (x : ℝ) : ℝ := p.2 + (x - p.1) / (q.1 - p.1) * (q.2 - p.2)

theorem piece_at (pre : List (ℝ × ℝ)) (p q : ℝ × ℝ) (post : List (ℝ × ℝ)) (x : ℝ) (hr : RisingAt (pre ++ p :: q :: post)) (h1 : p.1 ≤ x) (h2 : x ≤ q.1) :
    piece (pre ++ p :: q :: post) x = some (lineAt p q x) := by
  induction pre with
  | nil => simp only [List.nil_append, piece, if_pos h2, lineAt]
  | cons a pre ih =>
    have hr' : RisingAt (pre ++ p :: q :: post) := (List.pairwise_cons.1 hr).2
    have ha := (List.pairwise_cons.1 hr).1
    cases pre with
    | nil =>
      simp only [List.nil_append, List.cons_append] at *
      rw [piece]
      split_ifs with h
      · have hx : x = p.1 := le_antisymm h h1
        have hap : a.1 < p.1 := ha p (by simp)
        have : p.1 - a.1 ≠ 0 := by linarith
        unfold lineAt
        rw [hx, div_self this, sub_self, zero_div]
        congr 1
        ring
      · exact ih hr'
    | cons b pre =>
      simp only [List.cons_append] at *
      have hb : b.1 < p.1 := (List.pairwise_cons.1 hr').1 p (by simp)
      rw [piece, if_neg (by linarith)]
      exact ih hr'

theorem linear_at (pre : List (ℝ × ℝ)) (p q : ℝ × ℝ) (post : List (ℝ × ℝ)) (x : ℝ) (hr : RisingAt (pre ++ p :: q :: post)) (h1 : p.1 ≤ x) (h2 : x ≤ q.1) :
    linear (pre ++ p :: q :: post) x = some (lineAt p q x) := by
  have hs := piece_at pre p q post x hr h1 h2
  cases pre with
  | nil =>
    simp only [List.nil_append] at *
    rw [linear, if_neg (by linarith), hs]
  | cons a pre =>
    have ha : a.1 < p.1 := (List.pairwise_cons.1 hr).1 p (by simp)
    simp only [List.cons_append] at *
    rw [linear, if_neg (by linarith), hs]

theorem piece_some (l : List (ℝ × ℝ)) (p : ℝ × ℝ) (x : ℝ) : (piece (p :: l) x).isSome ↔ ∃ q ∈ l, x ≤ q.1 := by
  induction l generalizing p with
  | nil => simp [piece]
  | cons q l ih =>
    rw [piece]
    split_ifs with h
    · simp [h]
    · rw [ih q]
      simp [h]

/-- Linear interpolation passes through its samples. -/
theorem linear_passes : Passes linear where
  hits := by
    intro l hr hl p hp
    obtain ⟨pre, post, rfl⟩ := List.append_of_mem hp
    cases post with
    | cons q post =>
      have hpq : p.1 < q.1 := (List.pairwise_cons.1 (List.pairwise_append.1 hr).2.1).1 q (by simp)
      rw [linear_at pre p q post p.1 hr le_rfl hpq.le]
      simp [lineAt]
    | nil =>
      rcases List.eq_nil_or_concat pre with rfl | ⟨pre', a, rfl⟩
      · simp at hl
      · have e : pre'.concat a ++ [p] = pre' ++ a :: p :: [] := by simp
        rw [e] at hr ⊢
        have hpq : a.1 < p.1 := (List.pairwise_cons.1 (List.pairwise_append.1 hr).2.1).1 p (by simp)
        rw [linear_at pre' a p [] p.1 hr hpq.le le_rfl]
        have : p.1 - a.1 ≠ 0 := by linarith
        unfold lineAt
        rw [div_self this]
        congr 1
        ring
  inside := by
    intro l x hr hl
    cases l with
    | nil => simp at hl
    | cons p l =>
      have hp := (List.pairwise_cons.1 hr).1
      rw [linear]
      split_ifs with h
      · constructor
        · intro hc
          cases hc
        · rintro ⟨⟨q, hq, hqx⟩, -⟩
          rcases List.mem_cons.1 hq with rfl | hq
          · linarith
          · linarith [hp q hq]
      · rw [piece_some]
        constructor
        · rintro ⟨q, hq, hqx⟩
          exact ⟨⟨p, by simp, by linarith⟩, q, by simp [hq], hqx⟩
        · rintro ⟨-, q, hq, hqx⟩
          rcases List.mem_cons.1 hq with rfl | hq
          · cases l with
            | nil => simp at hl
            | cons b l => exact ⟨b, by simp, by linarith [hp b (by simp)]⟩
          · exact ⟨q, hq, hqx⟩

/-- Between two directions less than half a turn apart, a weighted mean of their sines and cosines points between them. -/
theorem direction_between {a d w : ℝ} (hw0 : 0 ≤ w) (hw1 : w ≤ 1) (hd0 : 0 ≤ d) (hd : d < π) :
    ∃ u, 0 ≤ u ∧ u ≤ d ∧ SameTurn (atan2 (sin a + w * (sin (a + d) - sin a)) (cos a + w * (cos (a + d) - cos a))) (a + u) := by
  have hq := Real.cos_sq_add_sin_sq a
  have hqd := Real.cos_sq_add_sin_sq d
  have hsd : 0 ≤ sin d := Real.sin_nonneg_of_nonneg_of_le_pi hd0 hd.le
  set x := 1 - w + w * cos d with hx
  set y := w * sin d with hy
  have hy0 : 0 ≤ y := mul_nonneg hw0 hsd
  have e1 : cos a + w * (cos (a + d) - cos a) = cos a * x - sin a * y := by rw [Real.cos_add, hx, hy]; ring
  have e2 : sin a + w * (sin (a + d) - sin a) = sin a * x + cos a * y := by rw [Real.sin_add, hx, hy]; ring
  rw [e1, e2]
  have hd1 := atan2_cos y x
  have hd2 := atan2_sin y x
  set R := √(x ^ 2 + y ^ 2) with hR
  have hcm : -1 < cos d := by
    have h := Real.cos_lt_cos_of_nonneg_of_le_pi hd0 le_rfl hd
    rwa [Real.cos_pi] at h
  have hRpos : 0 < R := by
    apply Real.sqrt_pos.2
    have : x ^ 2 + y ^ 2 = (1 - w) ^ 2 + w ^ 2 + 2 * (w * (1 - w)) * cos d := by
      rw [hx, hy]; linear_combination w ^ 2 * hqd
    rw [this]
    by_cases h : w * (1 - w) = 0
    · rw [h]
      nlinarith [sq_nonneg (1 - w), sq_nonneg w]
    · have hpos : 0 < w * (1 - w) := lt_of_le_of_ne (mul_nonneg hw0 (by linarith)) (Ne.symm h)
      nlinarith [sq_nonneg (1 - w - w)]
  set u := atan2 y x with hu
  obtain ⟨r1, r2⟩ := atan2_range y x
  rw [← hu] at r1 r2
  have hsu : 0 ≤ sin u := by
    by_contra hn
    push Not at hn
    nlinarith
  have hu0 : 0 ≤ u := by
    by_contra hn
    push Not at hn
    linarith [Real.sin_neg_of_neg_of_neg_pi_lt hn r1]
  have hud : u ≤ d := by
    by_contra hn
    push Not at hn
    have h1 : 0 < sin (u - d) ∨ u - d = π := by
      by_cases h : u - d = π
      · exact Or.inr h
      · exact Or.inl (Real.sin_pos_of_pos_of_lt_pi (by linarith) (lt_of_le_of_ne (by linarith) h))
    have h2 : R * sin (u - d) = -((1 - w) * sin d) := by
      rw [Real.sin_sub]
      have : R * (sin u * cos d - cos u * sin d) = (R * sin u) * cos d - (R * cos u) * sin d := by ring
      rw [this, hd1, hd2, hx, hy]
      ring
    rcases h1 with h1 | h1
    · have := mul_pos hRpos h1
      have h3 := mul_nonneg (by linarith : 0 ≤ 1 - w) hsd
      linarith
    · have hd' : d = 0 := by linarith
      have hx1 : x = 1 := by rw [hx, hd', Real.cos_zero]; ring
      have huπ : u = π := by linarith
      rw [huπ, Real.cos_pi, hx1] at hd1
      linarith
  refine ⟨u, hu0, hud, ?_⟩
  have hRR : √((cos a * x - sin a * y) ^ 2 + (sin a * x + cos a * y) ^ 2) = R := by
    rw [hR]
    congr 1
    linear_combination (x ^ 2 + y ^ 2) * hq
  have k1 := atan2_cos (sin a * x + cos a * y) (cos a * x - sin a * y)
  have k2 := atan2_sin (sin a * x + cos a * y) (cos a * x - sin a * y)
  rw [hRR] at k1 k2
  apply sameTurn_of
  · apply mul_left_cancel₀ hRpos.ne'
    rw [k1, Real.cos_add]
    have : R * (cos a * cos u - sin a * sin u) = cos a * (R * cos u) - sin a * (R * sin u) := by ring
    rw [this, hd1, hd2]
  · apply mul_left_cancel₀ hRpos.ne'
    rw [k2, Real.sin_add]
    have : R * (sin a * cos u + cos a * sin u) = sin a * (R * cos u) + cos a * (R * sin u) := by ring
    rw [this, hd1, hd2]

/-- An angle lies on the way from `a` to `b`, which are less than half a turn apart one way: after `a` by at most as much as `b` is. -/
def OnWay (a b z : ℝ) : Prop := ∃ u d, 0 ≤ u ∧ u ≤ d ∧ d < π ∧ SameTurn b (a + d) ∧ SameTurn z (a + u)

theorem angle_between {R : Type} (pre : List R) (r q : R) (post : List R) (m f : R → ℝ) (x : ℝ)
    (hr : (pre ++ r :: q :: post).Pairwise fun a b => m a < m b) (h1 : m r ≤ x) (h2 : x ≤ m q) {b : ℝ} (d : ℝ) (hd0 : 0 ≤ d) (hd : d < π)
    (h : angle linear (pre ++ r :: q :: post) m f x = some b) :
    (SameTurn (f q) (f r + d) → OnWay (f r) (f q) b) ∧ (SameTurn (f r) (f q + d) → OnWay (f q) (f r) b) := by
  have hlt : m r < m q := (List.pairwise_cons.1 (List.pairwise_append.1 hr).2.1).1 q (by simp)
  have hv : ∀ g : R → ℝ, linear (column (pre ++ r :: q :: post) m g) x = some (g r + (x - m r) / (m q - m r) * (g q - g r)) := by
    intro g
    have e : column (pre ++ r :: q :: post) m g = column pre m g ++ (m r, g r) :: (m q, g q) :: column post m g := by simp [column]
    rw [e, linear_at]
    · rfl
    · rw [← e]
      unfold RisingAt column
      rw [List.pairwise_map]
      exact hr
    · exact h1
    · exact h2
  unfold angle at h
  rw [hv, hv] at h
  simp only [Option.some.injEq] at h
  set w := (x - m r) / (m q - m r) with hw
  have hw0 : 0 ≤ w := div_nonneg (by linarith) (by linarith)
  have hw1 : w ≤ 1 := by rw [hw, div_le_one (by linarith)]; linarith
  have hup : SameTurn b (atan2 (sin (f r) + w * (sin (f q) - sin (f r))) (cos (f r) + w * (cos (f q) - cos (f r)))) := by
    obtain ⟨k1, k2⟩ := atan2_range (sin (f r) + w * (sin (f q) - sin (f r))) (cos (f r) + w * (cos (f q) - cos (f r)))
    rw [← h]
    exact (up_turn k1 k2).1
  have turn : ∀ {a c : ℝ}, SameTurn a c → sin a = sin c ∧ cos a = cos c := by
    rintro a c ⟨k, rfl⟩
    exact ⟨Real.sin_add_int_mul_two_pi c k, Real.cos_add_int_mul_two_pi c k⟩
  constructor
  · intro ht
    obtain ⟨t1, t2⟩ := turn ht
    obtain ⟨u, u0, u1, hu⟩ := direction_between (a := f r) hw0 hw1 hd0 hd
    rw [t1, t2] at hup
    exact ⟨u, d, u0, u1, hd, ht, sameTurn_trans hup hu⟩
  · intro ht
    obtain ⟨t1, t2⟩ := turn ht
    obtain ⟨u, u0, u1, hu⟩ := direction_between (a := f q) (w := 1 - w) (by linarith) (by linarith) hd0 hd
    rw [t1, t2] at hup
    have e1 : sin (f q + d) + w * (sin (f q) - sin (f q + d)) = sin (f q) + (1 - w) * (sin (f q + d) - sin (f q)) := by ring
    have e2 : cos (f q + d) + w * (cos (f q) - cos (f q + d)) = cos (f q) + (1 - w) * (cos (f q + d) - cos (f q)) := by ring
    rw [e1, e2] at hup
    exact ⟨u, d, u0, u1, hd, ht, sameTurn_trans hup hu⟩

/-- C201: with linear interpolation, between two rows less than half a turn apart the azimuth of the sun is on the short way from one to the other, in either
direction and also across the jump from a full turn to 0.  The same holds for the other angles. -/
theorem C201_between (pre : List Row) (r q : Row) (post : List Row) (x : ℝ) (hr : (pre ++ r :: q :: post).Pairwise fun a b => a.mjd < b.mjd)
    (h1 : r.mjd ≤ x) (h2 : x ≤ q.mjd) (p : Pos) (hp : sunMoon linear (pre ++ r :: q :: post) x = some p) (d : ℝ) (hd0 : 0 ≤ d) (hd : d < π) :
    ((SameTurn q.sunAz (r.sunAz + d) → OnWay r.sunAz q.sunAz p.sunAz) ∧ (SameTurn r.sunAz (q.sunAz + d) → OnWay q.sunAz r.sunAz p.sunAz)) ∧
    ((SameTurn q.sunRA (r.sunRA + d) → OnWay r.sunRA q.sunRA p.sunRA) ∧ (SameTurn r.sunRA (q.sunRA + d) → OnWay q.sunRA r.sunRA p.sunRA)) ∧
    ((SameTurn q.moonAz (r.moonAz + d) → OnWay r.moonAz q.moonAz p.moonAz) ∧ (SameTurn r.moonAz (q.moonAz + d) → OnWay q.moonAz r.moonAz p.moonAz)) ∧
    ((SameTurn q.moonRA (r.moonRA + d) → OnWay r.moonRA q.moonRA p.moonRA) ∧ (SameTurn r.moonRA (q.moonRA + d) → OnWay q.moonRA r.moonRA p.moonRA)) := by
  unfold sunMoon at hp
  simp only [Option.bind_eq_bind, Option.bind_eq_some_iff, Option.some.injEq] at hp
  obtain ⟨_, -, _, -, _, -, _, -, _, -, a, ha, b, hb, c, hc, e, he, rfl⟩ := hp
  exact ⟨angle_between pre r q post _ _ x hr h1 h2 d hd0 hd ha, angle_between pre r q post _ _ x hr h1 h2 d hd0 hd hc,
    angle_between pre r q post _ _ x hr h1 h2 d hd0 hd hb, angle_between pre r q post _ _ x hr h1 h2 d hd0 hd he⟩

/-- Two rows around midnight: the sun passes from azimuth -1/10 through the full turn to 1/10. -/
noncomputable def twoRows : List Row := [⟨0, -1, 2 * π - 1 / 10, 1, 0, 1, 2, 3, 0, 50⟩, ⟨1, -1, 1 / 10, 1, 0, 1, 2, 3, 0, 50⟩]

/-- Non-vacuity of `C201_table`, `C201_range`, `C201_near` (with `e = 0` at a row) and `C201_between`. -/
example : (twoRows.Pairwise fun a b => a.mjd < b.mjd) ∧ 2 ≤ twoRows.length ∧ Passes linear ∧
    (∃ p, sunMoon linear twoRows (1 / 2) = some p ∧ OnWay (2 * π - 1 / 10) (1 / 10) p.sunAz) := by
  have hr : twoRows.Pairwise fun a b => a.mjd < b.mjd := by simp [twoRows]
  have hl : 2 ≤ twoRows.length := by simp [twoRows]
  refine ⟨hr, hl, linear_passes, ?_⟩
  obtain ⟨h, -⟩ := C201_range linear linear_passes twoRows hr hl (1 / 2)
  obtain ⟨p, hp⟩ := Option.isSome_iff_exists.1 (h.2 ⟨⟨_, List.mem_cons_self, by norm_num⟩, ⟨_, List.mem_cons_of_mem _ List.mem_cons_self, by norm_num⟩⟩)
  refine ⟨p, hp, ?_⟩
  exact ((C201_between [] _ _ [] (1 / 2) hr (by norm_num) (by norm_num) p hp (1 / 5) (by norm_num) (by linarith [Real.two_le_pi])).1.1
    ⟨-1, by push_cast; ring⟩)

end Verif
