import Verif.Model.Angles
import Verif.Spec.Angles
import Mathlib.Tactic.Linarith
import Mathlib.Tactic.Ring
import Mathlib.Tactic.FieldSimp

namespace Verif.Ang

variable {α : Type} [Field α] [LinearOrder α] [IsStrictOrderedRing α] [FloorRing α]

theorem SameAngle.refl (T x : α) : SameAngle T x x := ⟨0, by simp⟩
omit [LinearOrder α] [IsStrictOrderedRing α] [FloorRing α] in
theorem SameAngle.symm {T x y : α} (h : SameAngle T x y) : SameAngle T y x := by
  obtain ⟨k, hk⟩ := h; exact ⟨-k, by rw [hk]; push_cast; ring⟩
omit [LinearOrder α] [IsStrictOrderedRing α] [FloorRing α] in
theorem SameAngle.trans {T x y z : α} (h : SameAngle T x y) (h' : SameAngle T y z) : SameAngle T x z := by
  obtain ⟨k, hk⟩ := h; obtain ⟨l, hl⟩ := h'; exact ⟨k + l, by rw [hk, hl]; push_cast; ring⟩
omit [LinearOrder α] [IsStrictOrderedRing α] [FloorRing α] in
theorem SameAngle.add {T x y z w : α} (h : SameAngle T x y) (h' : SameAngle T z w) : SameAngle T (x + z) (y + w) := by
  obtain ⟨k, hk⟩ := h; obtain ⟨l, hl⟩ := h'; exact ⟨k + l, by rw [hk, hl]; push_cast; ring⟩
omit [LinearOrder α] [IsStrictOrderedRing α] [FloorRing α] in
theorem SameAngle.neg {T x y : α} (h : SameAngle T x y) : SameAngle T (-x) (-y) := by
  obtain ⟨k, hk⟩ := h; exact ⟨-k, by rw [hk]; push_cast; ring⟩
omit [LinearOrder α] [IsStrictOrderedRing α] [FloorRing α] in
theorem SameAngle.sub {T x y z w : α} (h : SameAngle T x y) (h' : SameAngle T z w) : SameAngle T (x - z) (y - w) := by
  rw [sub_eq_add_neg, sub_eq_add_neg]; exact h.add h'.neg

theorem md_same (T x : α) : SameAngle T (md T x) x := ⟨-⌊x / T⌋, by unfold md; push_cast; ring⟩

theorem md_nonneg {T : α} (hT : 0 < T) (x : α) : 0 ≤ md T x := by
  unfold md
  have h := Int.floor_le (x / T)
  rw [le_div_iff₀ hT] at h
  linarith [mul_comm T (⌊x / T⌋ : α)]

theorem md_lt {T : α} (hT : 0 < T) (x : α) : md T x < T := by
  unfold md
  have h := Int.lt_floor_add_one (x / T)
  rw [div_lt_iff₀ hT] at h
  linarith [mul_comm T (⌊x / T⌋ : α)]

/-- Two equivalent angles in [0, T) are equal. -/
theorem same_eq {T x y : α} (hT : 0 < T) (h : SameAngle T x y) (hx : 0 ≤ x) (hx' : x < T) (hy : 0 ≤ y) (hy' : y < T) :
    x = y := by
  obtain ⟨k, hk⟩ := h
  have h1 : (k : α) * T < 1 * T := by linarith
  have h2 : (-1 : α) * T < k * T := by linarith
  have h1 := lt_of_mul_lt_mul_right h1 hT.le
  have h2 := lt_of_mul_lt_mul_right h2 hT.le
  have h1 : k < 1 := by exact_mod_cast h1
  have h2 : (-1 : ℤ) < k := by exact_mod_cast h2
  have : k = 0 := by omega
  rw [hk, this]; simp

theorem md_eq_of_same {T x y : α} (hT : 0 < T) (h : SameAngle T x y) : md T x = md T y :=
  same_eq hT (((md_same T x).trans h).trans (md_same T y).symm) (md_nonneg hT x) (md_lt hT x) (md_nonneg hT y) (md_lt hT y)

theorem md_of_mem {T x : α} (hT : 0 < T) (h : 0 ≤ x) (h' : x < T) : md T x = x :=
  same_eq hT (md_same T x) (md_nonneg hT x) (md_lt hT x) h h'

theorem md_neg_add {T x : α} (hT : 0 < T) : (md T x = 0 ∧ md T (-x) = 0) ∨ md T x + md T (-x) = T := by
  have h1 := md_same T x
  have h2 := md_same T (-x)
  obtain ⟨k, hk⟩ := h1.add h2
  have e : md T x + md T (-x) = k * T := by rw [hk]; ring
  have a1 := md_nonneg hT x
  have a2 := md_lt hT x
  have b1 := md_nonneg hT (-x)
  have b2 := md_lt hT (-x)
  have h3 : (k : α) * T < 2 * T := by linarith
  have h4 : (-1 : α) * T < k * T := by linarith
  have h3 : k < 2 := by exact_mod_cast lt_of_mul_lt_mul_right h3 hT.le
  have h4 : (-1 : ℤ) < k := by exact_mod_cast lt_of_mul_lt_mul_right h4 hT.le
  rcases (show k = 0 ∨ k = 1 by omega) with rfl | rfl
  · left
    simp only [Int.cast_zero, zero_mul] at e
    exact ⟨by linarith, by linarith⟩
  · right; simpa using e

/-- The smallest signed angle leads from the first to the second and is at most half a turn. -/
theorem smallestSigned_spec {T : α} (hT : 0 < T) (a1 a2 : α) :
    SameAngle T (a1 + smallestSigned T a1 a2) a2 ∧ -T / 2 < smallestSigned T a1 a2 ∧ smallestSigned T a1 a2 ≤ T / 2 := by
  have hx := md_same T a1
  have hy := md_same T a2
  have hneg : md T (md T a1 - md T a2) = md T (-(md T a2 - md T a1)) := by congr 1; ring
  have hcases := md_neg_add (T := T) (x := md T a2 - md T a1) hT
  have ha := md_same T (md T a1 - md T a2)
  have hb := md_same T (md T a2 - md T a1)
  have ha0 := md_nonneg hT (md T a1 - md T a2)
  have hb0 := md_nonneg hT (md T a2 - md T a1)
  rw [← hneg] at hcases
  unfold smallestSigned
  dsimp only
  split
  · rename_i h
    refine ⟨?_, ?_, ?_⟩
    · have h1 := (ha.trans (hx.sub hy)).neg
      have h2 := (SameAngle.refl T a1).add h1
      rw [neg_one_mul]
      convert h2 using 1
      ring
    · rcases hcases with ⟨h1, h2⟩ | h1 <;> linarith
    · linarith
  · rename_i h
    have h := not_lt.1 h
    refine ⟨?_, ?_, ?_⟩
    · have h1 := hb.trans (hy.sub hx)
      have h2 := (SameAngle.refl T a1).add h1
      convert h2 using 1
      ring
    · linarith
    · rcases hcases with ⟨h1, h2⟩ | h1 <;> linarith

theorem wrap180_spec {T : α} (hT : 0 < T) (x : α) :
    SameAngle T (wrap180 T x) x ∧ -T / 2 < wrap180 T x ∧ wrap180 T x ≤ T / 2 := by
  have h1 := md_same T x
  have h2 := md_nonneg hT x
  have h3 := md_lt hT x
  unfold wrap180
  dsimp only
  split
  · rename_i h
    refine ⟨?_, by linarith, by linarith⟩
    obtain ⟨k, hk⟩ := h1
    exact ⟨k - 1, by rw [hk]; push_cast; ring⟩
  · exact ⟨h1, by linarith, by linarith⟩

theorem sky2tel_same {T : α} (hT : 0 < T) (c : Camera) (sky pa : α) :
    SameAngle T (sky2tel T c sky pa) (match c with
      | .lsst => pa - sky - T / 4 | .comcam => pa - sky | .auxtel => sky + pa) := by
  cases c
  all_goals exact (wrap180_spec hT _).1.trans (md_same _ _)

theorem sky2tel_range {T : α} (hT : 0 < T) (c : Camera) (y pa : α) :
    -T / 2 < sky2tel T c y pa ∧ sky2tel T c y pa ≤ T / 2 := by
  have : ∀ z, -T / 2 < wrap180 T z ∧ wrap180 T z ≤ T / 2 := fun z => (wrap180_spec hT z).2
  cases c <;> exact this _

theorem tel2sky_range {T : α} (hT : 0 < T) (c : Camera) (y pa : α) :
    0 ≤ tel2sky T c y pa ∧ tel2sky T c y pa < T := by
  cases c <;> exact ⟨md_nonneg hT _, md_lt hT _⟩

theorem tel_sky_tel {T : α} (hT : 0 < T) (c : Camera) (x pa : α) :
    SameAngle T (sky2tel T c (tel2sky T c x pa) pa) x := by
  refine (sky2tel_same hT c _ pa).trans ?_
  cases c
  · have := ((SameAngle.refl T pa).sub (md_same T (pa - x - T / 4))).sub (SameAngle.refl T (T / 4))
    rwa [show pa - (pa - x - T / 4) - T / 4 = x by ring] at this
  · have := ((SameAngle.refl T pa).sub (md_same T (pa - x)))
    rwa [show pa - (pa - x) = x by ring] at this
  · have := ((md_same T (x - pa))).add (SameAngle.refl T pa)
    rwa [show x - pa + pa = x by ring] at this

theorem sky_tel_sky {T : α} (hT : 0 < T) (c : Camera) (x pa : α) :
    SameAngle T (tel2sky T c (sky2tel T c x pa) pa) x := by
  have hs := sky2tel_same hT c x pa
  cases c
  · refine (md_same _ _).trans ?_
    have := ((SameAngle.refl T pa).sub hs).sub (SameAngle.refl T (T / 4))
    convert this using 1; ring
  · refine (md_same _ _).trans ?_
    have := ((SameAngle.refl T pa).sub hs)
    convert this using 1; ring
  · refine (md_same _ _).trans ?_
    have := (hs.sub (SameAngle.refl T pa))
    convert this using 1; ring

/-- Two equivalent angles in (-T/2, T/2] are equal. -/
theorem same_eq_half {T x y : α} (hT : 0 < T) (h : SameAngle T x y) (hx : -T / 2 < x) (hx' : x ≤ T / 2)
    (hy : -T / 2 < y) (hy' : y ≤ T / 2) : x = y := by
  obtain ⟨k, hk⟩ := h
  have e1 : (k : α) * T < 1 * T := by linarith
  have e2 : (-1 : α) * T < k * T := by linarith
  have e1 : k < 1 := by exact_mod_cast lt_of_mul_lt_mul_right e1 hT.le
  have e2 : (-1 : ℤ) < k := by exact_mod_cast lt_of_mul_lt_mul_right e2 hT.le
  have : k = 0 := by omega
  rw [hk, this]; simp

/-- Equivalent rotator angles give the same sky angle, and vice versa. -/
theorem tel2sky_congr {T : α} (hT : 0 < T) (c : Camera) {x y : α} (h : SameAngle T x y) (pa : α) :
    tel2sky T c x pa = tel2sky T c y pa := by
  cases c
  · exact md_eq_of_same hT (((SameAngle.refl T pa).sub h).sub (SameAngle.refl T (T / 4)))
  · exact md_eq_of_same hT ((SameAngle.refl T pa).sub h)
  · exact md_eq_of_same hT (h.sub (SameAngle.refl T pa))

end Verif.Ang
