import Verif.Model.Movement
import Verif.Lemmas.Angles
import Verif.Props.Jerk
import Verif.Props.Kinem

/-!
C191: more of its performance never makes the telescope slower.
C192: the detailed band change time covers the carousel and the rotation.
-/

namespace Verif

open Real Jerk Kinem Move Ang

/-! ### Moves with larger limits and in two parts -/

theorem reaches_faster {d v a j v' a' j' x y z : ℝ} (hj : 0 < j) (hvv : v ≤ v') (haa : a ≤ a') (hjj : j ≤ j')
    (h : Reaches d v a j x y z) : Reaches d v' a' j' (x * j / j') y z ∧ x * j / j' ≤ x := by
  have hj' : 0 < j' := hj.trans_le hjj
  rw [reaches_iff hj] at h
  have hx : x * j / j' ≤ x := by
    rw [div_le_iff₀ hj']; exact mul_le_mul_of_nonneg_left hjj h.x0
  refine ⟨?_, hx⟩
  rw [reaches_iff hj']
  refine ⟨div_nonneg (mul_nonneg h.x0 hj.le) hj'.le, hx.trans h.xy, by linarith [h.xyz], ?_, ?_, ?_⟩
  · apply div_le_div_of_nonneg_right _ hj'.le
    have := (le_div_iff₀ hj).1 h.xA
    linarith
  · have := (le_div_iff₀ hj).1 h.xyV
    rw [le_div_iff₀ hj']
    have e : x * j / j' * y * j' = x * y * j := by field_simp
    rw [e]; linarith
  · have := h.D
    rw [eq_div_iff hj.ne'] at this
    rw [eq_div_iff hj'.ne', ← this]
    field_simp

theorem reaches_free {d v a j v' a' x y z : ℝ} (hj : 0 < j) (ha : 0 < a) (hvv : v ≤ v') (haa : a ≤ a')
    (h : Reaches d v a j x y z) : ∃ ta, AccReaches d v' a' ta z ∧ ta ≤ y := by
  have ha' : 0 < a' := ha.trans_le haa
  rw [reaches_iff hj] at h
  have y0 : 0 ≤ y := h.x0.trans h.xy
  have hxa := (le_div_iff₀ hj).1 h.xA
  have hta : j * x * y / a' ≤ y := by
    rw [div_le_iff₀ ha']
    have : j * x * y ≤ a' * y := mul_le_mul_of_nonneg_right (by linarith) y0
    linarith
  refine ⟨j * x * y / a', ⟨?_, ?_, ?_, ?_⟩, hta⟩
  · exact div_nonneg (mul_nonneg (mul_nonneg hj.le h.x0) y0) ha'.le
  · have := h.xyz; have := h.x0; linarith
  · have := (le_div_iff₀ hj).1 h.xyV
    rw [mul_div_cancel₀ _ ha'.ne']; linarith
  · have := h.D
    rw [eq_div_iff hj.ne'] at this
    rw [mul_div_cancel₀ _ ha'.ne', ← this]; ring

theorem acc_faster {d v a v' a' x z : ℝ} (ha : 0 < a) (hvv : v ≤ v') (haa : a ≤ a') (h : AccReaches d v a x z) :
    AccReaches d v' a' (x * a / a') z ∧ x * a / a' ≤ x := by
  have ha' : 0 < a' := ha.trans_le haa
  obtain ⟨h1, h2, h3, h4⟩ := h
  have hx : x * a / a' ≤ x := by
    rw [div_le_iff₀ ha']; exact mul_le_mul_of_nonneg_left haa h1
  have e : a' * (x * a / a') = a * x := by field_simp
  exact ⟨⟨div_nonneg (mul_nonneg h1 ha.le) ha'.le, hx.trans h2, by rw [e]; linarith, by rw [e, h4]⟩, hx⟩

/-- A speed limit that is no limit at all is written `none`. -/
def AtLeast (new old : Option ℝ) : Prop := ∀ x ∈ new, ∃ y ∈ old, y ≤ x

/-- C191: with limits on speed, acceleration and jerk that are all at least as large (the jerk
possibly unlimited), no move takes longer. -/
theorem C191_limits (d v a v' a' : ℝ) (j j' : Option ℝ) (hd : 0 ≤ d) (hv : 0 < v) (ha : 0 < a)
    (hj : ∀ x ∈ j, 0 < x) (hvv : v ≤ v') (haa : a ≤ a') (hjj : AtLeast j' j) (t t' : ℝ)
    (ht : jerkTimes [d] v a j = some [t]) (ht' : jerkTimes [d] v' a' j' = some [t']) : t' ≤ t := by
  have hv' := hv.trans_le hvv
  have ha' := ha.trans_le haa
  cases j' with
  | none =>
    obtain ⟨s', e', -, hmin⟩ := C30_shortest_acc d v' a' hd hv' ha'
    rw [e'] at ht'
    simp only [Option.some.injEq, List.cons.injEq, and_true] at ht'
    subst ht'
    cases j with
    | none =>
      obtain ⟨s, e, ⟨x, z, h, hs⟩, -⟩ := C30_shortest_acc d v a hd hv ha
      rw [e] at ht
      simp only [Option.some.injEq, List.cons.injEq, and_true] at ht
      obtain ⟨k1, k2⟩ := acc_faster ha hvv haa h
      have := hmin _ _ k1
      linarith
    | some j =>
      have hj := hj j rfl
      obtain ⟨s, e, ⟨x, y, z, h, hs⟩, -⟩ := C30_shortest_move d v a j hd hv ha hj
      rw [e] at ht
      simp only [Option.some.injEq, List.cons.injEq, and_true] at ht
      rw [profile_time] at hs
      obtain ⟨ta, k1, k2⟩ := reaches_free hj ha hvv haa h
      have := hmin _ _ k1
      have := ((reaches_iff hj).1 h).x0
      linarith
  | some j' =>
    obtain ⟨j0, rfl, hle⟩ := hjj j' rfl
    have hj := hj j0 rfl
    obtain ⟨s', e', -, hmin⟩ := C30_shortest_move d v' a' j' hd hv' ha' (hj.trans_le hle)
    rw [e'] at ht'
    simp only [Option.some.injEq, List.cons.injEq, and_true] at ht'
    subst ht'
    obtain ⟨s, e, ⟨x, y, z, h, hs⟩, -⟩ := C30_shortest_move d v a j0 hd hv ha hj
    rw [e] at ht
    simp only [Option.some.injEq, List.cons.injEq, and_true] at ht
    rw [profile_time] at hs
    obtain ⟨k1, k2⟩ := reaches_faster hj hvv haa hle h
    have := hmin _ _ _ k1
    rw [profile_time] at this
    linarith

/-- Limits as of a mount at 70 and at 100 percent. -/
example : ∃ t t', jerkTimes [30] (7 / 2) (7 / 2) (some 14) = some [t] ∧ jerkTimes [30] 5 5 (some 20) = some [t'] ∧
    t' ≤ t := by
  obtain ⟨t, h, -⟩ := C30_shortest_move 30 (7 / 2) (7 / 2) 14 (by norm_num) (by norm_num) (by norm_num) (by norm_num)
  obtain ⟨t', h', -⟩ := C30_shortest_move 30 5 5 20 (by norm_num) (by norm_num) (by norm_num) (by norm_num)
  refine ⟨t, t', h, h', C191_limits 30 (7 / 2) (7 / 2) 5 5 (some 14) (some 20) (by norm_num) (by norm_num) (by norm_num)
    (by rintro x ⟨⟩; norm_num) (by norm_num) (by norm_num) ?_ t t' h h'⟩
  rintro x ⟨⟩
  exact ⟨14, rfl, by norm_num⟩

/-! ### Stopping on the way -/

theorem reaches_more {d e v a j x y z : ℝ} (hj : 0 < j) (he : 0 ≤ e) (hd : 0 < d) (h : Reaches d v a j x y z) :
    Reaches (d + e) v a j x y (z + e / (j * (x * y))) ∧ 0 < j * (x * y) ∧ j * (x * y) * z = d := by
  rw [reaches_iff hj] at h ⊢
  have hD := h.D
  rw [eq_div_iff hj.ne'] at hD
  have hxy : 0 < x * y := by
    rcases (mul_nonneg h.x0 (h.x0.trans h.xy)).lt_or_eq with k | k
    · exact k
    · rw [← k] at hD; simp at hD; linarith
  have hp : 0 < j * (x * y) := mul_pos hj hxy
  refine ⟨⟨h.x0, h.xy, ?_, h.xA, h.xyV, ?_⟩, hp, by rw [← hD]; ring⟩
  · have := h.xyz
    have : 0 ≤ e / (j * (x * y)) := div_nonneg he hp.le
    linarith
  · rw [eq_div_iff hj.ne', mul_add, add_mul, hD]
    congr 1
    have hxy' := hxy.ne'
    have hx' : x ≠ 0 := left_ne_zero_of_mul hxy'
    have hy' : y ≠ 0 := right_ne_zero_of_mul hxy'
    field_simp

theorem two_moves {d e v a j x y z x' y' z' : ℝ} (hj : 0 < j) (hd : 0 < d) (he : 0 < e) (h : Reaches d v a j x y z)
    (h' : Reaches e v a j x' y' z') :
    ∃ x2 y2 z2, Reaches (d + e) v a j x2 y2 z2 ∧ x2 + y2 + z2 ≤ x + y + z + (x' + y' + z') := by
  obtain ⟨k1, k2, k3⟩ := reaches_more hj he.le hd h
  obtain ⟨l1, l2, l3⟩ := reaches_more hj hd.le he h'
  have f := (reaches_iff hj).1 h
  have f' := (reaches_iff hj).1 h'
  have := f.x0; have := f.xy; have := f'.x0; have := f'.xy
  rcases le_total (j * (x' * y')) (j * (x * y)) with c | c
  · refine ⟨_, _, _, k1, ?_⟩
    have : e / (j * (x * y)) ≤ z' := by
      rw [div_le_iff₀ k2, ← l3, mul_comm z']
      exact mul_le_mul_of_nonneg_right c (by linarith [f'.xyz])
    linarith
  · refine ⟨x', y', z' + d / (j * (x' * y')), by rw [add_comm d e]; exact l1, ?_⟩
    have : d / (j * (x' * y')) ≤ z := by
      rw [div_le_iff₀ l2, ← k3, mul_comm z]
      exact mul_le_mul_of_nonneg_right c (by linarith [f.xyz])
    linarith

theorem acc_more {d e v a x z : ℝ} (he : 0 ≤ e) (hd : 0 < d) (h : AccReaches d v a x z) (ha : 0 < a) :
    AccReaches (d + e) v a x (z + e / (a * x)) ∧ 0 < a * x := by
  obtain ⟨h1, h2, h3, h4⟩ := h
  have hp : 0 < a * x := by
    rcases (mul_nonneg ha.le h1).lt_or_eq with k | k
    · exact k
    · rw [← k] at h4; simp at h4; linarith
  refine ⟨⟨h1, ?_, h3, ?_⟩, hp⟩
  · have : 0 ≤ e / (a * x) := div_nonneg he hp.le
    linarith
  · rw [mul_add, h4, mul_div_cancel₀ _ hp.ne']

/-- C192: a move in two parts with a stop in between never takes less time than the move in
one. -/
theorem C192_no_detour (d e v a : ℝ) (j : Option ℝ) (hd : 0 ≤ d) (he : 0 ≤ e) (hv : 0 < v) (ha : 0 < a)
    (hj : ∀ x ∈ j, 0 < x) (t s u : ℝ) (ht : jerkTimes [d] v a j = some [t]) (hs : jerkTimes [e] v a j = some [s])
    (hu : jerkTimes [d + e] v a j = some [u]) : u ≤ t + s := by
  have t0 := (C30_time_laws v a j hv ha hj d t hd ht).1
  have s0 := (C30_time_laws v a j hv ha hj e s he hs).1
  rcases hd.lt_or_eq with hd0 | rfl
  swap
  · rw [zero_add, hs] at hu
    simp only [Option.some.injEq, List.cons.injEq, and_true] at hu
    linarith
  rcases he.lt_or_eq with he0 | rfl
  swap
  · rw [add_zero, ht] at hu
    simp only [Option.some.injEq, List.cons.injEq, and_true] at hu
    linarith
  cases j with
  | none =>
    obtain ⟨t1, e1, ⟨x, z, h, h1⟩, -⟩ := C30_shortest_acc d v a hd hv ha
    obtain ⟨s1, e2, ⟨x', z', h', h2⟩, -⟩ := C30_shortest_acc e v a he hv ha
    obtain ⟨u1, e3, -, hmin⟩ := C30_shortest_acc (d + e) v a (add_nonneg hd he) hv ha
    rw [e1] at ht; rw [e2] at hs; rw [e3] at hu
    simp only [Option.some.injEq, List.cons.injEq, and_true] at ht hs hu
    subst ht hs hu
    obtain ⟨k1, k2⟩ := acc_more he0.le hd0 h ha
    obtain ⟨l1, l2⟩ := acc_more hd0.le he0 h' ha
    obtain ⟨a1, a2, a3, a4⟩ := h
    obtain ⟨b1, b2, b3, b4⟩ := h'
    rcases le_total (a * x') (a * x) with c | c
    · have q : e / (a * x) ≤ z' := by
        rw [div_le_iff₀ k2, ← b4, mul_comm z']
        exact mul_le_mul_of_nonneg_right c (b1.trans b2)
      have := hmin _ _ k1
      linarith
    · have q : d / (a * x') ≤ z := by
        rw [div_le_iff₀ l2, ← a4, mul_comm z]
        exact mul_le_mul_of_nonneg_right c (a1.trans a2)
      rw [add_comm e d] at l1
      have := hmin _ _ l1
      linarith
  | some j =>
    have hj := hj j rfl
    obtain ⟨t1, e1, ⟨x, y, z, h, h1⟩, -⟩ := C30_shortest_move d v a j hd hv ha hj
    obtain ⟨s1, e2, ⟨x', y', z', h', h2⟩, -⟩ := C30_shortest_move e v a j he hv ha hj
    obtain ⟨u1, e3, -, hmin⟩ := C30_shortest_move (d + e) v a j (add_nonneg hd he) hv ha hj
    rw [e1] at ht; rw [e2] at hs; rw [e3] at hu
    simp only [Option.some.injEq, List.cons.injEq, and_true] at ht hs hu
    subst ht hs hu
    rw [profile_time] at h1 h2
    obtain ⟨x2, y2, z2, k1, k2⟩ := two_moves hj hd0 he0 h h'
    have := hmin _ _ _ k1
    rw [profile_time] at this
    linarith

example : ∀ t s u : ℝ, jerkTimes [1] 2 1 (some 4) = some [t] → jerkTimes [3] 2 1 (some 4) = some [s] →
    jerkTimes [1 + 3] 2 1 (some 4) = some [u] → u ≤ t + s :=
  C192_no_detour 1 3 2 1 (some 4) (by norm_num) (by norm_num) (by norm_num) (by norm_num) (by rintro x ⟨⟩; norm_num)

/-! ### The settings -/

/-- All limits of an axis are positive. -/
def Limits.Positive (l : Limits) : Prop := 0 < l.maxspeed ∧ 0 < l.accel ∧ 0 < l.jerk

/-- The limits of one axis are all at least those of another. -/
def Limits.le (l l' : Limits) : Prop := l.maxspeed ≤ l'.maxspeed ∧ l.accel ≤ l'.accel ∧ l.jerk ≤ l'.jerk

theorem radians_pos {x : ℝ} (h : 0 < x) : 0 < radians x := mul_pos h (div_pos pi_pos (by norm_num))

theorem radians_le {x y : ℝ} (h : x ≤ y) : radians x ≤ radians y :=
  mul_le_mul_of_nonneg_right h (div_pos pi_pos (by norm_num)).le

theorem motion_some {l : Limits} (hl : Limits.Positive l) {d : ℝ} (hd : 0 ≤ d) :
    jerkTimes [d] (radians l.maxspeed) (radians l.accel) (some (radians l.jerk)) = some [motion l d] := by
  obtain ⟨t, h, -⟩ := C30_shortest_move d _ _ _ hd (radians_pos hl.1) (radians_pos hl.2.1) (radians_pos hl.2.2)
  unfold motion
  rw [h]; rfl

theorem motion_faster {l l' : Limits} (hl : Limits.Positive l) (hle : Limits.le l l') {d : ℝ} (hd : 0 ≤ d) :
    motion l' d ≤ motion l d := by
  have hl' : Limits.Positive l' := ⟨hl.1.trans_le hle.1, hl.2.1.trans_le hle.2.1, hl.2.2.trans_le hle.2.2⟩
  refine C191_limits d _ _ _ _ _ _ hd (radians_pos hl.1) (radians_pos hl.2.1) ?_ (radians_le hle.1)
    (radians_le hle.2.1) ?_ _ _ (motion_some hl hd) (motion_some hl' hd)
  · rintro x ⟨⟩; exact radians_pos hl.2.2
  · rintro x ⟨⟩; exact ⟨_, rfl, radians_le hle.2.2⟩

theorem cap_mono {p q : ℝ} (h : p ≤ q) : cap p ≤ cap q := by
  unfold cap; split_ifs <;> linarith

theorem cap_pos {p : ℝ} (h : 0 < p) : 0 < cap p := by
  unfold cap; split_ifs <;> linarith

theorem tma_pos {p : ℝ} (h : 0 < p) :
    Limits.Positive (tmaMovement p).azimuth ∧ Limits.Positive (tmaMovement p).altitude := by
  have := cap_pos h
  have hs : 0 < cap p / 100 := by positivity
  unfold tmaMovement
  refine ⟨⟨lt_min (by positivity) (by norm_num), by dsimp only; positivity, lt_max_of_lt_left one_pos⟩,
    by dsimp only; positivity, by dsimp only; positivity, lt_max_of_lt_left one_pos⟩

theorem tma_le {p q : ℝ} (h : p ≤ q) :
    Limits.le (tmaMovement p).azimuth (tmaMovement q).azimuth ∧
      Limits.le (tmaMovement p).altitude (tmaMovement q).altitude := by
  have hs : cap p / 100 ≤ cap q / 100 := div_le_div_of_nonneg_right (cap_mono h) (by norm_num)
  unfold tmaMovement
  refine ⟨⟨min_le_min (by linarith) le_rfl, by dsimp only; linarith, max_le_max le_rfl (by linarith)⟩,
    by dsimp only; linarith, by dsimp only; linarith, max_le_max le_rfl (by linarith)⟩

theorem rot_pos {p : ℝ} (h : 0 < p) : Limits.Positive (rotatorMovement p) := by
  have := cap_pos h
  unfold rotatorMovement
  refine ⟨?_, ?_, ?_⟩ <;> dsimp only <;> positivity

theorem rot_le {p q : ℝ} (h : p ≤ q) : Limits.le (rotatorMovement p) (rotatorMovement q) := by
  have := cap_mono h
  unfold rotatorMovement
  refine ⟨?_, ?_, ?_⟩ <;> dsimp only <;> linarith

/-- The telescope `C` with its mount and rotator at given percentages of their performance. -/
noncomputable def atPercent (C : Cfg ℝ) (mount rot : ℝ) : Cfg ℝ :=
  setupRotator (setupTelescope C (tmaMovement mount)) (rotatorMovement rot)

theorem telTime_faster (C C' : Cfg ℝ) (dAlt dAz : ℝ) (h0 : 0 ≤ dAlt) (ha : ∀ d, 0 ≤ d → C'.altTime d ≤ C.altTime d)
    (hz : ∀ d, 0 ≤ d → C'.azTime d ≤ C.azTime d) (h1 : C'.settle = C.settle) (h2 : C'.olSlope = C.olSlope) :
    telTime C' dAlt dAz ≤ telTime C dAlt dAz := by
  have e : olTime C' dAlt = olTime C dAlt := by unfold olTime; rw [h2]
  have hm : max (C'.altTime dAlt) (C'.azTime |dAz|) ≤ max (C.altTime dAlt) (C.azTime |dAz|) :=
    max_le_max (ha _ h0) (hz _ (abs_nonneg _))
  unfold telTime
  dsimp only
  rw [e, h1]
  have := le_max_left 0 (C.settle - olTime C dAlt)
  split_ifs <;> linarith

theorem addChanges_mono (C : Cfg ℝ) (s : Tel ℝ) (band : String) (sw : Bool) (dAlt t t' : ℝ) (h : t ≤ t') :
    addChanges C s band sw dAlt t ≤ addChanges C s band sw dAlt t' := by
  unfold addChanges
  have := max_le_max h (le_refl C.bandChange)
  dsimp only
  split_ifs <;> linarith

/-- What is compared: both slews are refused, or both happen, with the same telescope after
it, and the second does not take longer. -/
def NotSlower (slow fast : Option (ℝ × Tel ℝ)) : Prop :=
  (slow = none ∧ fast = none) ∨ ∃ t t' s, slow = some (t, s) ∧ fast = some (t', s) ∧ t' ≤ t

theorem slew_faster (C : Cfg ℝ) (s : Tel ℝ) (r : Req ℝ) (mjd : ℝ) (lax sw : Bool) (a z q a' z' q' : ℝ → ℝ) (k : ℝ)
    (ha : ∀ d, 0 ≤ d → a' d ≤ a d) (hz : ∀ d, 0 ≤ d → z' d ≤ z d) (hq : ∀ d, 0 ≤ d → q' d ≤ q d) :
    NotSlower (slew { C with altTime := a, azTime := z, rotTime := q, settle := k } s r mjd lax sw)
      (slew { C with altTime := a', azTime := z', rotTime := q', settle := k } s r mjd lax sw) := by
  set C1 : Cfg ℝ := { C with altTime := a, azTime := z, rotTime := q, settle := k } with hC1
  set C2 : Cfg ℝ := { C with altTime := a', azTime := z', rotTime := q', settle := k } with hC2
  unfold slew
  by_cases hb : r.band ∉ s.mounted
  · rw [if_pos hb, if_pos hb]; exact .inl ⟨rfl, rfl⟩
  rw [if_neg hb, if_neg hb]
  dsimp only
  have e1 : (if fullCircle C2 = true then azFull C2 s.cum (position C2 s mjd).2.1 (C2.altaz r.ra r.dec mjd).2.1
      else azRestricted C2 (position C2 s mjd).2.1 (C2.altaz r.ra r.dec mjd).2.1) =
      (if fullCircle C1 = true then azFull C1 s.cum (position C1 s mjd).2.1 (C1.altaz r.ra r.dec mjd).2.1
      else azRestricted C1 (position C1 s mjd).2.1 (C1.altaz r.ra r.dec mjd).2.1) := rfl
  rw [e1]
  generalize (if fullCircle C1 = true then azFull C1 s.cum (position C1 s mjd).2.1 (C1.altaz r.ra r.dec mjd).2.1
      else azRestricted C1 (position C1 s mjd).2.1 (C1.altaz r.ra r.dec mjd).2.1) = o
  cases o with
  | none => exact .inl ⟨rfl, rfl⟩
  | some d =>
    dsimp only
    have e2 : (rotTarget C2 r (C2.altaz r.ra r.dec mjd).2.2) = rotTarget C1 r (C1.altaz r.ra r.dec mjd).2.2 := rfl
    have e3 : position C2 s mjd = position C1 s mjd := rfl
    have e4 : C2.altaz = C1.altaz := rfl
    rw [e2, e3, e4]
    have e5 : C2.rotMin = C1.rotMin := rfl
    have e6 : C2.rotMax = C1.rotMax := rfl
    have e7 : C2.altMin = C1.altMin := rfl
    have e8 : C2.altMax = C1.altMax := rfl
    have e9 : fullCircle C2 = fullCircle C1 := rfl
    rw [e5, e6, e7, e8, e9]
    split
    · exact .inl ⟨rfl, rfl⟩
    split
    · exact .inl ⟨rfl, rfl⟩
    refine .inr ⟨_, _, _, rfl, rfl, ?_⟩
    refine le_trans (addChanges_mono C2 s r.band sw _ _ _ ?_) (le_refl (addChanges C1 s r.band sw _ _))
    refine max_le_max (max_le_max (max_le_max le_rfl ?_) le_rfl) ?_
    · exact telTime_faster C1 C2 _ _ (abs_nonneg _) ha hz rfl rfl
    · unfold rotatorTime
      split
      · exact le_rfl
      · exact hq _ (abs_nonneg _)

/-- C191: a slew with mount and rotator at higher percentages of their performance never takes
longer and is possible for the same targets; the telescope ends in the same state. -/
theorem C191_percent (C : Cfg ℝ) (p p' q q' : ℝ) (hp : 0 < p) (hpp : p ≤ p') (hq : 0 < q) (hqq : q ≤ q') (s : Tel ℝ)
    (r : Req ℝ) (mjd : ℝ) (lax sw : Bool) :
    NotSlower (slew (atPercent C p q) s r mjd lax sw) (slew (atPercent C p' q') s r mjd lax sw) :=
  slew_faster C s r mjd lax sw _ _ _ _ _ _ 3 (fun _ hd => motion_faster (tma_pos hp).2 (tma_le hpp).2 hd)
    (fun _ hd => motion_faster (tma_pos hp).1 (tma_le hpp).1 hd) (fun _ hd => motion_faster (rot_pos hq) (rot_le hqq) hd)

/-- The default of the simulations against full performance. -/
example (C : Cfg ℝ) (s : Tel ℝ) (r : Req ℝ) (mjd : ℝ) :
    NotSlower (slew (atPercent C 70 100) s r mjd true false) (slew (atPercent C 100 100) s r mjd true false) :=
  C191_percent C 70 100 100 100 (by norm_num) (by norm_num) (by norm_num) le_rfl s r mjd true false

/-- C191: more than 125 percent is 125 percent, and the documented default of 70 percent is the
one `setup_telescope` has on its own. -/
theorem C191_cap (p : ℝ) (hp : 125 ≤ p) :
    tmaMovement p = tmaMovement 125 ∧ rotatorMovement p = rotatorMovement 125 ∧
    tmaMovement 70 = ⟨⟨7, 7, 28⟩, ⟨7 / 2, 7 / 2, 14⟩, 3⟩ ∧ rotatorMovement 100 = ⟨7 / 2, 1, 4⟩ ∧
    tmaMovement 125 = ⟨⟨7, 25 / 2, 50⟩, ⟨25 / 4, 25 / 4, 25⟩, 3⟩ := by
  have e : cap p = cap 125 := by
    unfold cap; split_ifs <;> linarith
  have c : cap 125 = 125 := by unfold cap; norm_num
  have c70 : cap 70 = 70 := by unfold cap; norm_num
  have c100 : cap 100 = 100 := by unfold cap; norm_num
  refine ⟨by unfold tmaMovement; rw [e], by unfold rotatorMovement; rw [e], ?_, ?_, ?_⟩
  · unfold tmaMovement; rw [c70]
    norm_num [min_def, max_def]
  · unfold rotatorMovement; rw [c100]; norm_num
  · unfold tmaMovement; rw [c]; norm_num [min_def, max_def]

/-! ### C192 -/

theorem nearest_zero {T x y : ℝ} (hT : 0 < T) (h : SameAngle T x y) (hx : |x| ≤ T / 2) : |x| ≤ |y| := by
  obtain ⟨k, hk⟩ := h
  rcases lt_trichotomy k 0 with h | h | h
  · have h1 : (k : ℝ) ≤ -1 := by exact_mod_cast Int.le_sub_one_of_lt h
    have h2 : (k : ℝ) * T ≤ -1 * T := mul_le_mul_of_nonneg_right h1 hT.le
    have := (abs_le.1 hx).1
    exact hx.trans (le_abs.2 (.inl (by linarith)))
  · rw [h] at hk; simp at hk; rw [hk]
  · have h1 : (1 : ℝ) ≤ k := by exact_mod_cast h
    have h2 : 1 * T ≤ (k : ℝ) * T := mul_le_mul_of_nonneg_right h1 hT.le
    have := (abs_le.1 hx).2
    exact hx.trans (le_abs.2 (.inr (by linarith)))

theorem signed_abs {T : ℝ} (hT : 0 < T) (a b : ℝ) : |smallestSigned T a b| ≤ T / 2 := by
  obtain ⟨-, h1, h2⟩ := smallestSigned_spec hT a b
  rw [abs_le]; constructor <;> linarith

theorem signed_symm {T : ℝ} (hT : 0 < T) (a b : ℝ) : |smallestSigned T a b| = |smallestSigned T b a| := by
  have key : ∀ a b : ℝ, |smallestSigned T a b| ≤ |smallestSigned T b a| := by
    intro a b
    obtain ⟨⟨k, hk⟩, -⟩ := smallestSigned_spec hT a b
    obtain ⟨⟨l, hl⟩, -⟩ := smallestSigned_spec hT b a
    rw [← abs_neg (smallestSigned T b a)]
    refine nearest_zero hT ⟨k + l, ?_⟩ (signed_abs hT a b)
    push_cast; linarith
  exact le_antisymm (key a b) (key b a)

theorem signed_triangle {T : ℝ} (hT : 0 < T) (a b c : ℝ) :
    |smallestSigned T a c| ≤ |smallestSigned T a b| + |smallestSigned T b c| := by
  obtain ⟨⟨k, hk⟩, -⟩ := smallestSigned_spec hT a b
  obtain ⟨⟨l, hl⟩, -⟩ := smallestSigned_spec hT b c
  obtain ⟨⟨m, hm⟩, -⟩ := smallestSigned_spec hT a c
  refine le_trans (nearest_zero hT ⟨m - k - l, ?_⟩ (signed_abs hT a c)) (abs_add_le _ _)
  push_cast; linarith

theorem signed_self {T : ℝ} (hT : 0 < T) (a : ℝ) : smallestSigned T a a = 0 := by
  obtain ⟨⟨k, hk⟩, -⟩ := smallestSigned_spec hT a a
  have := nearest_zero (y := 0) hT ⟨k, by linarith⟩ (signed_abs hT a a)
  simpa using this

/-- The time of a rotation by an angle, with a camera set up with these limits. -/
theorem rotation_time {l : Limits} (hl : Limits.Positive l) {d e : ℝ} (hd : 0 ≤ d) (he : 0 ≤ e) :
    0 ≤ motion l d ∧ motion l 0 = 0 ∧ (d ≤ e → motion l d ≤ motion l e) ∧
      motion l (d + e) ≤ motion l d + motion l e := by
  have v0 := radians_pos hl.1
  have a0 := radians_pos hl.2.1
  have j0 : ∀ x ∈ some (radians l.jerk), 0 < x := by rintro x ⟨⟩; exact radians_pos hl.2.2
  obtain ⟨h1, -, -, h2⟩ := C30_time_laws _ _ _ v0 a0 j0 d _ hd (motion_some hl hd)
  obtain ⟨-, -, h3, -⟩ := C30_time_laws _ _ _ v0 a0 j0 0 _ le_rfl (motion_some hl le_rfl)
  exact ⟨h1, h3 rfl, fun h => h2 _ _ h (motion_some hl he),
    C192_no_detour d e _ _ _ hd he v0 a0 j0 _ _ _ (motion_some hl hd) (motion_some hl he) (motion_some hl (add_nonneg hd he))⟩

/-- C192: the detailed band change time is that of the carousel with the rotator at zero before
and after; it depends in the same way on the angle before and after; and it is never less than
carousel and direct rotation together. -/
theorem C192_change (C : Cfg ℝ) (l : Limits) (hl : Limits.Positive l) (hT : 0 < C.T) (prev next swap : ℝ) :
    betterChange (setupRotator C l) 0 0 swap = swap ∧
    betterChange (setupRotator C l) prev next swap = betterChange (setupRotator C l) next prev swap ∧
    swap + motion l |smallestSigned C.T prev next| ≤ betterChange (setupRotator C l) prev next swap := by
  have hp := abs_nonneg (smallestSigned C.T prev 0)
  have hn := abs_nonneg (smallestSigned C.T 0 next)
  obtain ⟨-, z, -, hsum⟩ := rotation_time hl hp hn
  refine ⟨?_, ?_, ?_⟩
  · show motion l |smallestSigned C.T 0 0| + swap + motion l |smallestSigned C.T 0 0| = swap
    rw [signed_self hT, abs_zero, z]; ring
  · show motion l |smallestSigned C.T prev 0| + swap + motion l |smallestSigned C.T 0 next| =
      motion l |smallestSigned C.T next 0| + swap + motion l |smallestSigned C.T 0 prev|
    rw [signed_symm hT prev 0, signed_symm hT 0 next]; ring
  · show _ ≤ motion l |smallestSigned C.T prev 0| + swap + motion l |smallestSigned C.T 0 next|
    have := (rotation_time hl (abs_nonneg _) (add_nonneg hp hn)).2.2.1 (signed_triangle hT prev 0 next)
    linarith

/-- C192: with the detailed band change time, a slew of a telescope that is not parked to
another band takes at least the 90 seconds of the carousel and the rotation from the current
angle of the rotator to the new one; unless bands change while slewing this comes on top of all
other motions. -/
theorem C192_slew (C : Cfg ℝ) (hC : Sane C) (l : Limits) (hl : Limits.Positive l) (hT : 0 < C.T) (s : Tel ℝ) (r : Req ℝ)
    (mjd : ℝ) (lax sw : Bool) (hs : s.track.isSome = true) (hb : r.band ≠ s.band) (t : ℝ) (s' : Tel ℝ)
    (h : slewDetailed (setupRotator C l) s r mjd lax sw = some (t, s')) :
    90 + motion l |smallestSigned C.T (position C s mjd).2.2 s'.lastRot| ≤ t ∧
    (sw = false → C.altTime |(C.altaz r.ra r.dec mjd).1 - (position C s mjd).1| +
      (90 + motion l |smallestSigned C.T (position C s mjd).2.2 s'.lastRot|) ≤ t) := by
  unfold slewDetailed at h
  dsimp only at h
  have hlast : s'.lastRot = (rotTarget C r (C.altaz r.ra r.dec mjd).2.2).2 := by
    obtain ⟨-, d, rs, rt, hrt, -, -, -, -, he⟩ := slew_some h
    rw [he]
    exact (congrArg Prod.snd hrt).symm
  obtain ⟨-, -, hge⟩ := C192_change C l hl hT (position C s mjd).2.2 (rotTarget C r (C.altaz r.ra r.dec mjd).2.2).2 90
  rw [← hlast] at hge
  have hm := (rotation_time hl (abs_nonneg (smallestSigned C.T (position C s mjd).2.2 s'.lastRot)) le_rfl).1
  set ch := betterChange (setupRotator C l) (position C s mjd).2.2 s'.lastRot 90 with hch
  have h' : slew { setupRotator C l with bandChange := ch } s r mjd lax sw = some (t, s') := by
    rw [hch, hlast]; exact h
  have hS : Sane { setupRotator C l with bandChange := ch } :=
    ⟨hC.altTime, hC.azTime, hC.ol, by show 0 ≤ ch; linarith, hC.cl, hC.read, hC.shutter⟩
  obtain ⟨d, -, m, h0, -, h1, -, -, -, -, -, h2, -⟩ := C66_slew_covers_all _ hS s s' r mjd t lax sw h'
  obtain ⟨k1, k2⟩ := h2 hs hb
  have k1' : ch ≤ t := k1
  have h1' : C.altTime |(C.altaz r.ra r.dec mjd).1 - (position C s mjd).1| ≤ m := h1
  refine ⟨by linarith, fun e => ?_⟩
  have k2' : m + ch ≤ t := k2 e
  linarith

/-- A telescope with a band change from 30 to -60 degrees of rotation. -/
example (C : Cfg ℝ) (hT : C.T = 2 * π) :
    90 + motion ⟨7 / 2, 1, 4⟩ |smallestSigned C.T (π / 6) (-π / 3)| ≤
      betterChange (setupRotator C ⟨7 / 2, 1, 4⟩) (π / 6) (-π / 3) 90 :=
  (C192_change C ⟨7 / 2, 1, 4⟩ ⟨by norm_num, by norm_num, by norm_num⟩ (by rw [hT]; exact two_pi_pos) _ _ _).2.2

/-- Such slews happen. -/
example : ∃ C : Cfg ℝ, Sane C ∧ 0 < C.T ∧ ∃ s r mjd, s.track.isSome = true ∧ r.band ≠ s.band ∧
    (slewDetailed (setupRotator C ⟨7 / 2, 1, 4⟩) s r mjd true false).isSome = true := by
  refine ⟨⟨8, fun ra dec _ => (dec, ra, 0), Camera.lsst, 0, 0, 2, 1, 120, 1, -3, 3, 15, -9, 9, -9, 9, 3, 1, 36, 9, 1, 1, 1,
    fun _ => 0, fun _ => 0, fun _ => 0, fun _ => 0, fun _ => 0⟩, ⟨?_, ?_, ?_, ?_, ?_, ?_, ?_⟩, ?_,
    ⟨some (0, 0, 0), 0, 0, 0, 0, 2, "r", "r", ["g", "r"], 0⟩, ⟨0, 1, 0, some 1, "g", 30, 1⟩, 0, rfl, by decide, ?_⟩
  · intro d _; exact le_rfl
  · intro d _; exact le_rfl
  · exact one_pos
  · show (0 : ℝ) ≤ 120; norm_num
  · show (0 : ℝ) ≤ 36; norm_num
  · show (0 : ℝ) ≤ 2; norm_num
  · show (0 : ℝ) ≤ 1; norm_num
  · show (0 : ℝ) < 8; norm_num
  · have e : smallestSigned (8 : ℝ) 0 0 = 0 := signed_self (by norm_num) 0
    norm_num [slewDetailed, slew, setupRotator, position, rotTarget, fullCircle, azFull, inWrap, e]

end Verif
