import Verif.Model.Inputs
import Verif.Props.Sphere

/-!
Properties C228 (hour angles) and C229 (separations of arrays).
-/

namespace Verif

open Inp Sph Real

/-! ### C228 -/

theorem wrapOne_same (x : ℝ) : SameTurn (wrapOne x) x := by
  unfold wrapOne
  split_ifs
  · exact ⟨-1, by push_cast; ring⟩
  · exact ⟨0, by push_cast; ring⟩

theorem wrapAll_each (l : List ℝ) : wrapAll l = l.map wrapOne := by
  unfold wrapAll
  split
  · rfl
  · rfl

/-- C228: each hour angle is changed by whole turns only; from -180 (not included) to 540 degrees, it comes out between -180 (not included) and 180 degrees;
and from -360 to 360 degrees, as for a sidereal time and a right ascension of one turn, it comes out between -360 and 180 degrees. -/
theorem C228_wrap_partial (l : List ℝ) : (wrapAll l).length = l.length ∧ ∀ (k : ℕ) x y, l[k]? = some x → (wrapAll l)[k]? = some y →
    SameTurn y x ∧ (-π < x → x ≤ 3 * π → -π < y ∧ y ≤ π) ∧ (-(2 * π) < x → x < 2 * π → -(2 * π) < y ∧ y ≤ π) := by
  rw [wrapAll_each]
  refine ⟨List.length_map _, fun k x y hx hy => ?_⟩
  rw [List.getElem?_map, hx] at hy
  cases hy
  refine ⟨wrapOne_same x, fun h1 h2 => ?_, fun h1 h2 => ?_⟩
  · unfold wrapOne
    split_ifs with h
    · exact ⟨by linarith, by linarith⟩
    · exact ⟨h1, not_lt.1 h⟩
  · have := Real.pi_pos
    unfold wrapOne
    split_ifs with h
    · exact ⟨by linarith, by linarith⟩
    · exact ⟨h1, not_lt.1 h⟩

/-- C228 fails for sources that rise later: at sidereal time 0 and right ascension 270 degrees the hour angle stays at -270 degrees. -/
theorem C228_wrap_violated : ∃ lst ra, 0 ≤ lst ∧ lst < 2 * π ∧ 0 ≤ ra ∧ ra < 2 * π ∧ ¬ (-π ≤ wrapOne (lst - ra) ∧ wrapOne (lst - ra) ≤ π) := by
  have hp := Real.pi_pos
  refine ⟨0, 3 * π / 2, le_rfl, by linarith, by linarith, by linarith, fun h => ?_⟩
  unfold wrapOne at h
  rw [if_neg (by linarith)] at h
  linarith [h.1]

/-- C228: the parallactic angle does not depend on the whole turns in the sidereal time or right ascension, even where the hour angle is out of range. -/
theorem C228_parallactic (lst lst' ra ra' dec lat : ℝ) (h : SameTurn lst lst') (h' : SameTurn ra ra') : paAt lst ra dec lat = paAt lst' ra' dec lat := by
  have key : SameTurn (wrapOne (lst - ra)) (wrapOne (lst' - ra')) := by
    obtain ⟨a, ha⟩ := wrapOne_same (lst - ra)
    obtain ⟨b, hb⟩ := wrapOne_same (lst' - ra')
    obtain ⟨c, hc⟩ := h
    obtain ⟨d, hd⟩ := h'
    refine ⟨a - b + c - d, ?_⟩
    rw [ha, hb, hc, hd]
    push_cast
    ring
  obtain ⟨k, hk⟩ := key
  unfold paAt paFromHa
  rw [hk, Real.sin_add_int_mul_two_pi, Real.cos_add_int_mul_two_pi]

/-- Non-vacuity: 200 degrees become -160, and -170 stay. -/
example : wrapAll [200 * π / 180, -170 * π / 180] = [-160 * π / 180, -170 * π / 180] := by
  have hp := Real.pi_pos
  rw [wrapAll_each]
  simp only [List.map_cons, List.map_nil, wrapOne]
  rw [if_pos (by linarith), if_neg (by linarith)]
  congr 1
  ring

/-! ### C229 -/

/-- The positions that two arguments stand for: numbers stand for one, arrays of the same length for as many as they are long. -/
def positions : Arg → Arg → Option (List (ℝ × ℝ))
  | .num x, .num y => some [(x, y)]
  | .arr xs, .arr ys => if xs.length = ys.length then some (xs.zip ys) else none
  | _, _ => none

/-- The angle between two directions. -/
def AngleBetween (p q : ℝ × ℝ) (t : ℝ) : Prop := cos t = dot (xyz p.1 p.2) (xyz q.1 q.2) ∧ 0 ≤ t ∧ t ≤ π

theorem sep_angle (p q : ℝ × ℝ) : AngleBetween p q (sep p.1 p.2 q.1 q.2) := C121_angle _ _ _ _

theorem validate_positions (a b : Arg) : (positions a b).isSome = true ↔ ∃ w, validate [a, b] 2 = .ok w := by
  cases a <;> cases b <;> simp only [positions, validate, wantsArray, Arg.isArray, Arg.isNumber, checkLengths, sameLength, Arg.len, List.take, List.all, Bool.and_true,
    Bool.and_false, Bool.true_and, if_true, if_false, Bool.false_eq_true, reduceCtorEq, Option.isSome_some, Option.isSome_none, exists_false, exists_const,
    Except.ok.injEq, exists_eq', decide_true]
  case arr.arr xs ys =>
    by_cases h : xs.length = ys.length
    · simp [h]
    · have h' : ¬ ys.length = xs.length := fun e => h e.symm
      simp [h, h']

theorem squeeze_positions {a b : Arg} {ps : List (ℝ × ℝ)} (h : positions a b = some ps) :
    (∃ p, ps = [p] ∧ squeeze a b = some (.inl p)) ∨
    (ps.length ≠ 1 ∧ ∃ xs ys, xs.length = ys.length ∧ ps = xs.zip ys ∧ squeeze a b = some (.inr (xs, ys))) := by
  cases a with
  | num x =>
    cases b with
    | num y => cases h; exact .inl ⟨_, rfl, rfl⟩
    | arr _ => cases h
    | point _ => cases h
    | list _ => cases h
    | other => cases h
  | arr xs =>
    cases b with
    | num y => cases h
    | arr ys =>
      change (if xs.length = ys.length then some (xs.zip ys) else none) = some ps at h
      split_ifs at h with hl
      cases h
      match xs, ys, hl with
      | [], [], _ => exact .inr ⟨by simp, [], [], rfl, rfl, rfl⟩
      | [x], [y], _ => exact .inl ⟨(x, y), rfl, rfl⟩
      | x :: x' :: xs, y :: y' :: ys, hl => exact .inr ⟨by simp, _, _, hl, rfl, rfl⟩
    | point _ => cases h
    | list _ => cases h
    | other => cases h
  | point _ => cases b <;> cases h
  | list _ => cases b <;> cases h
  | other => cases b <;> cases h

/-- C229: the separation of two positions is a number and of positions in arrays an array, of the angles between the positions in the same place; one position
goes with every position of an array. Arguments that are not two numbers or two arrays of one length raise, and so do arrays of different lengths. -/
theorem C229_arrays (long1 lat1 long2 lat2 : Arg) :
    (positions long1 lat1 = none ∨ positions long2 lat2 = none → ∃ e, separation long1 lat1 long2 lat2 = .error e) ∧
    ∀ ps qs, positions long1 lat1 = some ps → positions long2 lat2 = some qs →
      (∀ p q, ps = [p] → qs = [q] → ∃ t, separation long1 lat1 long2 lat2 = .ok (.num t) ∧ AngleBetween p q t) ∧
      (∀ p, ps = [p] → qs.length ≠ 1 → ∃ ts, separation long1 lat1 long2 lat2 = .ok (.arr ts) ∧ List.Forall₂ (AngleBetween p) qs ts) ∧
      (∀ q, ps.length ≠ 1 → qs = [q] → ∃ ts, separation long1 lat1 long2 lat2 = .ok (.arr ts) ∧ List.Forall₂ (fun p => AngleBetween p q) ps ts) ∧
      (ps.length ≠ 1 → qs.length ≠ 1 → ps.length = qs.length →
        ∃ ts, separation long1 lat1 long2 lat2 = .ok (.arr ts) ∧ List.Forall₂ (fun r => AngleBetween r.1 r.2) (ps.zip qs) ts) ∧
      (ps.length ≠ 1 → qs.length ≠ 1 → ps.length ≠ qs.length → separation long1 lat1 long2 lat2 = .error .runtime) := by
  constructor
  · intro h
    have hv : ∀ a b, positions a b = none → ∃ e, validate [a, b] 2 = .error e := by
      intro a b hn
      cases hv : validate [a, b] 2 with
      | error e => exact ⟨e, rfl⟩
      | ok w =>
        have := (validate_positions a b).2 ⟨w, hv⟩
        rw [hn] at this
        cases this
    unfold separation
    rcases h with h | h
    · obtain ⟨e, he⟩ := hv _ _ h
      rw [he]
      exact ⟨e, rfl⟩
    · obtain ⟨e, he⟩ := hv _ _ h
      cases validate [long1, lat1] 2 with
      | error e' => exact ⟨e', rfl⟩
      | ok w =>
        dsimp only
        rw [he]
        exact ⟨e, rfl⟩
  · intro ps qs hp hq
    obtain ⟨w1, h1⟩ := (validate_positions long1 lat1).1 (by rw [hp]; rfl)
    obtain ⟨w2, h2⟩ := (validate_positions long2 lat2).1 (by rw [hq]; rfl)
    have hs : separation long1 lat1 long2 lat2 = match squeeze long1 lat1, squeeze long2 lat2 with
      | some p, some q => Inp.apply p q
      | _, _ => .error .type := by
      unfold separation
      rw [h1]
      dsimp only
      rw [h2]
      cases squeeze long1 lat1 <;> cases squeeze long2 lat2 <;> rfl
    have hmap : ∀ {α : Type} (f : α → ℝ) (R : α → ℝ → Prop) (l : List α), (∀ a, R a (f a)) → List.Forall₂ R l (l.map f) := by
      intro α f R l h
      induction l with
      | nil => exact .nil
      | cons a r ih => exact .cons (h a) ih
    rcases squeeze_positions hp with ⟨p, rfl, sp⟩ | ⟨lp, xs, ys, ll, rfl, sp⟩ <;> rcases squeeze_positions hq with ⟨q, rfl, sq⟩ | ⟨lq, us, vs, lm, rfl, sq⟩ <;>
      rw [sp, sq] at hs <;> dsimp only [Inp.apply] at hs
    · refine ⟨?_, fun _ _ h => absurd rfl h, fun _ h => absurd rfl h, fun h => absurd rfl h, fun h => absurd rfl h⟩
      intro p' q' e e'
      cases e
      cases e'
      exact ⟨_, hs, sep_angle _ _⟩
    · refine ⟨fun _ _ _ e => absurd (by rw [e]; rfl) lq, ?_, fun _ h => absurd rfl h, fun h => absurd rfl h, fun h => absurd rfl h⟩
      intro p' e _
      cases e
      exact ⟨_, hs, hmap _ _ _ fun a => sep_angle p a⟩
    · refine ⟨fun _ _ e => absurd (by rw [e]; rfl) lp, fun _ e => absurd (by rw [e]; rfl) lp, ?_, fun _ h => absurd rfl h, fun _ h => absurd rfl h⟩
      intro q' _ e
      cases e
      exact ⟨_, hs, hmap _ _ _ fun a => sep_angle a q⟩
    · have e1 : (xs.zip ys).length = xs.length := by rw [List.length_zip, ll, min_self]
      have e2 : (us.zip vs).length = us.length := by rw [List.length_zip, lm, min_self]
      refine ⟨fun _ _ e => absurd (by rw [e]; rfl) lp, fun _ e => absurd (by rw [e]; rfl) lp, fun _ _ e => absurd (by rw [e]; rfl) lq, ?_, ?_⟩
      · intro _ _ e
        rw [e1, e2] at e
        rw [if_neg (not_not.2 e)] at hs
        exact ⟨_, hs, hmap _ _ _ fun a => sep_angle a.1 a.2⟩
      · intro _ _ e
        rw [e1, e2] at e
        rw [if_pos e] at hs
        exact hs

/-- C229: in degrees, numbers and arrays go in and come out as they do in radians; lists of numbers may be given, too. -/
theorem C229_degrees (long1 lat1 long2 lat2 : List ℝ) (h1 : long1.length = lat1.length) (h2 : long2.length = lat2.length) (h : long1.length = long2.length) (hn : long1.length ≠ 1) :
    ∃ ts, separationDeg (.list long1) (.list lat1) (.arr long2) (.arr lat2) = .ok (.arr ts) ∧ ts.length = long1.length ∧
      ∀ (k : ℕ) x y u v t, long1[k]? = some x → lat1[k]? = some y → long2[k]? = some u → lat2[k]? = some v → ts[k]? = some t →
        AngleBetween (x * π / 180, y * π / 180) (u * π / 180, v * π / 180) (t * π / 180) := by
  have p1 : positions (.arr (long1.map fun x => x * π / 180)) (.arr (lat1.map fun x => x * π / 180))
      = some ((long1.map fun x => x * π / 180).zip (lat1.map fun x => x * π / 180)) := if_pos (by rw [List.length_map, List.length_map, h1])
  have p2 : positions (.arr (long2.map fun x => x * π / 180)) (.arr (lat2.map fun x => x * π / 180))
      = some ((long2.map fun x => x * π / 180).zip (lat2.map fun x => x * π / 180)) := if_pos (by rw [List.length_map, List.length_map, h2])
  have l1 : ((long1.map fun x => x * π / 180).zip (lat1.map fun x => x * π / 180)).length = long1.length := by simp [← h1]
  have l2 : ((long2.map fun x => x * π / 180).zip (lat2.map fun x => x * π / 180)).length = long1.length := by simp [← h2, h]
  obtain ⟨ts, hts, hf⟩ := ((C229_arrays _ _ _ _).2 _ _ p1 p2).2.2.2.1 (l1 ▸ hn) (l2 ▸ hn) (l1.trans l2.symm)
  refine ⟨ts.map fun x => x * 180 / π, ?_, ?_, ?_⟩
  · unfold separationDeg Inp.radians
    dsimp only
    rw [hts]
    rfl
  · rw [List.length_map, ← hf.length_eq, List.length_zip, l1, l2, min_self]
  · intro k x y u v t hx hy hu hv ht
    rw [List.getElem?_map] at ht
    obtain ⟨θ, hθ, rfl⟩ := Option.map_eq_some_iff.1 ht
    have e : θ * 180 / π * π / 180 = θ := by
      have := Real.pi_ne_zero
      field_simp
    rw [e]
    obtain ⟨hk, hk'⟩ := List.getElem?_eq_some_iff.1 hθ
    have hz := (List.forall₂_iff_get.1 hf).2 k (hf.length_eq ▸ hk) hk
    simp only [List.get_eq_getElem, List.getElem_zip, List.getElem_map] at hz
    obtain ⟨_, rfl⟩ := List.getElem?_eq_some_iff.1 hx
    obtain ⟨_, rfl⟩ := List.getElem?_eq_some_iff.1 hy
    obtain ⟨_, rfl⟩ := List.getElem?_eq_some_iff.1 hu
    obtain ⟨_, rfl⟩ := List.getElem?_eq_some_iff.1 hv
    rw [← hk']
    exact hz

/-- Non-vacuity: positions in arrays, one position, arrays of one element, and what is refused. -/
example : positions (.arr [0, 1]) (.arr [0, 0]) = some [(0, 0), (1, 0)] ∧ positions (.num 1) (.num 0) = some [(1, 0)] ∧
    positions (.arr [1]) (.arr [0]) = some [(1, 0)] ∧ positions (.arr [1, 2]) (.num 0) = none ∧ positions (.list [1]) (.list [0]) = none := by
  refine ⟨?_, ?_, ?_, ?_, ?_⟩ <;> simp [positions]

end Verif
