import Verif.Model.Zernike
import Verif.Lemmas.ZernikeRadial
import Mathlib.Tactic.NormNum

/-! C187 to C190: the Zernike polynomials. -/

namespace Verif

open Zern Finset

/-! ### C187 -/

/-- A table of factorials that a generator can hold. -/
def GoodFac (t : Fac) : Prop :=
  1 ≤ t.maxI ∧ (∀ k : ℕ, (k : ℤ) ≤ t.maxI → t.values.lookup (k : ℤ) = some (k.factorial : ℤ)) ∧
    ∀ k : ℤ, (k < 0 ∨ t.maxI < k) → t.values.lookup k = none

theorem goodFac_new : GoodFac {} := by
  refine ⟨le_refl _, ?_, ?_⟩
  · intro k hk
    have : k = 0 ∨ k = 1 := by
      have : (k : ℤ) ≤ 1 := hk
      omega
    rcases this with rfl | rfl <;> rfl
  · intro k hk
    have h1 : k ≠ 1 := by rintro rfl; rcases hk with h | h <;> revert h <;> decide
    have h0 : k ≠ 0 := by rintro rfl; rcases hk with h | h <;> revert h <;> decide
    simp [List.lookup, h1, h0, beq_eq_false_iff_ne.2 h1, beq_eq_false_iff_ne.2 h0]

theorem rangeInt_succ (a : ℤ) (d : ℕ) : rangeInt a (a + (d + 1 : ℕ)) = rangeInt a (a + d) ++ [a + d] := by
  unfold rangeInt
  rw [show (a + ((d + 1 : ℕ) : ℤ) - a).toNat = d + 1 by omega, show (a + (d : ℤ) - a).toNat = d by omega,
    List.range_succ, List.map_append]
  rfl

/-- Extending a table keeps it good. -/
theorem extend_good {t : Fac} (h : GoodFac t) {val : ℤ} (hv : t.values.lookup t.maxI = some val) (d : ℕ) :
    ((rangeInt t.maxI (t.maxI + d)).foldl Fac.extend (val, t.values)).1 = (((t.maxI + d).toNat).factorial : ℤ) ∧
      GoodFac ⟨((rangeInt t.maxI (t.maxI + d)).foldl Fac.extend (val, t.values)).2, t.maxI + d⟩ := by
  obtain ⟨h1, h2, h3⟩ := h
  induction d with
  | zero =>
    have hr : rangeInt t.maxI (t.maxI + (0 : ℕ)) = [] := by simp [rangeInt]
    rw [hr]
    have hm := h2 t.maxI.toNat (by omega)
    rw [show ((t.maxI.toNat : ℕ) : ℤ) = t.maxI by omega, hv] at hm
    refine ⟨?_, ?_⟩
    · simp only [List.foldl_nil, Nat.cast_zero, add_zero]
      exact Option.some.inj hm
    · simp only [List.foldl_nil, Nat.cast_zero, add_zero]
      exact ⟨h1, h2, h3⟩
  | succ d ih =>
    obtain ⟨i1, i2, i3, i4⟩ := ih
    rw [rangeInt_succ, List.foldl_append]
    set s := (rangeInt t.maxI (t.maxI + d)).foldl Fac.extend (val, t.values) with hs
    simp only [List.foldl_cons, List.foldl_nil, Fac.extend]
    have e : (t.maxI + ((d + 1 : ℕ) : ℤ)).toNat = (t.maxI + d).toNat + 1 := by omega
    have e2 : t.maxI + ((d + 1 : ℕ) : ℤ) = t.maxI + d + 1 := by push_cast; ring
    have hval : s.1 * (t.maxI + d + 1) = (((t.maxI + ((d + 1 : ℕ) : ℤ)).toNat).factorial : ℤ) := by
      rw [e, Nat.factorial_succ, i1, Nat.cast_mul, show (((t.maxI + d).toNat + 1 : ℕ) : ℤ) = t.maxI + d + 1 by omega]
      ring
    refine ⟨hval, ?_, ?_, ?_⟩
    · dsimp only; omega
    · intro k hk
      dsimp only at hk ⊢
      by_cases hkk : (k : ℤ) = t.maxI + d + 1
      · rw [hkk]
        simp only [List.lookup, beq_self_eq_true]
        rw [hval, e2, ← hkk]
        rfl
      · rw [List.lookup, beq_eq_false_iff_ne.2 hkk]
        exact i3 k (by dsimp only; omega)
    · intro k hk
      dsimp only at hk ⊢
      have hkk : k ≠ t.maxI + d + 1 := by omega
      rw [List.lookup, beq_eq_false_iff_ne.2 hkk]
      exact i4 k (by dsimp only; omega)

/-- What a good table answers. -/
theorem fac_evaluate {t : Fac} (h : GoodFac t) (k : ℕ) :
    ∃ t', t.evaluate (k : ℤ) = some ((k.factorial : ℤ), t') ∧ GoodFac t' := by
  unfold Fac.evaluate
  rw [if_neg (by omega)]
  by_cases hk : (k : ℤ) ≤ t.maxI
  · rw [h.2.1 k hk]
    exact ⟨t, rfl, h⟩
  · rw [h.2.2 k (Or.inr (by omega))]
    have hm := h.2.1 t.maxI.toNat (by have := h.1; omega)
    rw [show ((t.maxI.toNat : ℕ) : ℤ) = t.maxI by have := h.1; omega] at hm
    rw [hm]
    obtain ⟨g1, g2⟩ := extend_good h hm ((k : ℤ) - t.maxI).toNat
    have e : t.maxI + ((((k : ℤ) - t.maxI).toNat : ℕ) : ℤ) = k := by omega
    rw [e] at g1 g2
    dsimp only
    refine ⟨_, ?_, g2⟩
    have := g2.2.1 k (le_refl _)
    dsimp only at this
    rw [this]
    rfl

/-- The tables a factorial generator can come to hold, whatever it has been asked. -/
inductive FacReached : Fac → Prop
  | new : FacReached {}
  | asked {t t' : Fac} {num v : ℤ} : FacReached t → t.evaluate num = some (v, t') → FacReached t'

theorem facReached_good {t : Fac} (h : FacReached t) : GoodFac t := by
  induction h with
  | new => exact goodFac_new
  | @asked t t' num v _ he ih =>
    by_cases hn : num < 0
    · unfold Fac.evaluate at he
      rw [if_pos hn] at he
      exact absurd he (by simp)
    · obtain ⟨t'', h1, h2⟩ := fac_evaluate ih num.toNat
      rw [show ((num.toNat : ℕ) : ℤ) = num by omega, he] at h1
      obtain ⟨_, rfl⟩ := Prod.mk.inj (Option.some.inj h1)
      exact h2

/-- C187: whatever a factorial generator has been asked before, it answers with the factorial, and it
refuses exactly the negative numbers. -/
theorem C187_factorial {t : Fac} (h : FacReached t) (num : ℤ) :
    (t.evaluate num).map Prod.fst = if num < 0 then none else some ((num.toNat.factorial : ℕ) : ℤ) := by
  by_cases hn : num < 0
  · unfold Fac.evaluate
    rw [if_pos hn, if_pos hn]
    rfl
  · obtain ⟨t'', h1, _⟩ := fac_evaluate (facReached_good h) num.toNat
    rw [show ((num.toNat : ℕ) : ℤ) = num by omega] at h1
    rw [h1, if_neg hn]
    rfl

/-- Nine factorial, then fifteen, then three. -/
example : ((({} : Fac).evaluate 9).bind fun a => (a.2.evaluate 15).bind fun b => (b.2.evaluate 3).map fun c => (a.1, b.1, c.1))
    = some (362880, 1307674368000, 6) := by decide +kernel

/-- The coefficients of a radial polynomial, as in the definition cited. -/
def zernikeC (n m k : ℕ) : ℚ :=
  (-1) ^ k * (n - k).factorial / (k.factorial * ((n + m) / 2 - k).factorial * ((n - m) / 2 - k).factorial)

/-- The coefficients and powers that belong to a pair of orders. -/
def theCoeffs (n m : ℕ) : List ℚ := (List.range ((n - m) / 2 + 1)).map (zernikeC n m)

def thePowers (n m : ℕ) : List ℤ := (List.range ((n - m) / 2 + 1)).map fun k : ℕ => (n : ℤ) - 2 * (k : ℤ)

/-- The tables a generator can hold. -/
def GoodGen (g : Gen) : Prop :=
  GoodFac g.fac ∧ ∀ n m : ℕ, m ≤ n →
    (g.coeffs.lookup ((n : ℤ), (m : ℤ)) = none) ∨
    (g.coeffs.lookup ((n : ℤ), (m : ℤ)) = some (theCoeffs n m) ∧ g.powers.lookup ((n : ℤ), (m : ℤ)) = some (thePowers n m))

theorem goodGen_new : GoodGen {} := ⟨goodFac_new, fun _ _ _ => Or.inl rfl⟩

theorem sgn_pow (k : ℕ) : sgn (k : ℤ) = (-1) ^ k := by
  unfold sgn
  rcases Nat.even_or_odd k with h | h
  · rw [if_pos (by obtain ⟨j, rfl⟩ := h; omega), h.neg_one_pow]
  · rw [if_neg (by obtain ⟨j, rfl⟩ := h; omega), h.neg_one_pow]

theorem makeOne_good {t : Fac} (h : GoodFac t) {n m k : ℕ} (hmn : m ≤ n) (hk : k ≤ (n - m) / 2) (cs : List ℚ) (ps : List ℤ) :
    ∃ t', makeOne n m (t, cs, ps) (k : ℤ) = some (t', cs ++ [zernikeC n m k], ps ++ [(n : ℤ) - 2 * (k : ℤ)]) ∧ GoodFac t' := by
  have e1 : (n : ℤ) - k = ((n - k : ℕ) : ℤ) := by omega
  have e2 : ((n : ℤ) + m) / 2 - k = (((n + m) / 2 - k : ℕ) : ℤ) := by omega
  have e3 : ((n : ℤ) - m) / 2 - k = (((n - m) / 2 - k : ℕ) : ℤ) := by omega
  obtain ⟨t1, a1, g1⟩ := fac_evaluate h (n - k)
  obtain ⟨t2, a2, g2⟩ := fac_evaluate g1 k
  obtain ⟨t3, a3, g3⟩ := fac_evaluate g2 ((n + m) / 2 - k)
  obtain ⟨t4, a4, g4⟩ := fac_evaluate g3 ((n - m) / 2 - k)
  refine ⟨t4, ?_, g4⟩
  unfold makeOne
  rw [e1, e2, e3]
  simp only [a1, a2, a3, a4, Option.bind_some]
  unfold zernikeC
  rw [sgn_pow]
  push_cast
  rfl

theorem make_fold {t : Fac} (h : GoodFac t) {n m : ℕ} (hmn : m ≤ n) (K : ℕ) (hK : K ≤ (n - m) / 2 + 1) :
    ∃ t', (rangeInt 0 (K : ℤ)).foldlM (makeOne n m) (t, [], []) =
      some (t', (List.range K).map (zernikeC n m), (List.range K).map fun k : ℕ => (n : ℤ) - 2 * (k : ℤ)) ∧ GoodFac t' := by
  induction K with
  | zero => exact ⟨t, rfl, h⟩
  | succ K ih =>
    obtain ⟨t1, h1, g1⟩ := ih (by omega)
    obtain ⟨t2, h2, g2⟩ := makeOne_good g1 hmn (k := K) (by omega) ((List.range K).map (zernikeC n m)) ((List.range K).map fun k : ℕ => (n : ℤ) - 2 * (k : ℤ))
    have hr : rangeInt 0 ((K + 1 : ℕ) : ℤ) = rangeInt 0 (K : ℤ) ++ [(K : ℤ)] := by
      have := rangeInt_succ 0 K
      simpa using this
    refine ⟨t2, ?_, g2⟩
    rw [hr, List.foldlM_append, h1]
    simp only [List.foldlM_cons, List.foldlM_nil, List.range_succ, List.map_append, List.map_cons, List.map_nil]
    show ((makeOne n m (t1, _, _) (K : ℤ)).bind fun s => some s) = _
    rw [h2]
    rfl

theorem validate_nat {n m : ℕ} (h : m ≤ n) : validate (n : ℤ) (m : ℤ) = some ((n : ℤ), (m : ℤ)) := by
  unfold validate
  rw [if_neg (by omega), if_neg (by omega), if_neg (by omega)]

theorem make_good {g : Gen} (h : GoodGen g) {n m : ℕ} (hmn : m ≤ n) :
    ∃ t', make g n m = some ⟨t', (((n : ℤ), (m : ℤ)), theCoeffs n m) :: g.coeffs, (((n : ℤ), (m : ℤ)), thePowers n m) :: g.powers⟩ ∧ GoodFac t' := by
  obtain ⟨t', h1, h2⟩ := make_fold h.1 hmn ((n - m) / 2 + 1) (le_refl _)
  refine ⟨t', ?_, h2⟩
  unfold make
  rw [validate_nat hmn, Option.bind_some]
  dsimp only
  rw [show (1 : ℤ) + ((n : ℤ) - m) / 2 = (((n - m) / 2 + 1 : ℕ) : ℤ) by omega, h1]
  rfl

/-- What the tables give. -/
theorem tables_good {g : Gen} (h : GoodGen g) {n m : ℕ} (hmn : m ≤ n) :
    ∃ g', tables g ((n : ℤ), (m : ℤ)) = some (g', theCoeffs n m, thePowers n m) ∧ GoodGen g' := by
  unfold tables
  rcases h.2 n m hmn with h0 | ⟨h1, h2⟩
  · obtain ⟨t', h1, h2⟩ := make_good h hmn
    rw [h0]
    dsimp only
    rw [h1]
    simp only [Option.bind_some, List.lookup, beq_self_eq_true, Option.map_some]
    refine ⟨_, rfl, h2, ?_⟩
    intro n' m' hmn'
    dsimp only
    by_cases he : ((n' : ℤ), (m' : ℤ)) = ((n : ℤ), (m : ℤ))
    · right
      have h3 : n' = n := by have := (Prod.mk.inj he).1; omega
      have h4 : m' = m := by have := (Prod.mk.inj he).2; omega
      subst h3 h4
      simp [List.lookup]
    · rw [List.lookup, beq_eq_false_iff_ne.2 he, List.lookup, beq_eq_false_iff_ne.2 he]
      rcases h.2 n' m' hmn' with h5 | h5
      · exact Or.inl h5
      · exact Or.inr h5
  · rw [h1]
    simp only [Option.bind_some, h1, h2, Option.map_some]
    exact ⟨g, rfl, h⟩

/-- The generators that can come about: new ones, and those that calls give back. -/
inductive Reached : Gen → Prop
  | new : Reached {}
  | number {g g' : Gen} {r phi : ℝ} {n m : ℤ} {v : Option ℝ} : Reached g → evaluate g r phi n m = some (v, g') → Reached g'
  | array {g g' : Gen} {pts : List (ℝ × ℝ)} {n m : ℤ} {v : List (Option ℝ)} :
      Reached g → evaluateArray g pts n m = some (v, g') → Reached g'
  | xy {g g' : Gen} {x y : ℝ} {n m : ℤ} {v : Option ℝ} : Reached g → evaluateXY g x y n m = some (v, g') → Reached g'
  | xyArray {g g' : Gen} {pts : List (ℝ × ℝ)} {n m : ℤ} {v : List (Option ℝ)} :
      Reached g → evaluateXYArray g pts n m = some (v, g') → Reached g'

theorem validate_some {n m : ℤ} {q : ℤ × ℤ} (h : validate n m = some q) :
    ∃ a b : ℕ, n = a ∧ m = b ∧ b ≤ a ∧ q = ((a : ℤ), (b : ℤ)) := by
  unfold validate at h
  split_ifs at h with h1 h2 h3
  refine ⟨n.toNat, m.toNat, by omega, by omega, by omega, ?_⟩
  rw [← Option.some.inj h]
  ext <;> dsimp only <;> omega

theorem radial_good {g g' : Gen} (h : GoodGen g) {r : ℝ} {n m : ℤ} {v : Option ℝ} (he : radial g r n m = some (v, g')) : GoodGen g' := by
  unfold radial at he
  cases hv : validate n m with
  | none => rw [hv] at he; exact absurd he (by simp)
  | some q =>
    obtain ⟨a, b, rfl, rfl, hab, rfl⟩ := validate_some hv
    rw [hv, Option.bind_some] at he
    dsimp only at he
    split_ifs at he
    · rw [← (Prod.mk.inj (Option.some.inj he)).2]
      exact h
    · obtain ⟨g1, h1, h2⟩ := tables_good h hab
      rw [h1] at he
      rw [← (Prod.mk.inj (Option.some.inj he)).2]
      exact h2

theorem radialArray_good {g g' : Gen} (h : GoodGen g) {rs : List ℝ} {n m : ℤ} {v : List (Option ℝ)}
    (he : radialArray g rs n m = some (v, g')) : GoodGen g' := by
  unfold radialArray at he
  cases hv : validate n m with
  | none => rw [hv] at he; exact absurd he (by simp)
  | some q =>
    obtain ⟨a, b, rfl, rfl, hab, rfl⟩ := validate_some hv
    rw [hv, Option.bind_some] at he
    dsimp only at he
    split_ifs at he
    · rw [← (Prod.mk.inj (Option.some.inj he)).2]
      exact h
    · obtain ⟨g1, h1, h2⟩ := tables_good h hab
      rw [h1] at he
      rw [← (Prod.mk.inj (Option.some.inj he)).2]
      exact h2

theorem evaluate_good {g g' : Gen} (h : GoodGen g) {r phi : ℝ} {n m : ℤ} {v : Option ℝ} (he : evaluate g r phi n m = some (v, g')) : GoodGen g' := by
  unfold evaluate at he
  obtain ⟨q, h1, h2⟩ := Option.map_eq_some_iff.1 he
  rw [← (Prod.mk.inj h2).2]
  exact radial_good h (v := q.1) h1

theorem evaluateArray_good {g g' : Gen} (h : GoodGen g) {pts : List (ℝ × ℝ)} {n m : ℤ} {v : List (Option ℝ)}
    (he : evaluateArray g pts n m = some (v, g')) : GoodGen g' := by
  unfold evaluateArray at he
  obtain ⟨q, h1, h2⟩ := Option.map_eq_some_iff.1 he
  rw [← (Prod.mk.inj h2).2]
  exact radialArray_good h (v := q.1) h1

theorem reached_good {g : Gen} (h : Reached g) : GoodGen g := by
  induction h with
  | new => exact goodGen_new
  | number _ he ih => exact evaluate_good ih he
  | array _ he ih => exact evaluateArray_good ih he
  | xy _ he ih => exact evaluate_good ih he
  | xyArray _ he ih => exact evaluateArray_good ih he

theorem radial_value {g : Gen} (h : GoodGen g) (r : ℝ) (n m : ℤ) :
    (radial g r n m).map Prod.fst = (radial {} r n m).map Prod.fst := by
  unfold radial
  cases hv : validate n m with
  | none => rfl
  | some q =>
    obtain ⟨a, b, rfl, rfl, hab, rfl⟩ := validate_some hv
    simp only [Option.bind_some]
    split_ifs
    · rfl
    · obtain ⟨g1, h1, _⟩ := tables_good h hab
      obtain ⟨g2, h2, _⟩ := tables_good goodGen_new hab
      rw [h1, h2]
      rfl

theorem radialArray_value {g : Gen} (h : GoodGen g) (rs : List ℝ) (n m : ℤ) :
    (radialArray g rs n m).map Prod.fst = (radialArray {} rs n m).map Prod.fst := by
  unfold radialArray
  cases hv : validate n m with
  | none => rfl
  | some q =>
    obtain ⟨a, b, rfl, rfl, hab, rfl⟩ := validate_some hv
    simp only [Option.bind_some]
    split_ifs
    · rfl
    · obtain ⟨g1, h1, _⟩ := tables_good h hab
      obtain ⟨g2, h2, _⟩ := tables_good goodGen_new hab
      rw [h1, h2]
      rfl

/-- C187: what a generator of polynomials answers does not depend on what it was asked before: a
new generator answers the same. -/
theorem C187_history {g : Gen} (h : Reached g) (r phi : ℝ) (pts : List (ℝ × ℝ)) (n m : ℤ) :
    (evaluate g r phi n m).map Prod.fst = (evaluate {} r phi n m).map Prod.fst ∧
    (evaluateArray g pts n m).map Prod.fst = (evaluateArray {} pts n m).map Prod.fst := by
  have hg := reached_good h
  refine ⟨?_, ?_⟩
  · have := radial_value hg r n |m|
    unfold evaluate
    rw [Option.map_map, Option.map_map]
    have e : ∀ o : Option (Option ℝ × Gen), o.map (Prod.fst ∘ fun v => (v.1.map (· * angular m phi), v.2)) = (o.map Prod.fst).map (fun v => v.map (· * angular m phi)) := by
      intro o; cases o <;> rfl
    rw [e, e, this]
  · have := radialArray_value hg (pts.map Prod.fst) n |m|
    unfold evaluateArray
    rw [Option.map_map, Option.map_map]
    have e : ∀ o : Option (List (Option ℝ) × Gen), o.map (Prod.fst ∘ fun v => (List.zipWith (fun x p => x.map (· * angular m p.2)) v.1 pts, v.2)) = (o.map Prod.fst).map (fun v => List.zipWith (fun x p => x.map (· * angular m p.2)) v pts) := by
      intro o; cases o <;> rfl
    rw [e, e, this]

/-- The tables after the polynomial of orders four and two. -/
example : (make {} 4 2).map (fun g => (g.coeffs, g.powers)) = some ([((4, 2), [4, -3])], [((4, 2), [4, 2])]) := by decide +kernel

/-! ### C188 -/

/-- The radial polynomials of the definition cited, https://en.wikipedia.org/wiki/Zernike_polynomials. -/
noncomputable def zernikeR (n m : ℕ) (r : ℝ) : ℝ :=
  if (n - m) % 2 = 1 then 0
  else ∑ k ∈ range ((n - m) / 2 + 1),
    (-1) ^ k * (n - k).factorial / (k.factorial * ((n + m) / 2 - k).factorial * ((n - m) / 2 - k).factorial) * r ^ (n - 2 * k)

/-- The even polynomials (`m` not negative) and the odd ones (`m` negative) of the definition cited. -/
noncomputable def zernike (n : ℕ) (m : ℤ) (r phi : ℝ) : ℝ :=
  zernikeR n m.natAbs r * (if 0 ≤ m then Real.cos (m.natAbs * phi) else Real.sin (m.natAbs * phi))

theorem radialSum_eq {n m : ℕ} (h : (n - m) % 2 = 0) (r : ℝ) : radialSum (theCoeffs n m) (thePowers n m) r = zernikeR n m r := by
  unfold radialSum theCoeffs thePowers zernikeR
  rw [if_neg (by omega), List.zipWith_map, List.zipWith_self, ← List.sum_toFinset _ List.nodup_range, List.toFinset_range]
  apply Finset.sum_congr rfl
  intro k hk
  have hk' : k < (n - m) / 2 + 1 := by simpa using hk
  unfold zernikeC
  rw [show (n : ℤ) - 2 * (k : ℤ) = ((n - 2 * k : ℕ) : ℤ) by omega, zpow_natCast]
  push_cast
  rfl

theorem radial_eq {g : Gen} (h : GoodGen g) {n m : ℕ} (hmn : m ≤ n) (r : ℝ) :
    (radial g r n m).map Prod.fst = some (if 1 < r ∧ (n - m) % 2 = 0 then none else some (zernikeR n m r)) := by
  unfold radial
  rw [validate_nat hmn, Option.bind_some]
  dsimp only
  by_cases hp : (n - m) % 2 = 1
  · rw [if_pos (by omega), if_neg (by omega)]
    unfold zernikeR
    rw [if_pos hp]
    rfl
  · have hp' : (n - m) % 2 = 0 := by omega
    rw [if_neg (by omega)]
    obtain ⟨g', h1, _⟩ := tables_good h hmn
    rw [h1, Option.map_some, Option.map_some]
    dsimp only
    unfold radialNumber
    rw [radialSum_eq hp']
    simp [hp']

theorem evaluate_eq {g : Gen} (h : GoodGen g) {n : ℕ} {m : ℤ} (hmn : m.natAbs ≤ n) (r phi : ℝ) :
    (evaluate g r phi n m).map Prod.fst =
      some (if 1 < r ∧ (n - m.natAbs) % 2 = 0 then none else some (zernikeR n m.natAbs r * angular m phi)) := by
  have h1 := radial_eq h hmn r
  unfold evaluate
  rw [← Int.natCast_natAbs m]
  cases hr : radial g r n (m.natAbs : ℤ) with
  | none => rw [hr] at h1; exact absurd h1 (by simp)
  | some q =>
    rw [hr] at h1
    simp only [Option.map_some, Option.some.injEq] at h1 ⊢
    rw [h1]
    split_ifs <;> rfl

/-- C188: exactly the pairs of orders that belong to no polynomial are refused. -/
theorem C188_refused {g : Gen} (h : Reached g) (r phi : ℝ) (n m : ℤ) :
    evaluate g r phi n m = none ↔ n < 0 ∨ n < |m| := by
  constructor
  · intro he
    by_contra hc
    push Not at hc
    have := evaluate_eq (reached_good h) (n := n.toNat) (m := m) (by have := Int.natCast_natAbs m; omega) r phi
    rw [show ((n.toNat : ℕ) : ℤ) = n by omega, he] at this
    exact absurd this (by simp)
  · intro hc
    unfold evaluate radial validate
    rcases hc with h1 | h1
    · rw [if_pos h1]; rfl
    · by_cases h2 : n < 0
      · rw [if_pos h2]; rfl
      · rw [if_neg h2, if_neg (by have := abs_nonneg m; omega), if_pos h1]; rfl

/-- C188, the part that holds: inside the unit disc and on its rim the values of the polynomials with
`m` not negative are those of the definition cited.  Missing: for a negative `m` the sign is the
other one. -/
theorem C188_definition_partial {g : Gen} (h : Reached g) {n : ℕ} {m : ℤ} (hm : 0 ≤ m) (hmn : m.natAbs ≤ n) {r : ℝ} (hr : r ≤ 1) (phi : ℝ) :
    (evaluate g r phi n m).map Prod.fst = some (some (zernike n m r phi)) := by
  rw [evaluate_eq (reached_good h) hmn, if_neg (by rintro ⟨h1, _⟩; linarith)]
  unfold zernike angular
  rw [if_pos hm, if_pos hm]
  have : ((m : ℤ) : ℝ) = (m.natAbs : ℝ) := by
    rw [Nat.cast_natAbs, abs_of_nonneg hm]
  rw [this]

/-- For a negative `m` the values are those of the definition cited with the sign changed. -/
theorem C188_negative {g : Gen} (h : Reached g) {n : ℕ} {m : ℤ} (hm : m < 0) (hmn : m.natAbs ≤ n) {r : ℝ} (hr : r ≤ 1) (phi : ℝ) :
    (evaluate g r phi n m).map Prod.fst = some (some (-zernike n m r phi)) := by
  rw [evaluate_eq (reached_good h) hmn, if_neg (by rintro ⟨h1, _⟩; linarith)]
  unfold zernike angular
  rw [if_neg (by omega), if_neg (by omega)]
  have : ((m : ℤ) : ℝ) = -(m.natAbs : ℝ) := by
    rw [Nat.cast_natAbs, abs_of_neg hm]; simp
  rw [this, neg_mul, Real.sin_neg, mul_neg]

theorem zernikeR_one (r : ℝ) : zernikeR 1 1 r = r := by
  unfold zernikeR
  norm_num

theorem zernikeR_zero (r : ℝ) : zernikeR 0 0 r = 1 := by
  unfold zernikeR
  norm_num

/-- C188 is violated: the first odd polynomial has the wrong sign. -/
theorem C188_sign_violated :
    (evaluate {} 1 (Real.pi / 2) (1 : ℕ) (-1)).map Prod.fst = some (some (-1)) ∧ zernike 1 (-1) 1 (Real.pi / 2) = 1 := by
  have e : zernike 1 (-1) 1 (Real.pi / 2) = 1 := by
    unfold zernike
    rw [if_neg (by decide)]
    simp [zernikeR_one]
  refine ⟨?_, e⟩
  rw [C188_negative Reached.new (by decide) (by decide) (le_refl _), e]

theorem zernikeC_radialC (p m k : ℕ) (hk : k ≤ p) : (zernikeC (m + 2 * p) m k : ℝ) = radialC p m k := by
  unfold zernikeC radialC
  have e1 : (m + 2 * p + m) / 2 - k = m + p - k := by omega
  have e2 : (m + 2 * p - m) / 2 - k = p - k := by omega
  rw [e1, e2]
  have h1 := Nat.choose_mul_factorial_mul_factorial hk
  have h2 := Nat.choose_mul_factorial_mul_factorial (show p ≤ m + 2 * p - k by omega)
  rw [show m + 2 * p - k - p = m + p - k by omega] at h2
  have h1' : (p.choose k : ℝ) * k.factorial * (p - k).factorial = p.factorial := by exact_mod_cast h1
  have h2' : ((m + 2 * p - k).choose p : ℝ) * p.factorial * (m + p - k).factorial = (m + 2 * p - k).factorial := by exact_mod_cast h2
  have f1 : (k.factorial : ℝ) ≠ 0 := by exact_mod_cast Nat.factorial_ne_zero _
  have f2 : ((p - k).factorial : ℝ) ≠ 0 := by exact_mod_cast Nat.factorial_ne_zero _
  have f3 : ((m + p - k).factorial : ℝ) ≠ 0 := by exact_mod_cast Nat.factorial_ne_zero _
  have f4 : (p.factorial : ℝ) ≠ 0 := by exact_mod_cast Nat.factorial_ne_zero _
  push_cast
  rw [← h2', ← h1']
  field_simp

theorem zernikeR_radial (p m : ℕ) (r : ℝ) : zernikeR (m + 2 * p) m r = ∑ k ∈ range (p + 1), radialC p m k * r ^ (m + 2 * (p - k)) := by
  unfold zernikeR
  rw [if_neg (by omega), show (m + 2 * p - m) / 2 = p by omega]
  apply Finset.sum_congr rfl
  intro k hk
  have hk' : k ≤ p := by simpa [Nat.lt_succ_iff] using hk
  rw [← zernikeC_radialC p m k hk', show m + 2 * p - 2 * k = m + 2 * (p - k) by omega]
  unfold zernikeC
  rw [show (m + 2 * p - m) / 2 - k = p - k by omega]
  push_cast
  rfl

/-- C188: every even polynomial that is not nothing has the value one at the rim of the disc, in the
direction the angles are counted from. -/
theorem C188_rim {g : Gen} (h : Reached g) {n m : ℕ} (hmn : m ≤ n) (hp : (n - m) % 2 = 0) :
    (evaluate g 1 0 n m).map Prod.fst = some (some 1) := by
  rw [C188_definition_partial h (by omega) (by simpa using hmn) (le_refl _)]
  unfold zernike
  rw [if_pos (by omega), mul_zero, Real.cos_zero, mul_one, Int.natAbs_natCast]
  obtain ⟨p, rfl⟩ : ∃ p, n = m + 2 * p := ⟨(n - m) / 2, by omega⟩
  rw [zernikeR_radial]
  simp only [one_pow, mul_one]
  rw [radial_rim]

/-- The sum of five numbers that is one: the polynomial of order eight. -/
example : (List.range 5).map (zernikeC 8 0) = [70, -140, 90, -20, 1] := by decide +kernel

/-- C188, the part that holds: outside the disc the polynomials that are not nothing have no value.
Missing: those that are nothing keep their value there. -/
theorem C188_outside_partial {g : Gen} (h : Reached g) {n : ℕ} {m : ℤ} (hmn : m.natAbs ≤ n) (hp : (n - m.natAbs) % 2 = 0) {r : ℝ} (hr : 1 < r) (phi : ℝ) :
    (evaluate g r phi n m).map Prod.fst = some none := by
  rw [evaluate_eq (reached_good h) hmn, if_pos ⟨hr, hp⟩]

/-- C188 is violated: a value outside the disc. -/
theorem C188_outside_violated : (evaluate {} 2 0 (1 : ℕ) 0).map Prod.fst = some (some 0) := by
  rw [evaluate_eq goodGen_new (by decide), if_neg (by rintro ⟨_, h⟩; revert h; decide)]
  unfold zernikeR
  norm_num

theorem expPower_eq {r : ℝ} (h0 : 0 ≤ r) (p : ℤ) (hp : 0 ≤ p) : expPower r p = r ^ p := by
  unfold expPower
  rcases h0.eq_or_lt with rfl | h
  · rw [if_neg (lt_irrefl _)]
    split_ifs with h1
    · rw [h1, zpow_zero]
    · rw [zero_zpow _ h1]
  · rw [if_pos h, ← Real.rpow_intCast, Real.rpow_def_of_pos h]

theorem radialElement_eq {n m : ℕ} (hmn : m ≤ n) (he : (n - m) % 2 = 0) {r : ℝ} (h0 : 0 ≤ r) (h1 : r < 1) :
    radialElement (theCoeffs n m) (thePowers n m) r = some (zernikeR n m r) := by
  unfold radialElement
  rw [if_pos h1, ← radialSum_eq he]
  unfold radialSum theCoeffs thePowers
  rw [List.zipWith_map, List.zipWith_map, List.zipWith_self, List.zipWith_self]
  congr 2
  apply List.map_congr_left
  intro k hk
  have hk' : k < (n - m) / 2 + 1 := by simpa using hk
  rw [expPower_eq h0 _ (by omega), mul_comm]

/-- C188, the part that holds: for points inside the disc, arrays have the values of their points one
by one.  Missing: the points on the rim. -/
theorem C188_array_partial {g : Gen} (h : Reached g) {n : ℕ} {m : ℤ} (hmn : m.natAbs ≤ n) {pts : List (ℝ × ℝ)}
    (hpts : ∀ p ∈ pts, 0 ≤ p.1 ∧ p.1 < 1) :
    (evaluateArray g pts n m).map Prod.fst = pts.mapM fun p => (evaluate g p.1 p.2 n m).map Prod.fst := by
  have hg := reached_good h
  have hr : pts.mapM (fun p => (evaluate g p.1 p.2 n m).map Prod.fst)
      = some (pts.map fun p => some (zernikeR n m.natAbs p.1 * angular m p.2)) := by
    clear h
    induction pts with
    | nil => rfl
    | cons p l ih =>
      rw [List.mapM_cons, ih fun q hq => hpts q (List.mem_cons_of_mem _ hq), evaluate_eq hg hmn,
        if_neg (by rintro ⟨h1, _⟩; have := (hpts p (List.mem_cons_self ..)).2; linarith)]
      rfl
  rw [hr]
  unfold evaluateArray radialArray
  rw [← Int.natCast_natAbs m, validate_nat hmn, Option.bind_some]
  dsimp only
  by_cases hp : (n - m.natAbs) % 2 = 1
  · rw [if_pos (by omega)]
    simp only [Option.map_some, List.map_map]
    rw [List.zipWith_map_left, List.zipWith_self]
    congr 1
    apply List.map_congr_left
    intro p _
    unfold zernikeR
    rw [if_pos hp]
    rfl
  · obtain ⟨g', h1, _⟩ := tables_good hg hmn
    rw [if_neg (by omega), h1]
    simp only [Option.map_some, List.map_map]
    rw [List.zipWith_map_left, List.zipWith_self]
    congr 1
    apply List.map_congr_left
    intro p hpp
    show Option.map _ (radialElement _ _ _) = _
    rw [radialElement_eq hmn (by omega) (hpts p hpp).1 (hpts p hpp).2]
    rfl

/-- C188 is violated: on the rim an array has no value where the number has one. -/
theorem C188_array_violated :
    (evaluateArray {} [(1, 0)] (0 : ℕ) 0).map Prod.fst = some [none] ∧ (evaluate {} 1 0 (0 : ℕ) 0).map Prod.fst = some (some 1) := by
  refine ⟨?_, ?_⟩
  · unfold evaluateArray radialArray
    rw [show |(0 : ℤ)| = ((0 : ℕ) : ℤ) by decide, validate_nat (le_refl 0), Option.bind_some]
    obtain ⟨g', h1, _⟩ := tables_good goodGen_new (le_refl 0)
    dsimp only
    rw [if_neg (by decide), h1]
    simp [radialElement]
  · exact C188_rim Reached.new (le_refl 0) rfl

/-! ### C189 -/

theorem radial_integral_le {p q m : ℕ} (h : q ≤ p) :
    ∫ r in (0 : ℝ)..1, zernikeR (m + 2 * p) m r * zernikeR (m + 2 * q) m r * r = if p = q then 1 / (2 * ((m : ℝ) + 2 * p + 1)) else 0 := by
  have e : ∀ r : ℝ, zernikeR (m + 2 * p) m r * zernikeR (m + 2 * q) m r * r
      = ∑ l ∈ range (q + 1), ∑ k ∈ range (p + 1), radialC p m k * radialC q m l * r ^ (m + 2 * (p - k) + (m + 2 * (q - l)) + 1) := by
    intro r
    rw [zernikeR_radial, zernikeR_radial, mul_comm (∑ k ∈ range (p + 1), _), Finset.sum_mul_sum, Finset.sum_mul]
    refine Finset.sum_congr rfl fun l _ => ?_
    rw [Finset.sum_mul]
    refine Finset.sum_congr rfl fun k _ => ?_
    rw [pow_succ, pow_add]; ring
  simp only [e]
  rw [intervalIntegral.integral_finset_sum fun l _ => Continuous.intervalIntegrable (by fun_prop) _ _]
  have inner : ∀ l ∈ range (q + 1), ∫ r in (0 : ℝ)..1, ∑ k ∈ range (p + 1), radialC p m k * radialC q m l * r ^ (m + 2 * (p - k) + (m + 2 * (q - l)) + 1)
      = radialC q m l * (1 / 2) * ∑ k ∈ range (p + 1), radialC p m k / ((m : ℝ) + p - k + (q - l : ℕ) + 1) := by
    intro l hl
    rw [intervalIntegral.integral_finset_sum fun k _ => Continuous.intervalIntegrable (by fun_prop) _ _, Finset.mul_sum]
    refine Finset.sum_congr rfl fun k hk => ?_
    have hk' : k ≤ p := by simpa [Nat.lt_succ_iff] using hk
    rw [intervalIntegral.integral_const_mul, integral_pow]
    have hd : (((m + 2 * (p - k) + (m + 2 * (q - l)) + 1 : ℕ) : ℝ) + 1) = 2 * ((m : ℝ) + p - k + (q - l : ℕ) + 1) := by
      push_cast [Nat.cast_sub hk']
      ring
    rw [hd, one_pow, zero_pow (by omega), sub_zero]
    field_simp
  rw [Finset.sum_congr rfl inner]
  rw [Finset.sum_range_succ']
  have hz : ∀ l ∈ range q, radialC q m (l + 1) * (1 / 2) * ∑ k ∈ range (p + 1), radialC p m k / ((m : ℝ) + p - k + (q - (l + 1) : ℕ) + 1) = 0 := by
    intro l hl
    have hl' : l < q := by simpa using hl
    rw [radial_moment (show q - (l + 1) < p by omega), mul_zero]
  rw [Finset.sum_eq_zero hz, zero_add, Nat.sub_zero]
  split_ifs with hpq
  · subst hpq
    rw [radial_moment_top]
    have hc : radialC p m 0 = ((m + 2 * p).choose p : ℝ) := by simp [radialC]
    have h2 := Nat.choose_mul_factorial_mul_factorial (show p ≤ m + 2 * p by omega)
    rw [show m + 2 * p - p = m + p by omega] at h2
    have h2' : ((m + 2 * p).choose p : ℝ) * p.factorial * (m + p).factorial = (m + 2 * p).factorial := by exact_mod_cast h2
    have f1 : ((m + 2 * p).factorial : ℝ) ≠ 0 := by exact_mod_cast Nat.factorial_ne_zero _
    have f2 : (m : ℝ) + 2 * p + 1 ≠ 0 := by positivity
    rw [hc, Nat.factorial_succ]
    push_cast
    field_simp
    linear_combination h2'
  · rw [radial_moment (show q < p by omega), mul_zero]

theorem radial_integral (p q m : ℕ) :
    ∫ r in (0 : ℝ)..1, zernikeR (m + 2 * p) m r * zernikeR (m + 2 * q) m r * r = if p = q then 1 / (2 * ((m : ℝ) + 2 * p + 1)) else 0 := by
  rcases le_total q p with h | h
  · exact radial_integral_le h
  · have := radial_integral_le (m := m) h
    simp only [mul_comm (zernikeR (m + 2 * q) m _)] at this
    rw [this]
    by_cases hpq : p = q
    · subst hpq; rfl
    · rw [if_neg hpq, if_neg (Ne.symm hpq)]

theorem turn_cos (k : ℤ) : ∫ x in (0 : ℝ)..2 * Real.pi, Real.cos (k * x) = if k = 0 then 2 * Real.pi else 0 := by
  split_ifs with h
  · subst h; simp
  · have hk : (k : ℝ) ≠ 0 := by exact_mod_cast h
    rw [intervalIntegral.integral_comp_mul_left (fun x => Real.cos x) hk, integral_cos, mul_zero, Real.sin_zero,
      show (k : ℝ) * (2 * Real.pi) = ((2 * k : ℤ) : ℝ) * Real.pi by push_cast; ring, Real.sin_int_mul_pi]
    simp

theorem turn_sin (k : ℤ) : ∫ x in (0 : ℝ)..2 * Real.pi, Real.sin (k * x) = 0 := by
  by_cases h : k = 0
  · subst h; simp
  · have hk : (k : ℝ) ≠ 0 := by exact_mod_cast h
    rw [intervalIntegral.integral_comp_mul_left (fun x => Real.sin x) hk, integral_sin, mul_zero, Real.cos_zero,
      Real.cos_int_mul_two_pi]
    simp

theorem angular_integral (m m' : ℤ) :
    ∫ x in (0 : ℝ)..2 * Real.pi, angular m x * angular m' x = if m = m' then (if m = 0 then 2 * Real.pi else Real.pi) else 0 := by
  have ic : ∀ k : ℤ, IntervalIntegrable (fun x : ℝ => Real.cos (k * x)) MeasureTheory.volume 0 (2 * Real.pi) :=
    fun k => Continuous.intervalIntegrable (by fun_prop) _ _
  have is : ∀ k : ℤ, IntervalIntegrable (fun x : ℝ => Real.sin (k * x)) MeasureTheory.volume 0 (2 * Real.pi) :=
    fun k => Continuous.intervalIntegrable (by fun_prop) _ _
  unfold angular
  by_cases h1 : 0 ≤ m <;> by_cases h2 : 0 ≤ m'
  · simp only [if_pos h1, if_pos h2]
    have e : ∀ x : ℝ, Real.cos (m * x) * Real.cos (m' * x) = (1 / 2) * (Real.cos ((m - m' : ℤ) * x) + Real.cos ((m + m' : ℤ) * x)) := by
      intro x
      push_cast
      rw [sub_mul, add_mul, Real.cos_sub, Real.cos_add]; ring
    simp only [e]
    rw [intervalIntegral.integral_const_mul, intervalIntegral.integral_add (ic _) (ic _), turn_cos, turn_cos]
    by_cases hm : m = m'
    · subst hm
      rw [if_pos (by omega), if_pos rfl]
      by_cases h0 : m = 0
      · rw [if_pos (by omega), if_pos h0]; ring
      · rw [if_neg (by omega), if_neg h0]; ring
    · rw [if_neg (by omega), if_neg (by omega), if_neg hm]; ring
  · simp only [if_pos h1, if_neg h2]
    have e : ∀ x : ℝ, Real.cos (m * x) * Real.sin (m' * x) = (1 / 2) * (Real.sin ((m + m' : ℤ) * x) - Real.sin ((m - m' : ℤ) * x)) := by
      intro x
      push_cast
      rw [sub_mul, add_mul, Real.sin_sub, Real.sin_add]; ring
    simp only [e]
    rw [intervalIntegral.integral_const_mul, intervalIntegral.integral_sub (is _) (is _), turn_sin, turn_sin, if_neg (by omega)]
    ring
  · simp only [if_neg h1, if_pos h2]
    have e : ∀ x : ℝ, Real.sin (m * x) * Real.cos (m' * x) = (1 / 2) * (Real.sin ((m + m' : ℤ) * x) + Real.sin ((m - m' : ℤ) * x)) := by
      intro x
      push_cast
      rw [sub_mul, add_mul, Real.sin_sub, Real.sin_add]; ring
    simp only [e]
    rw [intervalIntegral.integral_const_mul, intervalIntegral.integral_add (is _) (is _), turn_sin, turn_sin, if_neg (by omega)]
    ring
  · simp only [if_neg h1, if_neg h2]
    have e : ∀ x : ℝ, Real.sin (m * x) * Real.sin (m' * x) = (1 / 2) * (Real.cos ((m - m' : ℤ) * x) - Real.cos ((m + m' : ℤ) * x)) := by
      intro x
      push_cast
      rw [sub_mul, add_mul, Real.cos_sub, Real.cos_add]; ring
    simp only [e]
    rw [intervalIntegral.integral_const_mul, intervalIntegral.integral_sub (ic _) (ic _), turn_cos, turn_cos]
    by_cases hm : m = m'
    · subst hm
      rw [if_pos (by omega), if_neg (by omega), if_pos rfl, if_neg (by omega)]; ring
    · rw [if_neg (by omega), if_neg (by omega), if_neg hm]; ring

/-- The number a generator gives at a point of the disc. -/
noncomputable def discValue (g : Gen) (n m : ℤ) (r phi : ℝ) : ℝ :=
  match evaluate g r phi n m with
  | some (some v, _) => v
  | _ => 0

theorem discValue_eq {g : Gen} (h : GoodGen g) {n : ℕ} {m : ℤ} (hmn : m.natAbs ≤ n) {r : ℝ} (hr : r ≤ 1) (phi : ℝ) :
    discValue g n m r phi = zernikeR n m.natAbs r * angular m phi := by
  have := evaluate_eq h hmn r phi
  rw [if_neg (by rintro ⟨h1, _⟩; linarith)] at this
  unfold discValue
  cases he : evaluate g r phi n m with
  | none => rw [he] at this; exact absurd this (by simp)
  | some q =>
    obtain ⟨v, g'⟩ := q
    rw [he] at this
    simp only [Option.map_some, Option.some.injEq] at this
    rw [this]

/-- The integral of a function over the unit disc, in polar coordinates. -/
noncomputable def discIntegral (f : ℝ → ℝ → ℝ) : ℝ := ∫ phi in (0 : ℝ)..2 * Real.pi, ∫ r in (0 : ℝ)..1, f r phi * r

theorem disc_product {g g' : Gen} (h : GoodGen g) (h' : GoodGen g') {n n' : ℕ} {m m' : ℤ} (hmn : m.natAbs ≤ n) (hmn' : m'.natAbs ≤ n') :
    discIntegral (fun r phi => discValue g n m r phi * discValue g' n' m' r phi)
      = (∫ r in (0 : ℝ)..1, zernikeR n m.natAbs r * zernikeR n' m'.natAbs r * r) * ∫ phi in (0 : ℝ)..2 * Real.pi, angular m phi * angular m' phi := by
  unfold discIntegral
  rw [← intervalIntegral.integral_const_mul]
  apply intervalIntegral.integral_congr
  intro phi _
  dsimp only
  rw [mul_comm, ← intervalIntegral.integral_const_mul]
  apply intervalIntegral.integral_congr
  intro r hr
  rw [Set.uIcc_of_le zero_le_one] at hr
  dsimp only
  rw [discValue_eq h hmn hr.2, discValue_eq h' hmn' hr.2]
  ring

/-- C189: two different polynomials are orthogonal on the disc. -/
theorem C189_orthogonal {g g' : Gen} (h : Reached g) (h' : Reached g') {n n' : ℕ} {m m' : ℤ} (hmn : m.natAbs ≤ n) (hmn' : m'.natAbs ≤ n')
    (hne : (n, m) ≠ (n', m')) : discIntegral (fun r phi => discValue g n m r phi * discValue g' n' m' r phi) = 0 := by
  rw [disc_product (reached_good h) (reached_good h') hmn hmn', angular_integral]
  by_cases hm : m = m'
  · subst hm
    have hn : n ≠ n' := fun e => hne (by rw [e])
    have hz : ∫ r in (0 : ℝ)..1, zernikeR n m.natAbs r * zernikeR n' m.natAbs r * r = 0 := by
      by_cases h1 : (n - m.natAbs) % 2 = 1
      · simp [zernikeR, h1]
      · by_cases h2 : (n' - m.natAbs) % 2 = 1
        · simp [zernikeR, h2]
        · obtain ⟨p, hp⟩ : ∃ p, n = m.natAbs + 2 * p := ⟨(n - m.natAbs) / 2, by omega⟩
          obtain ⟨q, hq⟩ : ∃ q, n' = m.natAbs + 2 * q := ⟨(n' - m.natAbs) / 2, by omega⟩
          rw [hp, hq, radial_integral, if_neg (by omega)]
    rw [hz, zero_mul]
  · rw [if_neg hm, mul_zero]

/-- C189, the part that holds: the norm is the integral of the square of the polynomial, when the orders
are both even or both odd.  Missing: for the others the polynomial is nothing and the norm is not. -/
theorem C189_norm_partial {g : Gen} (h : Reached g) {n : ℕ} {m : ℤ} (hmn : m.natAbs ≤ n) (hp : (n - m.natAbs) % 2 = 0) :
    Zern.norm n m = some (discIntegral fun r phi => discValue g n m r phi ^ 2) := by
  have e : (fun r phi : ℝ => discValue g n m r phi ^ 2) = fun r phi => discValue g n m r phi * discValue g n m r phi := by
    funext r phi; ring
  obtain ⟨p, hp⟩ : ∃ p, n = m.natAbs + 2 * p := ⟨(n - m.natAbs) / 2, by omega⟩
  have hr := radial_integral p p m.natAbs
  rw [← hp, if_pos rfl] at hr
  rw [e, disc_product (reached_good h) (reached_good h) hmn hmn, angular_integral, if_pos rfl, hr]
  unfold Zern.norm
  rw [← Int.natCast_natAbs m, validate_nat hmn]
  simp only [Option.map_some, Option.some.injEq, Int.cast_natCast]
  have hn : (n : ℝ) = (m.natAbs : ℝ) + 2 * p := by exact_mod_cast hp
  have f2 : (m.natAbs : ℝ) + 2 * p + 1 ≠ 0 := by positivity
  rw [hn]
  by_cases h0 : m = 0
  · subst h0
    simp only [Int.natAbs_zero, Nat.cast_zero, if_true, zero_add] at f2 ⊢
    have : (2 : ℝ) * p * 2 + 2 ≠ 0 := by positivity
    field_simp
  · rw [if_neg h0, if_neg (by omega)]
    have : ((m.natAbs : ℝ) + 2 * p) * 2 + 2 ≠ 0 := by positivity
    field_simp

/-- C189 is violated: a polynomial that is nothing with a norm. -/
theorem C189_norm_violated :
    Zern.norm 1 0 = some (Real.pi / 2) ∧ discIntegral (fun r phi => discValue {} (1 : ℕ) 0 r phi ^ 2) = 0 := by
  refine ⟨?_, ?_⟩
  · unfold Zern.norm
    rw [show |(0 : ℤ)| = ((0 : ℕ) : ℤ) by decide, show (1 : ℤ) = ((1 : ℕ) : ℤ) by rfl, validate_nat (by omega)]
    simp
    ring
  · have e : (fun r phi : ℝ => discValue {} (1 : ℕ) 0 r phi ^ 2) = fun r phi => discValue {} (1 : ℕ) 0 r phi * discValue {} (1 : ℕ) 0 r phi := by
      funext r phi; ring
    rw [e, disc_product goodGen_new goodGen_new (by decide) (by decide)]
    simp [zernikeR]

/-! ### C190 -/

theorem polar_spec (x y : ℝ) : 0 ≤ (polar x y).1 ∧ (polar x y).1 * Real.cos (polar x y).2 = x ∧ (polar x y).1 * Real.sin (polar x y).2 = y := by
  unfold polar
  dsimp only
  have hs : 0 ≤ x ^ 2 + y ^ 2 := by positivity
  have hq := Real.sq_sqrt hs
  set r := Real.sqrt (x ^ 2 + y ^ 2) with hr
  have hr0 : 0 ≤ r := Real.sqrt_nonneg _
  refine ⟨hr0, ?_⟩
  rcases hr0.eq_or_lt with h0 | hpos
  · rw [← h0] at hq ⊢
    have hx : x = 0 := by nlinarith [sq_nonneg x, sq_nonneg y]
    have hy : y = 0 := by nlinarith [sq_nonneg x, sq_nonneg y]
    rw [hx, hy]; simp
  · rw [if_pos hpos]
    have hle : |x / r| ≤ 1 := by
      rw [abs_div, abs_of_pos hpos, div_le_one hpos, ← abs_of_pos hpos, ← sq_le_sq]
      nlinarith [sq_nonneg y]
    obtain ⟨hl, hu⟩ := abs_le.1 hle
    have hc : Real.cos (Real.arccos (x / r)) = x / r := Real.cos_arccos hl hu
    have hsin : r * Real.sin (Real.arccos (x / r)) = |y| := by
      rw [Real.sin_arccos, ← Real.sqrt_sq_eq_abs]
      have : y ^ 2 = r ^ 2 * (1 - (x / r) ^ 2) := by
        field_simp
        linarith
      rw [this, Real.sqrt_mul (sq_nonneg r), Real.sqrt_sq hr0]
    by_cases hy : 0 ≤ y
    · rw [if_pos hy, hc, hsin, abs_of_nonneg hy]
      exact ⟨by field_simp, rfl⟩
    · rw [if_neg hy, zero_sub, Real.cos_neg, Real.sin_neg, hc, mul_neg, hsin, abs_of_neg (by linarith)]
      exact ⟨by field_simp, by ring⟩

theorem angular_same {a b : ℝ} (hc : Real.cos a = Real.cos b) (hs : Real.sin a = Real.sin b) (m : ℤ) : angular m a = angular m b := by
  have key : ∀ k : ℕ, Real.cos (k * a) = Real.cos (k * b) ∧ Real.sin (k * a) = Real.sin (k * b) := by
    intro k
    induction k with
    | zero => simp
    | succ k ih =>
      push_cast
      rw [add_mul, add_mul, one_mul, one_mul, Real.cos_add, Real.sin_add, Real.cos_add, Real.sin_add, ih.1, ih.2, hc, hs]
      exact ⟨rfl, rfl⟩
  unfold angular
  rcases Int.natAbs_eq m with h | h
  · have h1 : (m : ℝ) = (m.natAbs : ℝ) := by rw [h]; simp
    rw [h1, (key _).1, (key _).2]
  · have h1 : (m : ℝ) = -(m.natAbs : ℝ) := by
      have : (m : ℝ) = ((-(m.natAbs : ℤ) : ℤ) : ℝ) := by rw [← h]
      rw [this, Int.cast_neg, Int.cast_natCast]
    rw [h1, neg_mul, neg_mul, Real.cos_neg, Real.cos_neg, Real.sin_neg, Real.sin_neg, (key _).1, (key _).2]

theorem zernikeR_center {n m : ℕ} (hmn : m ≤ n) (hm : m ≠ 0) : zernikeR n m 0 = 0 := by
  unfold zernikeR
  split_ifs
  · rfl
  · apply Finset.sum_eq_zero
    intro k hk
    have hk' : k < (n - m) / 2 + 1 := by simpa using hk
    rw [zero_pow (by omega), mul_zero]

/-- C190: the value at a point given by its Cartesian coordinates is the value at any polar coordinates of
the same point. -/
theorem C190_cartesian {g : Gen} (h : Reached g) {r phi : ℝ} (hr : 0 ≤ r) (n m : ℤ) :
    (evaluateXY g (r * Real.cos phi) (r * Real.sin phi) n m).map Prod.fst = (evaluate g r phi n m).map Prod.fst := by
  obtain ⟨h1, h2, h3⟩ := polar_spec (r * Real.cos phi) (r * Real.sin phi)
  unfold evaluateXY
  set q := polar (r * Real.cos phi) (r * Real.sin phi) with hq
  have hrr : q.1 = r := by
    have e : q.1 ^ 2 = r ^ 2 := by
      have a := Real.cos_sq_add_sin_sq q.2
      have b := Real.cos_sq_add_sin_sq phi
      calc q.1 ^ 2 = (q.1 * Real.cos q.2) ^ 2 + (q.1 * Real.sin q.2) ^ 2 := by linear_combination -(q.1 ^ 2) * a
        _ = (r * Real.cos phi) ^ 2 + (r * Real.sin phi) ^ 2 := by rw [h2, h3]
        _ = r ^ 2 := by linear_combination r ^ 2 * b
    exact (sq_eq_sq₀ h1 hr).1 e
  by_cases hval : n < 0 ∨ n < |m|
  · rw [(C188_refused h _ _ _ _).2 hval, (C188_refused h _ _ _ _).2 hval]
  · push Not at hval
    have hmn : m.natAbs ≤ n.toNat := by have := Int.natCast_natAbs m; omega
    have hn : n = ((n.toNat : ℕ) : ℤ) := by omega
    rw [hn, evaluate_eq (reached_good h) hmn, evaluate_eq (reached_good h) hmn, hrr]
    rcases hr.eq_or_lt with h0 | hpos
    · by_cases hm : m = 0
      · subst hm
        simp [angular]
      · rw [← h0, zernikeR_center hmn (by omega), zero_mul, zero_mul]
    · rw [hrr] at h2 h3
      rw [angular_same (mul_left_cancel₀ hpos.ne' h2) (mul_left_cancel₀ hpos.ne' h3) m]

/-- A point of the disc that is not its centre, below the axis. -/
example : polar 0 (-1) = (1, -(Real.pi / 2)) := by
  unfold polar
  norm_num

/-- C190: arrays of Cartesian coordinates are treated point by point like numbers, inside the disc. -/
theorem C190_array {g : Gen} (h : Reached g) {n : ℕ} {m : ℤ} (hmn : m.natAbs ≤ n) {pts : List (ℝ × ℝ)}
    (hpts : ∀ p ∈ pts, p.1 ^ 2 + p.2 ^ 2 < 1) :
    (evaluateXYArray g pts n m).map Prod.fst = pts.mapM fun p => (evaluateXY g p.1 p.2 n m).map Prod.fst := by
  unfold evaluateXYArray
  rw [C188_array_partial h hmn, List.mapM_map]
  · rfl
  · intro q hq
    obtain ⟨p, hp, rfl⟩ := List.mem_map.1 hq
    refine ⟨(polar_spec _ _).1, ?_⟩
    have := Real.sqrt_lt_sqrt (by positivity) (hpts p hp)
    rw [Real.sqrt_one] at this
    exact this

end Verif
