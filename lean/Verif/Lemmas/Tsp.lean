import Verif.Model.Tsp
import Verif.Lemmas.IntRounded
import Mathlib.Data.List.Permutation
import Mathlib.Algebra.Order.BigOperators.Group.List
import Mathlib.Algebra.BigOperators.Group.List.Basic
import Mathlib.Tactic.Linarith

namespace Verif.Tsp

/-- A reasonable convex hull: at least one of the towns it was given, none twice. -/
def GoodHull (hull : List ℕ → Option (List ℕ)) : Prop :=
  ∀ l new, hull l = some new → new ≠ [] ∧ new.Nodup ∧ ∀ i ∈ new, i ∈ l

theorem hulls_spec {hull : List ℕ → Option (List ℕ)} (hg : GoodHull hull) :
    ∀ (n : ℕ) (left : List ℕ), left.Nodup → left.length ≤ n →
      ∃ hs, hulls hull n left = some hs ∧ hs.flatten.Perm left ∧ (∀ h ∈ hs, h ≠ []) ∧ (left ≠ [] → hs ≠ []) := by
  intro n
  induction n with
  | zero =>
    intro left _ hl
    have : left = [] := List.eq_nil_of_length_eq_zero (by omega)
    subst this
    exact ⟨[], by simp [hulls], by simp, by simp, by simp⟩
  | succ n ih =>
    intro left hnd hl
    by_cases h0 : left = []
    · subst h0; exact ⟨[], by simp [hulls], by simp, by simp, by simp⟩
    · cases hh : hull left with
      | none => exact ⟨[left], by simp [hulls, h0, hh], by simp, by simpa using h0, by simp⟩
      | some new =>
        obtain ⟨g1, g2, g3⟩ := hg _ _ hh
        have hlt : (left.filter (fun i => i ∉ new)).length < left.length := by
          obtain ⟨x, hx⟩ := List.exists_mem_of_ne_nil _ g1
          apply List.length_filter_lt_length_iff_exists.2
          exact ⟨x, g3 x hx, by simpa using hx⟩
        obtain ⟨hs, e, p, q, -⟩ := ih (left.filter (fun i => i ∉ new)) (hnd.filter _) (by omega)
        refine ⟨new :: hs, by unfold hulls; rw [if_neg h0, hh]; simp only [e, Option.map_some], ?_, ?_, by simp⟩
        · rw [List.flatten_cons]
          refine (p.append_left new).trans ?_
          have : new.Perm (left.filter (fun i => i ∈ new)) := by
            apply (List.perm_ext_iff_of_nodup g2 (hnd.filter _)).2
            intro a
            simp only [List.mem_filter, decide_eq_true_eq]
            exact ⟨fun h => ⟨g3 a h, h⟩, fun h => h.2⟩
          refine (this.append_right _).trans ?_
          have h := List.filter_append_perm (fun i => decide (i ∈ new)) left
          simpa using h
        · intro h hmem
          rcases List.mem_cons.1 hmem with rfl | hmem
          · exact g1
          · exact q h hmem

theorem rotateRight_perm (r : List ℕ) : (rotateRight r).Perm r := List.rotate_perm _ _

theorem tries_perm (x : ℕ) : ∀ (n : ℕ) (r c : List ℕ), c ∈ tries x n r → c.Perm (r ++ [x]) := by
  intro n
  induction n with
  | zero => intro r c h; simp [tries] at h
  | succ n ih =>
    intro r c h
    simp only [tries, List.mem_cons] at h
    rcases h with rfl | h
    · exact (rotateRight_perm r).append_right _
    · exact (ih _ _ h).trans ((rotateRight_perm r).append_right _)

theorem foldl_best (D : ℕ → ℕ → ℚ) : ∀ (rs : List (List ℕ)) (r : List ℕ),
    let b := rs.foldl (fun b c => if routeLength D c < routeLength D b then c else b) r
    (b = r ∨ b ∈ rs) ∧ ∀ c ∈ r :: rs, routeLength D b ≤ routeLength D c := by
  intro rs
  induction rs with
  | nil => intro r; simp
  | cons c rs ih =>
    intro r
    simp only [List.foldl_cons]
    by_cases h : routeLength D c < routeLength D r
    · rw [if_pos h]
      obtain ⟨h1, h2⟩ := ih c
      refine ⟨.inr ?_, ?_⟩
      · rcases h1 with h1 | h1
        · rw [h1]; simp
        · exact List.mem_cons_of_mem _ h1
      · intro d hd
        rcases List.mem_cons.1 hd with rfl | hd
        · exact (h2 c (by simp)).trans h.le
        · exact h2 d hd
    · rw [if_neg h]
      obtain ⟨h1, h2⟩ := ih r
      refine ⟨?_, ?_⟩
      · rcases h1 with h1 | h1
        · exact .inl h1
        · exact .inr (List.mem_cons_of_mem _ h1)
      · intro d hd
        rcases List.mem_cons.1 hd with rfl | hd
        · exact h2 d (by simp)
        · rcases List.mem_cons.1 hd with rfl | hd
          · exact (h2 r (by simp)).trans (not_lt.1 h)
          · exact h2 d (List.mem_cons_of_mem _ hd)

theorem firstBest_spec {D : ℕ → ℕ → ℚ} {rs : List (List ℕ)} {b : List ℕ} (h : firstBest D rs = some b) :
    b ∈ rs ∧ ∀ c ∈ rs, routeLength D b ≤ routeLength D c := by
  cases rs with
  | nil => simp [firstBest] at h
  | cons r rs =>
    simp only [firstBest, Option.some.injEq] at h
    obtain ⟨h1, h2⟩ := foldl_best D rs r
    rw [h] at h1 h2
    refine ⟨?_, h2⟩
    rcases h1 with h1 | h1
    · rw [h1]; simp
    · exact List.mem_cons_of_mem _ h1

theorem insert1_some (D : ℕ → ℕ → ℚ) {r : List ℕ} (h : r ≠ []) (x : ℕ) :
    ∃ b, insert1 D r x = some b ∧ b ∈ tries x r.length r ∧
      ∀ c ∈ tries x r.length r, routeLength D b ≤ routeLength D c := by
  have : ∃ b, insert1 D r x = some b := by
    unfold insert1
    cases r with
    | nil => exact absurd rfl h
    | cons a r => simp [tries, firstBest]
  obtain ⟨b, hb⟩ := this
  exact ⟨b, hb, firstBest_spec hb⟩

theorem merge_foldl (D : ℕ → ℕ → ℚ) : ∀ (xs r : List ℕ), r ≠ [] →
    ∃ b, xs.foldlM (insert1 D) r = some b ∧ b.Perm (r ++ xs) := by
  intro xs
  induction xs with
  | nil => intro r _; exact ⟨r, by simp, by simp⟩
  | cons x xs ih =>
    intro r hr
    obtain ⟨b, hb, hm, -⟩ := insert1_some D hr x
    have hp := tries_perm x _ _ _ hm
    have hb0 : b ≠ [] := by
      rintro rfl
      have := hp.length_eq; simp at this
    obtain ⟨c, hc, hpc⟩ := ih b hb0
    refine ⟨c, by simp [List.foldlM_cons, hb, hc], hpc.trans ?_⟩
    have := hp.append_right xs
    simpa using this

/-! Rotations do not change the length. -/

theorem routeLength_rotate (D : ℕ → ℕ → ℚ) (r : List ℕ) (n : ℕ) : routeLength D (r.rotate n) = routeLength D r := by
  unfold routeLength
  have : List.zipWith D (r.rotate n) ((r.rotate n).rotate 1) = (List.zipWith D r (r.rotate 1)).rotate n := by
    rw [List.zipWith_rotate_distrib]
    · rw [List.rotate_rotate, List.rotate_rotate, Nat.add_comm]
    · simp
  rw [this]
  exact (List.rotate_perm _ _).sum_eq

theorem routeLength_swap (D : ℕ → ℕ → ℚ) (l1 l2 : List ℕ) : routeLength D (l1 ++ l2) = routeLength D (l2 ++ l1) := by
  rw [← List.rotate_append_length_eq l1 l2, routeLength_rotate]

/-- All rotations are tried. -/
theorem tries_mem (x : ℕ) : ∀ (n : ℕ) (r : List ℕ) (k : ℕ), 1 ≤ k → k ≤ n →
    (rotateRight^[k] r) ++ [x] ∈ tries x n r := by
  intro n
  induction n with
  | zero => intro r k h1 h2; omega
  | succ n ih =>
    intro r k h1 h2
    simp only [tries, List.mem_cons]
    by_cases hk : k = 1
    · subst hk; left; simp
    · right
      have := ih (rotateRight r) (k - 1) (by omega) (by omega)
      rwa [← Function.iterate_succ_apply, show (k - 1).succ = k by omega] at this

theorem rotateRight_length (r : List ℕ) : (rotateRight r).length = r.length := by simp [rotateRight]

theorem rotateRight_iterate (r : List ℕ) (k : ℕ) (hk : k ≤ r.length) : rotateRight^[k] r = r.rotate (r.length - k) := by
  induction k with
  | zero => simp
  | succ k ih =>
    rw [Function.iterate_succ_apply', ih (by omega), rotateRight, List.length_rotate, List.rotate_rotate]
    have : r.length - k + (r.length - 1) = (r.length - (k + 1)) + r.length := by omega
    rw [this, ← List.rotate_rotate]
    rw [show (r.rotate (r.length - (k + 1))).rotate r.length = r.rotate (r.length - (k + 1)) by
      have := List.rotate_length (r.rotate (r.length - (k + 1)))
      rwa [List.length_rotate] at this]

/-! Three-opt. -/

theorem mem_cuts {n : ℕ} {k : ℕ × ℕ × ℕ} (h : k ∈ cuts n) : k.1 < k.2.1 ∧ k.2.1 < k.2.2 ∧ k.2.2 < n := by
  simp only [cuts, List.mem_flatMap, List.mem_range, List.mem_map, List.mem_range'] at h
  obtain ⟨a, ha, b, ⟨i, hi, rfl⟩, c, ⟨j, hj, rfl⟩, rfl⟩ := h
  simp only
  omega

theorem mem_cuts_iff {n a b c : ℕ} : (a, b, c) ∈ cuts n ↔ a < b ∧ b < c ∧ c < n := by
  refine ⟨fun h => mem_cuts h, fun h => ?_⟩
  simp only [cuts, List.mem_flatMap, List.mem_range, List.mem_map, List.mem_range']
  exact ⟨a, by omega, b, ⟨b - (a + 1), by omega, by omega⟩, c, ⟨c - (b + 1), by omega, by omega⟩, rfl⟩

theorem pieces_perm (r : List ℕ) {a b c : ℕ} (h1 : a ≤ b) (h2 : b ≤ c) :
    ((r.take b).drop a ++ (r.take c).drop b ++ (r.drop c ++ r.take a)).Perm r := by
  have e1 : r.take b = r.take a ++ (r.take b).drop a := by
    have := (List.take_append_drop a (r.take b)).symm
    rwa [List.take_take, Nat.min_eq_left h1] at this
  have e2 : r.take c = r.take b ++ (r.take c).drop b := by
    have := (List.take_append_drop b (r.take c)).symm
    rwa [List.take_take, Nat.min_eq_left h2] at this
  have e3 : r = r.take a ++ (r.take b).drop a ++ (r.take c).drop b ++ r.drop c := by
    rw [← e1, ← e2, List.take_append_drop]
  have : (r.take a ++ (r.take b).drop a ++ (r.take c).drop b ++ r.drop c).Perm r := by rw [← e3]
  refine List.Perm.trans ?_ this
  rw [← List.append_assoc]
  refine (List.perm_append_comm).trans ?_
  simp only [List.append_assoc]
  exact List.Perm.refl _

theorem variants_perm {r p : List ℕ} {k : ℕ × ℕ × ℕ} (h1 : k.1 ≤ k.2.1) (h2 : k.2.1 ≤ k.2.2) (h : p ∈ variants r k) :
    p.Perm r := by
  have base := pieces_perm r h1 h2
  unfold variants at h
  revert h
  generalize (r.take k.2.1).drop k.1 = c1 at *
  generalize (r.take k.2.2).drop k.2.1 = c2 at *
  generalize r.drop k.2.2 ++ r.take k.1 = c3 at *
  intro h
  refine List.Perm.trans ?_ base
  have r2 := List.reverse_perm c2
  have r3 := List.reverse_perm c3
  have sw : ∀ x y : List ℕ, (c1 ++ y ++ x).Perm (c1 ++ x ++ y) := by
    intro x y
    rw [List.append_assoc, List.append_assoc]
    exact (List.perm_append_comm).append_left c1
  simp only [List.mem_cons, List.not_mem_nil, or_false] at h
  rcases h with rfl | rfl | rfl | rfl | rfl | rfl | rfl | rfl
  · exact List.Perm.refl _
  · exact sw _ _
  · exact ((r2.append_left c1).append_right c3)
  · exact (sw _ _).trans ((r2.append_left c1).append_right c3)
  · exact r3.append_left _
  · exact (sw _ _).trans (r3.append_left _)
  · exact ((r2.append_left c1).append r3)
  · exact (sw _ _).trans ((r2.append_left c1).append r3)

theorem shorter_sound {cross : Bool} {a b : ℚ} (h : shorter cross a b = true) : a < b := by
  unfold shorter at h
  split at h
  · by_contra hc
    rw [ltS_iff] at h
    have := scalarPair_anti Tol.default (a := a) (b := b) (not_lt.1 hc)
    linarith
  · simpa using h

theorem consider_foldl (D : ℕ → ℕ → ℚ) (cross : Bool) : ∀ (ps : List (List ℕ)) (b : List ℕ × ℚ),
    b.2 = routeLength D b.1 →
    let e := ps.foldl (consider D cross) b
    e.2 = routeLength D e.1 ∧ e.2 ≤ b.2 ∧ (e.1 = b.1 ∨ e.1 ∈ ps) ∧
    ∀ p ∈ ps, ∃ m, e.2 ≤ m ∧ (m = routeLength D p ∨ shorter cross (routeLength D p) m = false) := by
  intro ps
  induction ps with
  | nil => intro b hb; exact ⟨hb, le_rfl, .inl rfl, by simp⟩
  | cons p ps ih =>
    intro b hb
    simp only [List.foldl_cons]
    by_cases h : shorter cross (routeLength D p) b.2 = true
    · have e : consider D cross b p = (p, routeLength D p) := by simp [consider, h]
      rw [e]
      obtain ⟨h1, h2, h3, h4⟩ := ih (p, routeLength D p) rfl
      refine ⟨h1, h2.trans (shorter_sound h).le, .inr ?_, ?_⟩
      · rcases h3 with h3 | h3
        · rw [h3]; simp
        · exact List.mem_cons_of_mem _ h3
      · intro q hq
        rcases List.mem_cons.1 hq with rfl | hq
        · exact ⟨_, h2, .inl rfl⟩
        · exact h4 q hq
    · have e : consider D cross b p = b := by simp [consider, h]
      rw [e]
      obtain ⟨h1, h2, h3, h4⟩ := ih b hb
      refine ⟨h1, h2, ?_, ?_⟩
      · rcases h3 with h3 | h3
        · exact .inl h3
        · exact .inr (List.mem_cons_of_mem _ h3)
      · intro q hq
        rcases List.mem_cons.1 hq with rfl | hq
        · exact ⟨b.2, h2, .inr (by simpa using h)⟩
        · exact h4 q hq

theorem threeOpt_spec (D : ℕ → ℕ → ℚ) (cross : Bool) (r : List ℕ) :
    (threeOpt D cross r).2 = routeLength D (threeOpt D cross r).1 ∧ (threeOpt D cross r).2 ≤ routeLength D r ∧
    (threeOpt D cross r).1.Perm r ∧
    ∀ k ∈ cuts r.length, ∀ p ∈ variants r k, ∃ m, (threeOpt D cross r).2 ≤ m ∧
      (m = routeLength D p ∨ shorter cross (routeLength D p) m = false) := by
  obtain ⟨h1, h2, h3, h4⟩ := consider_foldl D cross ((cuts r.length).flatMap (variants r)) (r, routeLength D r) rfl
  refine ⟨h1, h2, ?_, fun k hk p hp => h4 p (List.mem_flatMap.2 ⟨k, hk, hp⟩)⟩
  rcases h3 with h3 | h3
  · unfold threeOpt; rw [h3]
  · obtain ⟨k, hk, hp⟩ := List.mem_flatMap.1 h3
    obtain ⟨c1, c2, -⟩ := mem_cuts hk
    exact variants_perm c1.le c2.le hp

theorem optimize_spec (D : ℕ → ℕ → ℚ) (niter : ℤ) : ∀ (n : ℕ) (r : List ℕ) (c : ℕ) (q : List ℕ × ℕ),
    optimize D niter n r (routeLength D r) c = some q →
    q.1.Perm r ∧ routeLength D q.1 ≤ routeLength D r ∧ c ≤ q.2 ∧ ((c : ℤ) < niter → (q.2 : ℤ) ≤ niter) := by
  intro n
  induction n with
  | zero => intro r c q h; simp [optimize] at h
  | succ n ih =>
    intro r c q h
    obtain ⟨t1, t2, t3, -⟩ := threeOpt_spec D true r
    unfold optimize at h
    simp only at h
    split at h
    · split at h
      · rename_i hn
        simp only [Option.some.injEq] at h
        subst h
        exact ⟨t3, by rw [← t1]; exact t2, by simp, fun _ => hn.le⟩
      · rename_i hn
        rw [t1] at h
        obtain ⟨i1, i2, i3, i4⟩ := ih _ _ _ h
        refine ⟨i1.trans t3, i2.trans (by rw [← t1]; exact t2), by omega, fun hc => i4 ?_⟩
        push_cast at hn ⊢
        omega
    · simp only [Option.some.injEq] at h
      subst h
      exact ⟨List.Perm.refl _, le_rfl, le_rfl, fun h => h.le⟩

/-- Each improvement is strict, and there are finitely many orders: the loop ends. -/
theorem optimize_ends (D : ℕ → ℕ → ℚ) (niter : ℤ) (all : List (List ℕ)) : ∀ (n : ℕ) (r : List ℕ) (c : ℕ),
    (∀ p : List ℕ, p.Perm r → p ∈ all) →
    (all.filter (fun p => routeLength D p < routeLength D r)).length < n →
    ∃ q, optimize D niter n r (routeLength D r) c = some q := by
  intro n
  induction n with
  | zero => intro r c _ h; omega
  | succ n ih =>
    intro r c hall hlen
    obtain ⟨t1, t2, t3, -⟩ := threeOpt_spec D true r
    unfold optimize
    simp only
    split
    · rename_i hlt
      have hlt' : (threeOpt D true r).2 < routeLength D r := shorter_sound (cross := true) (by simpa [shorter] using hlt)
      split
      · exact ⟨_, rfl⟩
      · rw [t1]
        apply ih
        · intro p hp; exact hall p (hp.trans t3)
        · have hsub : (all.filter (fun p => routeLength D p < routeLength D (threeOpt D true r).1)) =
              (all.filter (fun p => routeLength D p < routeLength D r)).filter
                (fun p => routeLength D p < routeLength D (threeOpt D true r).1) := by
            rw [List.filter_filter]
            apply List.filter_congr
            intro p _
            rw [← t1]
            rw [← Bool.decide_and, decide_eq_decide]
            exact ⟨fun h => ⟨h, h.trans hlt'⟩, fun h => h.1⟩
          have : (all.filter (fun p => routeLength D p < routeLength D (threeOpt D true r).1)).length <
              (all.filter (fun p => routeLength D p < routeLength D r)).length := by
            rw [hsub]
            apply List.length_filter_lt_length_iff_exists.2
            refine ⟨(threeOpt D true r).1, ?_, by simp⟩
            rw [List.mem_filter]
            exact ⟨hall _ t3, by rw [← t1]; simpa using hlt'⟩
          omega
    · exact ⟨_, rfl⟩

end Verif.Tsp
