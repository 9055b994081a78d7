import Verif.Lemmas.Tsp
import Verif.Props.IntRounded

/-!
Properties C31, C32 and C69: the visit-ordering solver.
-/

namespace Verif

open Tsp

/-! ### Specification -/

/-- Each of the towns 0, …, n-1 exactly once. -/
def EachOnce (n : ℕ) (r : List ℕ) : Prop := r.Nodup ∧ ∀ i, i ∈ r ↔ i < n

theorem eachOnce_of_perm {n : ℕ} {r : List ℕ} (h : r.Perm (List.range n)) : EachOnce n r :=
  ⟨h.nodup_iff.2 List.nodup_range, fun i => by rw [h.mem_iff, List.mem_range]⟩

/-- The length of the closed tour, town after town and back to the first. -/
def tour (D : ℕ → ℕ → ℚ) : List ℕ → ℚ
  | [] => 0
  | a :: l => go a a l
where
  go (first : ℕ) : ℕ → List ℕ → ℚ
    | a, [] => D a first
    | a, b :: l => D a b + go first b l

theorem tour_go (D : ℕ → ℕ → ℚ) (first : ℕ) : ∀ (l : List ℕ) (a : ℕ),
    (List.zipWith D (a :: l) (l ++ [first])).sum = tour.go D first a l := by
  intro l
  induction l with
  | nil => intro a; simp [tour.go]
  | cons b l ih =>
    intro a
    rw [List.cons_append, List.zipWith_cons_cons, List.sum_cons, ih b, tour.go]

theorem routeLength_eq_tour (D : ℕ → ℕ → ℚ) (r : List ℕ) : routeLength D r = tour D r := by
  cases r with
  | nil => simp [routeLength, tour]
  | cons a l =>
    unfold routeLength
    have : (a :: l).rotate 1 = l ++ [a] := by simp
    rw [this, tour_go, tour]

/-! ### C31 -/

/-- C31: for any number of towns (at least one), any distances and any hull decomposition, with
and without optimisation, whatever the number of rounds: the solver ends, and its route has
each town exactly once. -/
theorem C31_route_is_permutation (hull : List ℕ → Option (List ℕ)) (hg : GoodHull hull) (D : ℕ → ℕ → ℚ) (n : ℕ)
    (hn : 0 < n) (opt : Bool) (niter : ℤ) :
    (∃ fuel0, ∀ fuel ≥ fuel0, ∃ r, tspConvex hull D n opt niter fuel = some r) ∧
    ∀ fuel r, tspConvex hull D n opt niter fuel = some r → EachOnce n r := by
  have hne : List.range n ≠ [] := by simp; omega
  -- the route before optimisation
  have base : ∀ fuel, n ≤ fuel → ∃ hs r, hulls hull fuel (List.range n) = some hs ∧ merge D hs = some r ∧
      r.Perm (List.range n) := by
    intro fuel hf
    obtain ⟨hs, e, p, q, q'⟩ := hulls_spec hg fuel (List.range n) List.nodup_range (by simpa using hf)
    cases hs with
    | nil => exact absurd rfl (q' hne)
    | cons h hs =>
      obtain ⟨b, hb, hp⟩ := merge_foldl D hs.flatten h (q h (by simp))
      exact ⟨h :: hs, b, e, hb, hp.trans (by simpa using p)⟩
  constructor
  · refine ⟨n + (List.range n).permutations.length + 1, fun fuel hf => ?_⟩
    obtain ⟨hs, r, e1, e2, p⟩ := base fuel (by omega)
    cases opt with
    | false => exact ⟨r, by simp [tspConvex, e1, e2]⟩
    | true =>
      obtain ⟨q, hq⟩ := optimize_ends D niter (List.range n).permutations fuel r 0
        (fun x hx => List.mem_permutations.2 (hx.trans p))
        (by have := List.length_filter_le (fun p => decide (routeLength D p < routeLength D r)) (List.range n).permutations
            omega)
      exact ⟨q.1, by simp [tspConvex, e1, e2, hq]⟩
  · intro fuel r h
    simp only [tspConvex, Option.bind_eq_bind, Option.bind_eq_some_iff] at h
    obtain ⟨hs, e1, r0, e2, h⟩ := h
    -- fuel that was enough to end
    have p : r0.Perm (List.range n) := by
      have : ∀ (k : ℕ) (left : List ℕ), left.Nodup → ∀ hs, hulls hull k left = some hs →
          hs.flatten.Perm left ∧ ∀ h ∈ hs, h ≠ [] := by
        intro k
        induction k with
        | zero =>
          intro left hnd hs h
          simp only [hulls] at h
          split at h
          · rename_i h0; simp only [Option.some.injEq] at h; subst h; subst h0; simp
          · cases h
        | succ k ih =>
          intro left hnd hs h
          unfold hulls at h
          split at h
          · rename_i h0; simp only [Option.some.injEq] at h; subst h; subst h0; simp
          · rename_i h0
            split at h
            · simp only [Option.some.injEq] at h; subst h; exact ⟨by simp, by simpa using h0⟩
            · rename_i new hh
              rw [Option.map_eq_some_iff] at h
              obtain ⟨rest, hr, rfl⟩ := h
              obtain ⟨i1, i2⟩ := ih _ (hnd.filter _) _ hr
              obtain ⟨g1, g2, g3⟩ := hg _ _ hh
              refine ⟨?_, ?_⟩
              · rw [List.flatten_cons]
                refine (i1.append_left new).trans ?_
                have : new.Perm (left.filter (fun i => i ∈ new)) := by
                  apply (List.perm_ext_iff_of_nodup g2 (hnd.filter _)).2
                  intro a
                  simp only [List.mem_filter, decide_eq_true_eq]
                  exact ⟨fun h => ⟨g3 a h, h⟩, fun h => h.2⟩
                refine (this.append_right _).trans ?_
                have h := List.filter_append_perm (fun i => decide (i ∈ new)) left
                simpa using h
              · intro h hmem
                rcases List.mem_cons.1 hmem with rfl | hmem
                · exact g1
                · exact i2 h hmem
      obtain ⟨p1, p2⟩ := this _ _ List.nodup_range _ e1
      cases hs with
      | nil => simp [merge] at e2
      | cons h hs =>
        obtain ⟨b, hb, hp⟩ := merge_foldl D hs.flatten h (p2 h (by simp))
        have : merge D (h :: hs) = some b := hb
        rw [this] at e2
        simp only [Option.some.injEq] at e2
        rw [← e2]
        exact hp.trans (by simpa using p1)
    cases opt with
    | false =>
      simp only [Bool.false_eq_true, if_false, Option.pure_def, Option.some.injEq] at h
      rw [← h]; exact eachOnce_of_perm p
    | true =>
      simp only [if_true, Option.bind_eq_some_iff, Option.pure_def, Option.some.injEq] at h
      obtain ⟨q, hq, rfl⟩ := h
      exact eachOnce_of_perm ((optimize_spec D niter _ _ _ _ hq).1.trans p)

/-- Four towns on a line (0, 10, 20, 5), the hull being the ends; the solver returns a route. -/
def lineDist (i j : ℕ) : ℚ := |([0, 10, 20, 5] : List ℚ).getD i 0 - ([0, 10, 20, 5] : List ℚ).getD j 0|

def firstAndLast (l : List ℕ) : Option (List ℕ) :=
  match l with
  | a :: b :: _ => some [a, b]
  | _ => none

example : GoodHull (fun l => if l.Nodup then firstAndLast l else none) ∧
    tspConvex (fun l => if l.Nodup then firstAndLast l else none) lineDist 4 true 10 20 = some [2, 1, 0, 3] := by
  refine ⟨fun l new h => ?_, by decide +kernel⟩
  simp only at h
  split at h
  · rename_i hnd
    unfold firstAndLast at h
    split at h
    · simp only [Option.some.injEq] at h
      subst h
      simp only [List.nodup_cons, List.mem_cons, not_or] at hnd
      refine ⟨by simp, by simp [hnd.1.1], by simp⟩
    · cases h
  · cases h

/-! ### C32 -/

/-- C32: optimising a route never makes the tour longer and keeps its towns; the loop always
ends; and with a positive number of rounds it makes at most that many improvements. -/
theorem C32_never_longer_partial (D : ℕ → ℕ → ℚ) (niter : ℤ) (r : List ℕ) :
    (∃ fuel0, ∀ fuel ≥ fuel0, ∃ q, optimize D niter fuel r (routeLength D r) 0 = some q) ∧
    ∀ fuel r' k, optimize D niter fuel r (routeLength D r) 0 = some (r', k) →
      tour D r' ≤ tour D r ∧ r'.Perm r ∧ (0 < niter → (k : ℤ) ≤ niter) := by
  constructor
  · refine ⟨r.permutations.length + 1, fun fuel hf => ?_⟩
    refine optimize_ends D niter r.permutations fuel r 0 (fun x hx => List.mem_permutations.2 hx) ?_
    have := List.length_filter_le (fun p => decide (routeLength D p < routeLength D r)) r.permutations
    omega
  · intro fuel r' k h
    obtain ⟨h1, h2, -, h4⟩ := optimize_spec D niter _ _ _ _ h
    rw [routeLength_eq_tour, routeLength_eq_tour] at h2
    exact ⟨h2, h1, fun hn => h4 (by simpa using hn)⟩

/-- C32 fails for the code when no rounds are allowed: the count is compared after the first
improvement and never equals 0 again, so the route is optimised all the way. -/
theorem C32_violated : optimize lineDist 0 20 [0, 2, 3, 1] (routeLength lineDist [0, 2, 3, 1]) 0 =
    some ([0, 3, 1, 2], 1) := by
  decide +kernel

example : tour lineDist [0, 2, 3, 1] = 50 ∧ tour lineDist [0, 3, 1, 2] = 40 := by decide +kernel

/-- C32, one round (`three_opt`): the reported length is that of the reported tour, it is not longer
than the given one, and no exchange of three chunks of the given route does better: without
rounding not at all, with rounding by at most one part in 10⁹ of its length. -/
theorem C32_three_opt (D : ℕ → ℕ → ℚ) (hD : ∀ i j, 0 ≤ D i j) (cross : Bool) (r : List ℕ) :
    let q := threeOpt D cross r
    q.2 = tour D q.1 ∧ q.2 ≤ tour D r ∧ q.1.Perm r ∧
    ∀ a b c, a < b → b < c → c < r.length → ∀ p ∈ variants r (a, b, c),
      q.2 ≤ tour D p + (if cross then tour D p / 10 ^ 9 else 0) := by
  obtain ⟨h1, h2, h3, h4⟩ := threeOpt_spec D cross r
  simp only [← routeLength_eq_tour]
  refine ⟨h1, h2, h3, ?_⟩
  intro a b c hab hbc hc p hp
  obtain ⟨m, hm, h⟩ := h4 (a, b, c) (mem_cuts_iff.2 ⟨hab, hbc, hc⟩) p hp
  have hnn : 0 ≤ routeLength D p := by
    unfold routeLength
    apply List.sum_nonneg
    intro x hx
    rw [List.mem_iff_getElem] at hx
    obtain ⟨i, hi, rfl⟩ := hx
    rw [List.getElem_zipWith]
    exact hD _ _
  have hnn' : 0 ≤ routeLength D p / 10 ^ 9 := by positivity
  rcases h with h | h
  · split <;> linarith
  · cases cross with
    | false =>
      simp only [shorter, Bool.false_eq_true, if_false, decide_eq_false_iff_not, not_lt] at h
      simp; linarith
    | true =>
      simp only [shorter, if_true] at h ⊢
      by_contra hcon
      rw [not_le] at hcon
      have hlt : routeLength D p < m := by linarith
      by_cases hfar : Tol.default.limit * |routeLength D p| < |routeLength D p - m|
      · have hmin : Tol.default.limit * min |routeLength D p| |m| < |routeLength D p - m| :=
          lt_of_le_of_lt (mul_le_mul_of_nonneg_left (min_le_left _ _) (by norm_num [Tol.default])) hfar
        have := (C15_exact_when_far Tol.default (by norm_num [Tol.default]) (routeLength D p) m hmin).1.2 hlt
        rw [this] at h; cases h
      · rw [not_lt, abs_of_nonneg hnn, abs_sub_comm, abs_of_pos (by linarith)] at hfar
        norm_num [Tol.default] at hfar
        linarith

/-! ### C69 -/

/-- C69: each town is inserted into the tour where the tour stays shortest: no other place is
better. -/
theorem C69_cheapest_insertion (D : ℕ → ℕ → ℚ) (r r' : List ℕ) (x : ℕ) (h : insert1 D r x = some r') :
    (∃ l1 l2, r = l1 ++ l2 ∧ tour D r' = tour D (l1 ++ x :: l2)) ∧
    ∀ l1 l2, r = l1 ++ l2 → tour D r' ≤ tour D (l1 ++ x :: l2) := by
  simp only [← routeLength_eq_tour]
  have hr : r ≠ [] := by rintro rfl; simp [insert1, tries, firstBest] at h
  obtain ⟨b, hb, hm, hmin⟩ := insert1_some D hr x
  rw [hb] at h
  simp only [Option.some.injEq] at h
  subst h
  have place : ∀ l1 l2 : List ℕ, routeLength D (l1 ++ x :: l2) = routeLength D (l2 ++ l1 ++ [x]) := by
    intro l1 l2
    have := routeLength_swap D (l1 ++ [x]) l2
    simpa using this
  have rot : ∀ l1 l2 : List ℕ, (l1 ++ l2).rotate l1.length = l2 ++ l1 := fun l1 l2 => List.rotate_append_length_eq l1 l2
  constructor
  · have key : ∀ (n : ℕ) (s c : List ℕ), c ∈ tries x n s → ∃ k, c = s.rotate k ++ [x] := by
      intro n
      induction n with
      | zero => intro s c h; simp [tries] at h
      | succ n ih =>
        intro s c h
        simp only [tries, List.mem_cons] at h
        rcases h with rfl | h
        · exact ⟨_, rfl⟩
        · obtain ⟨k, hk⟩ := ih _ _ h
          exact ⟨_, by rw [hk, rotateRight, List.rotate_rotate]⟩
    obtain ⟨k, hk⟩ := key _ _ _ hm
    refine ⟨r.take (k % r.length), r.drop (k % r.length), by simp, ?_⟩
    rw [place, hk, List.rotate_eq_drop_append_take_mod]
  · intro l1 l2 he
    rw [place, ← rot l1 l2, ← he]
    by_cases h0 : l1.length = 0
    · -- the full turn
      have := tries_mem x r.length r r.length (by
        have := List.length_pos_iff.2 hr; omega) le_rfl
      rw [rotateRight_iterate r r.length le_rfl, Nat.sub_self] at this
      rw [h0]; exact hmin _ this
    · have hl : l1.length ≤ r.length := by rw [he]; simp
      by_cases h1 : l1.length = r.length
      · have := tries_mem x r.length r r.length (by omega) le_rfl
        rw [rotateRight_iterate r r.length le_rfl, Nat.sub_self, List.rotate_zero] at this
        rw [h1, List.rotate_length]; exact hmin _ this
      · have := tries_mem x r.length r (r.length - l1.length) (by omega) (by omega)
        rw [rotateRight_iterate r _ (by omega), show r.length - (r.length - l1.length) = l1.length by omega] at this
        exact hmin _ this

example : insert1 lineDist [0, 2, 1] 3 = some [2, 1, 0, 3] := by
  decide +kernel

end Verif
