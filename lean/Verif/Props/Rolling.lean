import Verif.Props.Footprint
import Mathlib.Data.List.Rotate
import Mathlib.Algebra.BigOperators.Group.List.Basic

/-!
C54, the end of rolling: after whole cycles every slice of the sky is back at the coverage of a survey without rolling.
-/

namespace Verif

open Fp

variable {K : Type} [Field K] [LinearOrder K] [IsStrictOrderedRing K] [FloorRing K]

theorem roll_perm {V : Type} (l : List V) (k : ℤ) : (roll l k).Perm l := List.rotate_perm _ _

section
omit [LinearOrder K] [IsStrictOrderedRing K] [FloorRing K]

theorem rolling_facts (n : ℕ) (hn : 1 ≤ n) (scale : K) (order : ℤ) :
    (rolling n scale order).sum = n ∧ (rolling n scale order).length = n := by
  have p := roll_perm (((n : K) - (1 - scale) * ((n : K) - 1)) :: List.replicate (n - 1) (1 - scale)) order
  unfold rolling
  refine ⟨?_, ?_⟩
  · rw [p.sum_eq, List.sum_cons, List.sum_replicate, nsmul_eq_mul, Nat.cast_sub hn]; push_cast; ring
  · rw [p.length_eq]; simp; omega

theorem cycle_facts (n : ℕ) (hn : 1 ≤ n) (scale : K) (order : ℤ) (uniform : Bool) (i : ℕ) :
    (cycle n scale order uniform i).sum = ((n + if uniform then 1 else 0 : ℕ) : K) ∧
      (cycle n scale order uniform i).length = n + if uniform then 1 else 0 := by
  have p := roll_perm (rolling n scale order) i
  have f := rolling_facts n hn scale order
  unfold cycle extra
  rw [List.sum_append, List.length_append, p.sum_eq, p.length_eq, f.1, f.2]
  cases uniform <;> simp

theorem exchange_facts (l : List K) (h : 2 ≤ l.length) : (exchange l).sum = l.sum ∧ (exchange l).length = l.length := by
  obtain ⟨a, l, rfl⟩ : ∃ a l', l = a :: l' := by cases l with | nil => simp at h | cons a l => exact ⟨a, l, rfl⟩
  have hl : l ≠ [] := by rintro rfl; simp at h
  obtain ⟨m, b, rfl⟩ : ∃ m b, l = m ++ [b] := ⟨l.dropLast, l.getLast hl, (List.dropLast_append_getLast hl).symm⟩
  unfold exchange
  have : (a :: (m ++ [b])).getLastD 0 = b := by
    rw [← List.cons_append, List.getLastD_concat]
  rw [this]
  simp
  ring

end

/-- The cycle as used in a slice. -/
def usedCycle (n : ℕ) (scale : K) (order : ℤ) (uniform delayed : Bool) (i : ℕ) : List K :=
  if delayed then exchange (cycle n scale order uniform i) else cycle n scale order uniform i

/-- Number of seasons of a cycle. -/
def cycleLength (n : ℕ) (uniform : Bool) : ℕ := n + if uniform then 1 else 0

section
omit [LinearOrder K] [IsStrictOrderedRing K] [FloorRing K]

theorem usedCycle_facts (n : ℕ) (hn : 1 ≤ n) (scale : K) (order : ℤ) (uniform delayed : Bool) (i : ℕ)
    (h2 : delayed = true → 2 ≤ cycleLength n uniform) :
    (usedCycle n scale order uniform delayed i).sum = (cycleLength n uniform : K) ∧
      (usedCycle n scale order uniform delayed i).length = cycleLength n uniform := by
  have f := cycle_facts n hn scale order uniform i
  unfold usedCycle cycleLength at *
  cases delayed
  · exact f
  · have e := exchange_facts (cycle n scale order uniform i) (by rw [f.2]; exact h2 rfl)
    exact ⟨by rw [if_pos rfl, e.1]; exact f.1, by rw [if_pos rfl, e.2]; exact f.2⟩

theorem sum_flatten_replicate (c : List K) (k : ℕ) : (List.replicate k c).flatten.sum = k * c.sum := by
  induction k with
  | zero => simp
  | succ k ih => rw [List.replicate_succ, List.flatten_cons, List.sum_append, ih]; push_cast; ring

theorem length_flatten_replicate (c : List K) (k : ℕ) : (List.replicate k c).flatten.length = k * c.length := by
  induction k with
  | zero => simp
  | succ k ih => rw [List.replicate_succ, List.flatten_cons, List.length_append, ih]; ring

/-- The rises of the first `m` seasons after the first rise. -/
theorem sum_getD_succ (l : List K) (m : ℕ) (h : m < l.length) :
    ∑ i ∈ Finset.range m, l.getD (i + 1) 0 = (l.take (m + 1)).sum - l.headD 0 := by
  have a := plateau_eq l h
  unfold plateaus at a
  rw [List.getElem?_map, List.getElem?_range h, Option.map_some, Option.some.injEq] at a
  exact a.symm

theorem take_cycles (c rest : List K) (j m : ℕ) (h : j ≤ m) :
    ((List.replicate m c).flatten ++ rest).take (j * c.length) = (List.replicate j c).flatten := by
  obtain ⟨d, rfl⟩ := Nat.exists_eq_add_of_le h
  rw [List.replicate_add, List.flatten_append, List.append_assoc, ← length_flatten_replicate, List.take_left']
  rfl

theorem slopes_length (n : ℕ) (hn : 1 ≤ n) (scale : K) (order : ℤ) (uniform delayed : Bool) (i nc ns ne : ℕ)
    (h2 : delayed = true → 2 ≤ cycleLength n uniform) :
    (slopes n scale order uniform nc ns ne delayed i).length = ns + nc * cycleLength n uniform + ne := by
  have f := usedCycle_facts n hn scale order uniform delayed i h2
  show (List.replicate ns (1 : K) ++ (List.replicate nc (usedCycle n scale order uniform delayed i)).flatten ++ List.replicate ne 1).length = _
  rw [List.length_append, List.length_append, length_flatten_replicate, f.2]; simp

/-- After `j` whole cycles the sum of rises is the number of seasons. -/
theorem slopes_sum_cycles (n : ℕ) (hn : 1 ≤ n) (scale : K) (order : ℤ) (uniform delayed : Bool) (i nc ns ne j : ℕ)
    (h2 : delayed = true → 2 ≤ cycleLength n uniform) (hj : j ≤ nc) :
    ((slopes n scale order uniform nc ns ne delayed i).take (ns + j * cycleLength n uniform)).sum
      = ((ns + j * cycleLength n uniform : ℕ) : K) := by
  have f := usedCycle_facts n hn scale order uniform delayed i h2
  show ((List.replicate ns (1 : K) ++ (List.replicate nc (usedCycle n scale order uniform delayed i)).flatten ++ List.replicate ne 1).take _).sum = _
  rw [List.append_assoc]
  have hs : ∀ m, m = ns + j * cycleLength n uniform → m = (List.replicate ns (1 : K)).length + j * cycleLength n uniform := by
    intro m hm; rw [hm]; simp
  generalize hm : ns + j * cycleLength n uniform = m
  rw [hs m hm.symm, List.take_length_add_append, ← f.2, take_cycles _ _ _ _ hj, f.2]
  rw [List.sum_append, sum_flatten_replicate, f.1, List.sum_replicate, nsmul_eq_mul, List.length_replicate]
  push_cast; ring

/-- After the last cycle the sum of rises is the number of seasons, too. -/
theorem slopes_sum_after (n : ℕ) (hn : 1 ≤ n) (scale : K) (order : ℤ) (uniform delayed : Bool) (i nc ns ne e : ℕ)
    (h2 : delayed = true → 2 ≤ cycleLength n uniform) (he : e ≤ ne) :
    ((slopes n scale order uniform nc ns ne delayed i).take (ns + nc * cycleLength n uniform + e)).sum
      = ((ns + nc * cycleLength n uniform + e : ℕ) : K) := by
  have f := usedCycle_facts n hn scale order uniform delayed i h2
  show ((List.replicate ns (1 : K) ++ (List.replicate nc (usedCycle n scale order uniform delayed i)).flatten ++ List.replicate ne 1).take _).sum = _
  have hl : ns + nc * cycleLength n uniform
      = (List.replicate ns (1 : K) ++ (List.replicate nc (usedCycle n scale order uniform delayed i)).flatten).length := by
    rw [List.length_append, length_flatten_replicate, f.2]; simp
  conv_lhs => rw [hl, List.take_length_add_append]
  rw [List.sum_append, List.sum_append, sum_flatten_replicate, f.1, List.take_replicate, min_eq_left he, List.sum_replicate,
    List.sum_replicate, nsmul_eq_mul, nsmul_eq_mul]
  push_cast; ring

theorem slopes_head (n : ℕ) (scale : K) (order : ℤ) (uniform delayed : Bool) (i nc ns ne : ℕ) (hs : 1 ≤ ns) :
    (slopes n scale order uniform nc ns ne delayed i).headD 0 = 1 := by
  obtain ⟨m, rfl⟩ := Nat.exists_eq_add_of_le hs
  unfold slopes
  rw [Nat.add_comm, List.replicate_succ]; rfl

end

/-- **C54** (whole cycles): at the end of each cycle, in the half season without new visits, every slice is at the coverage
of as many seasons without rolling. -/
theorem C54_cycles_partial {n : ℕ} (hn : 1 ≤ n) {scale P start mjd ph x : K} {order : ℤ} {uniform delayed : Bool} {i nc ns ne j : ℕ}
    (h2 : delayed = true → 2 ≤ cycleLength n uniform) (hs : 1 ≤ ns) (hj : j ≤ nc) (hP : 0 < P) (h0 : 0 ≤ x) (h1 : x ≤ 1 / 2)
    (hin : ns + j * cycleLength n uniform < ns + nc * cycleLength n uniform + ne)
    (ht : mjd + ph - start = ((ns - 1 + j * cycleLength n uniform : ℕ) + x) * P) :
    stepSlopes false P start (slopes n scale order uniform nc ns ne delayed i) mjd ph = some (stepLine P 1 start mjd ph) := by
  have hx1 : x < 1 := by linarith
  rw [C54_slopes hP h0 hx1 ht, C54_line hP h0 hx1 ht, slopes_length n hn _ _ _ _ _ _ _ _ h2, if_pos (by omega)]
  congr 1
  unfold desired
  have m : max 0 (2 * x - 1) = 0 := max_eq_left (by linarith)
  rw [m, zero_mul, zero_mul, add_zero, add_zero,
    sum_getD_succ _ _ (by rw [slopes_length n hn _ _ _ _ _ _ _ _ h2]; omega)]
  have e : ns - 1 + j * cycleLength n uniform + 1 = ns + j * cycleLength n uniform := by omega
  rw [e, slopes_sum_cycles n hn _ _ _ _ _ _ _ _ _ h2 hj, slopes_head _ _ _ _ _ _ _ _ _ hs, Finset.sum_const, Finset.card_range,
    nsmul_eq_mul, ← e]
  push_cast; ring

example : stepSlopes false (1 : ℚ) 0 (slopes 2 (8 / 10) 0 true 3 2 6 false 1) (4 + 1 / 4) 0 = some 4 ∧
    stepSlopes false (1 : ℚ) 0 (slopes 2 (8 / 10) 0 true 3 2 6 true 0) (4 + 1 / 4) 0 = some 4 ∧
    stepSlopes false (1 : ℚ) 0 (slopes 2 (8 / 10) 0 true 3 2 6 false 1) 2 0 = some (12 / 10) := by decide +kernel

example : stepSlopes false (1 : ℚ) 0 (slopes 2 (8 / 10) 0 true 3 2 6 true 1) (3 + 17 / 4) 0 = some (stepLine 1 1 0 (3 + 17 / 4) 0) :=
  C54_cycles_partial (by norm_num) (j := 2) (x := 1 / 4) (by decide) (by norm_num) (by norm_num) (by norm_num) (by norm_num) (by norm_num)
    (by decide) (by norm_num [cycleLength])

/-- **C54** (after rolling): in all seasons after the last cycle every slice follows the survey without rolling. -/
theorem C54_after_partial {n : ℕ} (hn : 1 ≤ n) {scale P start mjd ph x : K} {order : ℤ} {uniform delayed : Bool} {i nc ns ne k : ℕ}
    (h2 : delayed = true → 2 ≤ cycleLength n uniform) (hs : 1 ≤ ns) (hP : 0 < P) (h0 : 0 ≤ x) (h1 : x < 1)
    (hk : ns - 1 + nc * cycleLength n uniform ≤ k) (hin : k + 1 < ns + nc * cycleLength n uniform + ne)
    (ht : mjd + ph - start = (k + x) * P) :
    stepSlopes false P start (slopes n scale order uniform nc ns ne delayed i) mjd ph = some (stepLine P 1 start mjd ph) := by
  have hl := slopes_length n hn scale order uniform delayed i nc ns ne h2
  rw [C54_slopes hP h0 h1 ht, C54_line hP h0 h1 ht, hl, if_pos (by omega)]
  congr 1
  have sums : ∀ m, ns - 1 + nc * cycleLength n uniform ≤ m → m < ns + nc * cycleLength n uniform + ne →
      ∑ i_1 ∈ Finset.range m, (slopes n scale order uniform nc ns ne delayed i).getD (i_1 + 1) 0 = (m : K) := by
    intro m hm hm'
    rw [sum_getD_succ _ _ (by omega), slopes_head _ _ _ _ _ _ _ _ _ hs]
    have e : m + 1 = ns + nc * cycleLength n uniform + (m + 1 - (ns + nc * cycleLength n uniform)) := by omega
    rw [e, slopes_sum_after n hn _ _ _ _ _ _ _ _ _ h2 (by omega), ← e]; push_cast; ring
  have a := sums k hk (by omega)
  have b := sums (k + 1) (by omega) hin
  rw [Finset.sum_range_succ, a] at b
  have r : (slopes n scale order uniform nc ns ne delayed i).getD (k + 1) 0 = 1 := by push_cast at b; linarith
  unfold desired
  dsimp only
  rw [a, r, Finset.sum_const, Finset.card_range, nsmul_eq_mul]; ring

/-- **C54** (before rolling): the seasons at the start do not roll. -/
theorem C54_before {n : ℕ} (hn : 1 ≤ n) {scale P start mjd ph x : K} {order : ℤ} {uniform delayed : Bool} {i nc ns ne k : ℕ}
    (h2 : delayed = true → 2 ≤ cycleLength n uniform) (hP : 0 < P) (h0 : 0 ≤ x) (h1 : x < 1) (hk : k + 1 < ns)
    (ht : mjd + ph - start = (k + x) * P) :
    stepSlopes false P start (slopes n scale order uniform nc ns ne delayed i) mjd ph = some (stepLine P 1 start mjd ph) := by
  have hl := slopes_length n hn scale order uniform delayed i nc ns ne h2
  rw [C54_slopes hP h0 h1 ht, C54_line hP h0 h1 ht, hl, if_pos (by omega)]
  congr 1
  have one : ∀ m, m < ns → (slopes n scale order uniform nc ns ne delayed i).getD m 0 = 1 := by
    intro m hm
    unfold slopes
    dsimp only
    rw [List.append_assoc, List.getD_append _ _ _ _ (by simpa using hm), List.getD_eq_getElem _ _ (by simpa using hm),
      List.getElem_replicate]
  unfold desired
  dsimp only
  rw [one _ hk]
  congr 1
  exact Finset.sum_congr rfl (fun m hm => one _ (by have := Finset.mem_range.mp hm; omega))

example : stepSlopes false (1 : ℚ) 0 (slopes 2 (8 / 10) 0 true 3 2 6 true 1) 13 (3 / 4) = some (stepLine 1 1 0 13 (3 / 4)) :=
  C54_after_partial (by norm_num) (k := 13) (x := 3 / 4) (by decide) (by norm_num) (by norm_num) (by norm_num) (by norm_num) (by decide)
    (by decide) (by norm_num)

example : stepSlopes false (1 : ℚ) 0 (slopes 2 (8 / 10) 0 true 3 2 6 true 1) 0 (3 / 4) = some (stepLine 1 1 0 0 (3 / 4)) :=
  C54_before (by norm_num) (k := 0) (x := 3 / 4) (by decide) (by norm_num) (by norm_num) (by norm_num) (by norm_num) (by norm_num)

/-- The statement without the condition on the seasons at the start. -/
def EndsUniform (K : Type) [Field K] [LinearOrder K] [IsStrictOrderedRing K] [FloorRing K] : Prop :=
  ∀ (n : ℕ) (scale P mjd x : K) (i nc ns ne k : ℕ), 1 ≤ n → 0 < P → 0 ≤ x → x < 1 →
    ns + nc * cycleLength n false ≤ k + 1 → k + 1 < ns + nc * cycleLength n false + ne → mjd = (k + x) * P →
    stepSlopes false P 0 (slopes n scale 0 false nc ns ne false i) mjd 0 = some (stepLine P 1 0 mjd 0)

/-- **C54** fails when rolling starts at once: the first rise has no effect, so the slice that rolls first is behind
for ever. -/
theorem C54_no_start_violated : ¬ EndsUniform ℚ := by
  intro h
  have := h 2 1 1 5 0 0 1 0 6 5 (by norm_num) (by norm_num) (by norm_num) (by norm_num) (by decide) (by decide) (by norm_num)
  revert this
  decide +kernel

end Verif
