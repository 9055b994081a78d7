import Verif.Model.Htm
import Mathlib.Tactic.Ring
import Mathlib.Tactic.Linarith
import Mathlib.Tactic.NormNum

/-!
# Numbers of trixels (C134)
-/

namespace Verif

open Htm

theorem shr2 (i : ℕ) : i >>> 2 = i / 4 := by rw [Nat.shiftRight_eq_div_pow]

theorem shl2 (i : ℕ) : i <<< 2 = 4 * i := by rw [Nat.shiftLeft_eq]; omega

theorem shr_four (i m : ℕ) : i >>> (2 * m) = i / 4 ^ m := by rw [Nat.shiftRight_eq_div_pow, pow_mul]; norm_num

theorem shl_four (i m : ℕ) : i <<< (2 * m) = i * 4 ^ m := by rw [Nat.shiftLeft_eq, pow_mul]; norm_num

/-- C134. The level of a number is `L` exactly when it is written with `2 L + 2` bits, the first of them one; there is an error for
all other numbers. -/
theorem C134_level (i L : ℕ) : levelFrom i = some L ↔ 1 ≤ L ∧ 8 * 4 ^ (L - 1) ≤ i ∧ i < 16 * 4 ^ (L - 1) := by
  induction i using Nat.strong_induction_on generalizing L with
  | _ i ih =>
    rw [levelFrom]
    split_ifs with h h'
    · rw [shr2, Option.map_eq_some_iff]
      have hlt : i / 4 < i := by omega
      constructor
      · rintro ⟨l, hl, rfl⟩
        obtain ⟨h1, h2, h3⟩ := (ih _ hlt l).1 hl
        obtain ⟨k, rfl⟩ := Nat.exists_eq_add_of_le' h1
        simp only [Nat.add_sub_cancel] at *
        rw [pow_succ]
        refine ⟨by omega, ?_, ?_⟩ <;> omega
      · rintro ⟨h1, h2, h3⟩
        obtain ⟨k, rfl⟩ := Nat.exists_eq_add_of_le' h1
        simp only [Nat.add_sub_cancel] at *
        cases k with
        | zero => simp at h3; omega
        | succ k =>
          refine ⟨k + 1, (ih _ hlt (k + 1)).2 ⟨by omega, ?_, ?_⟩, rfl⟩
          all_goals
            simp only [Nat.add_sub_cancel]
            rw [pow_succ] at h2 h3
            omega
    · simp only [reduceCtorEq, false_iff]
      rintro ⟨-, h2, -⟩
      have := Nat.one_le_pow (L - 1) 4 (by norm_num)
      omega
    · simp only [Option.some.injEq]
      constructor
      · rintro rfl
        simp
        omega
      · rintro ⟨h1, h2, h3⟩
        by_contra hne
        have : 4 ^ 1 ≤ 4 ^ (L - 1) := Nat.pow_le_pow_right (by norm_num) (by omega)
        omega

/-- Down the digits of a number. -/
noncomputable def walk (i : ℕ) : ℕ → Trixel → Option Trixel
  | 0, t => some t
  | n + 1, t => (t.child (i / 4 ^ n % 4)).bind (walk i n)

theorem target_digit (i m : ℕ) : (i &&& (3 <<< (2 * m))) >>> (2 * m) = i / 4 ^ m % 4 := by
  rw [Nat.shiftRight_and_distrib, Nat.shiftLeft_shiftRight, shr_four]
  exact Nat.and_two_pow_sub_one_eq_mod _ 2

theorem descend_walk (i L : ℕ) : ∀ (n ix : ℕ) (t : Trixel) (cm : ℕ), n + ix = L - 1 → (0 < n → cm = 3 <<< (2 * (n - 1))) →
    descend i L n ix cm t = walk i n t := by
  intro n
  induction n with
  | zero => intro ix t cm _ _; rfl
  | succ n ih =>
    intro ix t cm hn hc
    have hc' := hc (by omega)
    simp only [Nat.add_sub_cancel] at hc'
    have e : L - ix - 2 = n := by omega
    unfold descend walk
    simp only
    rw [hc', e, target_digit, if_neg (show ¬ 4 ≤ i / 4 ^ n % 4 by omega)]
    cases t.child (i / 4 ^ n % 4) with
    | none => rfl
    | some c =>
      simp only [Option.bind_some]
      apply ih (ix + 1) c _ (by omega)
      intro h0
      obtain ⟨m, rfl⟩ : ∃ m, n = m + 1 := ⟨n - 1, by omega⟩
      simp only [Nat.add_sub_cancel]
      rw [shl_four, shl_four, shr2, pow_succ]
      omega

theorem trixelFrom_walk {i L : ℕ} (h : levelFrom i = some L) :
    trixelFrom i = (baseOf (i / 4 ^ (L - 1))).bind (walk i (L - 1)) := by
  unfold trixelFrom
  rw [h]
  simp only
  rw [shr_four]
  cases baseOf (i / 4 ^ (L - 1)) with
  | none => rfl
  | some t =>
    simp only [Option.bind_some]
    split_ifs with h1
    · subst h1; rfl
    · apply descend_walk i L (L - 1) 0 t _ (by omega)
      intro _
      congr 2

theorem walk_last (k j : ℕ) (hj : j < 4) : ∀ (n : ℕ) (t : Trixel), walk (4 * k + j) (n + 1) t = (walk k n t).bind (fun t => t.child j) := by
  intro n
  induction n with
  | zero =>
    intro t
    simp only [walk, pow_zero, Nat.div_one]
    rw [show (4 * k + j) % 4 = j by omega]
    rw [Option.bind_some]
    cases t.child j <;> rfl
  | succ n ih =>
    intro t
    rw [walk, walk]
    have e : (4 * k + j) / 4 ^ (n + 1) % 4 = k / 4 ^ n % 4 := by
      rw [pow_succ', ← Nat.div_div_eq_div_mul, show (4 * k + j) / 4 = k by omega]
    rw [e]
    cases t.child (k / 4 ^ n % 4) with
    | none => rfl
    | some c => exact ih c

theorem base_some {b : ℕ} (h1 : 8 ≤ b) (h2 : b < 16) : ∃ t, baseOf b = some t ∧ t.id = b := by
  have : b = 8 ∨ b = 9 ∨ b = 10 ∨ b = 11 ∨ b = 12 ∨ b = 13 ∨ b = 14 ∨ b = 15 := by omega
  rcases this with rfl | rfl | rfl | rfl | rfl | rfl | rfl | rfl <;> simp [baseOf, s0, s1, s2, s3, n0, n1, n2, n3]

theorem child_some (t : Trixel) {j : ℕ} (hj : j < 4) : ∃ c, t.child j = some c ∧ c.id = 4 * t.id + j := by
  unfold Trixel.child
  simp only [shl2]
  have : j = 0 ∨ j = 1 ∨ j = 2 ∨ j = 3 := by omega
  rcases this with rfl | rfl | rfl | rfl <;> simp

/-- C134. Appending a digit to a number is going to that child. -/
theorem C134_child (k j : ℕ) (hj : j < 4) (hk : (levelFrom k).isSome) : trixelFrom (4 * k + j) = (trixelFrom k).bind (fun t => t.child j) := by
  obtain ⟨L, hL⟩ := Option.isSome_iff_exists.1 hk
  obtain ⟨h1, h2, h3⟩ := (C134_level _ _).1 hL
  have hL' : levelFrom (4 * k + j) = some (L + 1) := by
    rw [C134_level]
    refine ⟨by omega, ?_, ?_⟩
    all_goals
      rw [show L + 1 - 1 = (L - 1) + 1 by omega, pow_succ]
      omega
  rw [trixelFrom_walk hL', trixelFrom_walk hL, Nat.add_sub_cancel]
  have e : (4 * k + j) / 4 ^ L = k / 4 ^ (L - 1) := by
    conv_lhs => rw [show L = (L - 1) + 1 by omega, pow_succ', ← Nat.div_div_eq_div_mul, show (4 * k + j) / 4 = k by omega]
  rw [e]
  cases baseOf (k / 4 ^ (L - 1)) with
  | none => rfl
  | some t =>
    simp only [Option.bind_some]
    conv_lhs => rw [show L = (L - 1) + 1 by omega]
    exact walk_last k j hj _ t

/-- C134. A trixel is found for exactly the numbers that have a level; it has that number and that level. -/
theorem C134_trixel (i : ℕ) :
    (∀ L, levelFrom i = some L → ∃ t, trixelFrom i = some t ∧ t.id = i ∧ t.level = L) ∧ (levelFrom i = none → trixelFrom i = none) := by
  refine ⟨?_, fun h => by unfold trixelFrom; rw [h]⟩
  intro L hL
  have key : ∀ (L i : ℕ), levelFrom i = some L → ∃ t, trixelFrom i = some t ∧ t.id = i := by
    intro L
    induction L with
    | zero => intro i h; have := ((C134_level _ _).1 h).1; omega
    | succ L ih =>
      intro i h
      obtain ⟨h1, h2, h3⟩ := (C134_level _ _).1 h
      rw [Nat.add_sub_cancel] at h2 h3
      by_cases hL : L = 0
      · subst hL
        simp only [pow_zero, mul_one] at h2 h3
        obtain ⟨t, ht, hi⟩ := base_some h2 h3
        refine ⟨t, ?_, hi⟩
        rw [trixelFrom_walk h]
        simp [ht, walk]
      · have hd : levelFrom (i / 4) = some L := by
          rw [C134_level]
          rw [show L = (L - 1) + 1 by omega, pow_succ] at h2 h3
          refine ⟨by omega, ?_, ?_⟩ <;> omega
        obtain ⟨t, ht, hi⟩ := ih _ hd
        obtain ⟨c, hc, hci⟩ := child_some t (Nat.mod_lt i (show 4 > 0 by norm_num))
        refine ⟨c, ?_, by rw [hci, hi]; omega⟩
        have := C134_child (i / 4) (i % 4) (Nat.mod_lt _ (by norm_num)) (by rw [hd]; rfl)
        rw [show 4 * (i / 4) + i % 4 = i by omega, ht] at this
        rw [this]
        exact hc
  obtain ⟨t, ht, hi⟩ := key L i hL
  refine ⟨t, ht, hi, ?_⟩
  obtain ⟨h1, h2, h3⟩ := (C134_level _ _).1 hL
  have hb : bits i = 2 * L + 2 := by
    unfold bits
    have h4 : 4 ^ (L - 1) = 2 ^ (2 * (L - 1)) := by rw [pow_mul]; norm_num
    rw [if_neg (by have := Nat.one_le_pow (L - 1) 4 (by norm_num); omega)]
    apply le_antisymm
    · rw [Nat.size_le]
      rw [show 2 * L + 2 = 2 * (L - 1) + 4 by omega, pow_add, ← h4]
      omega
    · rw [show 2 * L + 2 = (2 * L + 1) + 1 by omega, Nat.succ_le_iff, Nat.lt_size]
      rw [show 2 * L + 1 = 2 * (L - 1) + 3 by omega, pow_add, ← h4]
      omega
  unfold Trixel.level
  rw [hi, hb]
  push_cast
  ring

/-- C134. Each level has eight times a power of four numbers. -/
theorem C134_number (L : ℕ) (hL : 1 ≤ L) : ∃ is : List ℕ, is.Nodup ∧ is.length = 8 * 4 ^ (L - 1) ∧ ∀ i, i ∈ is ↔ levelFrom i = some L := by
  refine ⟨List.range' (8 * 4 ^ (L - 1)) (8 * 4 ^ (L - 1)), List.nodup_range', by simp, ?_⟩
  intro i
  rw [List.mem_range'_1, C134_level]
  constructor
  · rintro ⟨h1, h2⟩
    exact ⟨hL, h1, by omega⟩
  · rintro ⟨-, h1, h2⟩
    exact ⟨h1, by omega⟩

example : levelFrom 227 = some 3 := by rw [C134_level]; norm_num
example : levelFrom 31 = none := by
  rw [levelFrom]
  rw [dif_pos (by norm_num), shr2, levelFrom]
  norm_num

end Verif
