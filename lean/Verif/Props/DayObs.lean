import Mathlib.Data.Nat.Digits.Lemmas
import Mathlib.Tactic.Linarith
import Mathlib.Tactic.IntervalCases
import Verif.Model.DayObs
import Verif.Props.Consdb

/-!
C194: the day of observation written for a time.
-/

namespace Verif

open Cdb Dobs

/-! ### Digits -/

/-- The number a string of digits stands for. -/
def digitValue (l : List ℕ) : ℕ := l.foldl (fun a d => 10 * a + d) 0

theorem foldl_digits (l : List ℕ) (a : ℕ) : l.foldl (fun a d => 10 * a + d) a = a * 10 ^ l.length + digitValue l := by
  induction l generalizing a with
  | nil => simp [digitValue]
  | cons d l ih =>
    unfold digitValue
    rw [List.foldl_cons, List.foldl_cons, ih, ih (10 * 0 + d), List.length_cons, pow_succ]
    ring

theorem digitValue_cons (d : ℕ) (l : List ℕ) : digitValue (d :: l) = d * 10 ^ l.length + digitValue l := by
  show List.foldl _ (10 * 0 + d) l = _
  rw [foldl_digits]; simp

theorem digitValue_append (l k : List ℕ) : digitValue (l ++ k) = digitValue l * 10 ^ k.length + digitValue k := by
  unfold digitValue
  rw [List.foldl_append, foldl_digits]; rfl

theorem digitValue_zeros (n : ℕ) : digitValue (List.replicate n 0) = 0 := by
  induction n with
  | zero => rfl
  | succ n ih => rw [List.replicate_succ, digitValue_cons, ih]; simp

theorem digitValue_lt {l : List ℕ} (h : ∀ d ∈ l, d < 10) : digitValue l < 10 ^ l.length := by
  induction l with
  | nil => simp [digitValue]
  | cons d l ih =>
    have h1 := ih fun x hx => h x (List.mem_cons_of_mem _ hx)
    have h2 := h d (by simp)
    rw [digitValue_cons, List.length_cons, pow_succ]
    have : d * 10 ^ l.length ≤ 9 * 10 ^ l.length := Nat.mul_le_mul_right _ (by omega)
    omega

theorem decimal_spec (n : ℕ) : (∀ d ∈ decimal n, d < 10) ∧ digitValue (decimal n) = n ∧
    ∀ w, 0 < w → n < 10 ^ w → (decimal n).length ≤ w := by
  unfold decimal
  by_cases h : n = 0
  · subst h
    simp [digitValue]
    intro w hw; omega
  · rw [if_neg h]
    refine ⟨?_, ?_, ?_⟩
    · intro d hd
      exact Nat.digits_lt_base (by norm_num) (List.mem_reverse.1 hd)
    · unfold digitValue
      rw [List.foldl_reverse]
      have : ∀ l : List ℕ, l.foldr (fun x y => 10 * y + x) 0 = Nat.ofDigits 10 l := by
        intro l
        induction l with
        | nil => rfl
        | cons d l ih => rw [List.foldr_cons, ih, Nat.ofDigits_cons]; ring
      rw [this, Nat.ofDigits_digits]
    · intro w _ hw
      rw [List.length_reverse]
      exact (Nat.digits_length_le_iff (by norm_num) n).2 hw

theorem zfill_spec {w n : ℕ} (hw : 0 < w) (hn : n < 10 ^ w) :
    (zfill w n).length = w ∧ digitValue (zfill w n) = n ∧ ∀ d ∈ zfill w n, d < 10 := by
  obtain ⟨h1, h2, h3⟩ := decimal_spec n
  have h4 := h3 w hw hn
  unfold zfill
  refine ⟨by rw [List.length_append, List.length_replicate]; omega, ?_, ?_⟩
  · rw [digitValue_append, digitValue_zeros, h2]; simp
  · intro d hd
    rcases List.mem_append.1 hd with hd | hd
    · rw [List.eq_of_mem_replicate hd]; norm_num
    · exact h1 d hd

/-- Strings of digits of one length compare as the numbers they stand for. -/
theorem digits_order {l k : List ℕ} (hl : ∀ d ∈ l, d < 10) (hk : ∀ d ∈ k, d < 10) (hlen : l.length = k.length) :
    l < k ↔ digitValue l < digitValue k := by
  induction l generalizing k with
  | nil =>
    cases k with
    | nil => simp
    | cons _ _ => simp at hlen
  | cons a l ih =>
    cases k with
    | nil => simp at hlen
    | cons b k =>
      have hlen' : l.length = k.length := by simpa using hlen
      have h1 := digitValue_lt fun x hx => hl x (List.mem_cons_of_mem _ hx)
      have h2 := digitValue_lt fun x hx => hk x (List.mem_cons_of_mem _ hx)
      rw [List.cons_lt_cons_iff, digitValue_cons, digitValue_cons, ih (fun x hx => hl x (List.mem_cons_of_mem _ hx))
        (fun x hx => hk x (List.mem_cons_of_mem _ hx)) hlen', hlen']
      rw [hlen'] at h1
      rcases lt_trichotomy a b with hab | hab | hab
      · have : (a + 1) * 10 ^ k.length ≤ b * 10 ^ k.length := Nat.mul_le_mul_right _ hab
        rw [add_mul] at this
        constructor
        · intro _; omega
        · intro _; exact .inl hab
      · subst hab
        simp
      · have : (b + 1) * 10 ^ k.length ≤ a * 10 ^ k.length := Nat.mul_le_mul_right _ hab
        rw [add_mul] at this
        constructor
        · rintro (h | ⟨h, -⟩) <;> omega
        · intro _; omega

/-! ### Dates -/

/-- The day of a date in the Gregorian calendar, counted from 1 January of year 1 as day 1. -/
def ordinal (t : Date) : ℕ :=
  365 * (t.y - 1) + (t.y - 1) / 4 - (t.y - 1) / 100 + (t.y - 1) / 400 + (((List.range (t.m - 1)).map fun k => gregorian t.y (k + 1)).sum) + t.d

theorem next_dayAfter {t : Date} (h : IsDate t) : next t = dayAfter t := by
  unfold next dayAfter
  rw [monthDays_gregorian h.2.1 h.2.2.1]

theorem ordinal_next {t : Date} (h : IsDate t) : ordinal (dayAfter t) = ordinal t + 1 := by
  obtain ⟨y, m, d⟩ := t
  obtain ⟨h1, h2, h3, h4, h5⟩ := h
  dsimp only at h1 h2 h3 h4 h5
  have q1 : ∀ k : ℕ, k / 100 ≤ k / 4 := fun k => by omega
  unfold dayAfter
  dsimp only
  by_cases c1 : d < gregorian y m
  · rw [if_pos c1]
    unfold ordinal
    dsimp only
    omega
  · rw [if_neg c1]
    have hd : d = gregorian y m := by omega
    by_cases c2 : m < 12
    · rw [if_pos c2]
      unfold ordinal
      dsimp only
      obtain ⟨k, rfl⟩ : ∃ k, m = k + 1 := ⟨m - 1, by omega⟩
      simp only [Nat.add_sub_cancel]
      rw [List.range_succ, List.map_append, List.sum_append]
      simp only [List.map_cons, List.map_nil, List.sum_cons, List.sum_nil]
      omega
    · rw [if_neg c2]
      have hm12 : m = 12 := by omega
      subst hm12
      rw [gregorian_december] at hd
      subst hd
      unfold ordinal
      dsimp only
      have e2 : ((List.range (12 - 1)).map fun k => gregorian y (k + 1)).sum = if LeapYear y then 335 else 334 := by
        by_cases hl : LeapYear y <;> simp [List.range_succ, gregorian, hl]
      have e1 : ((List.range (1 - 1)).map fun k => gregorian (y + 1) (k + 1)).sum = 0 := rfl
      rw [e2, e1]
      have e3 : LeapYear y ↔ ((4 ∣ y ∧ ¬ 100 ∣ y) ∨ 400 ∣ y) := Iff.rfl
      obtain ⟨k, rfl⟩ : ∃ k, y = k + 1 := ⟨y - 1, by omega⟩
      by_cases hl : LeapYear (k + 1)
      · rw [if_pos hl]
        rw [e3] at hl
        simp only [Nat.add_sub_cancel]
        omega
      · rw [if_neg hl]
        rw [e3] at hl
        simp only [Nat.add_sub_cancel]
        omega

theorem dateOf_date (n : ℕ) : IsDate (dateOf n) ∧ ordinal (dateOf n) = n + 678576 := by
  induction n with
  | zero =>
    refine ⟨?_, by decide +kernel⟩
    unfold IsDate dateOf
    decide +kernel
  | succ n ih =>
    have e : dateOf (n + 1) = dayAfter (dateOf n) := next_dayAfter ih.1
    rw [e]
    have h1 := ordinal_next ih.1
    have h2 := ih.2
    exact ⟨(dayAfter_date ih.1).1, by omega⟩

theorem dateOf_code {a b : ℕ} (h : a < b) : (dateOf a).code < (dateOf b).code := by
  induction b with
  | zero => omega
  | succ b ih =>
    have e : dateOf (b + 1) = dayAfter (dateOf b) := next_dayAfter (dateOf_date b).1
    have h1 := (dayAfter_date (dateOf_date b).1).2
    rw [e]
    rcases Nat.lt_succ_iff_lt_or_eq.1 h with h | h
    · exact lt_trans (ih h) h1
    · subst h; exact h1

theorem write_spec {t : Date} (h : IsDate t) (hy : t.y ≤ 9999) :
    (write t).length = 8 ∧ digitValue (write t) = t.code ∧ ∀ d ∈ write t, d < 10 := by
  obtain ⟨h1, h2, h3, h4, h5⟩ := h
  have hg := gregorian_range t.y t.m
  obtain ⟨a1, a2, a3⟩ := zfill_spec (w := 4) (n := t.y) (by norm_num) (by norm_num; omega)
  obtain ⟨b1, b2, b3⟩ := zfill_spec (w := 2) (n := t.m) (by norm_num) (by norm_num; omega)
  obtain ⟨c1, c2, c3⟩ := zfill_spec (w := 2) (n := t.d) (by norm_num) (by norm_num; omega)
  unfold write
  refine ⟨by rw [List.length_append, List.length_append, a1, b1, c1], ?_, ?_⟩
  · rw [digitValue_append, digitValue_append, a2, b2, c2, b1, c1]
    unfold Date.code
    ring
  · intro d hd
    rcases List.mem_append.1 hd with hd | hd
    · rcases List.mem_append.1 hd with hd | hd
      · exact a3 d hd
      · exact b3 d hd
    · exact c3 d hd

/-- The last day whose year has four digits: 31 December 9999 is day 2973483. -/
theorem year_small {n : ℕ} (h : n ≤ 2973483) : (dateOf n).y ≤ 9999 := by
  obtain ⟨h1, h2⟩ := dateOf_date n
  by_contra hc
  unfold ordinal at h2
  have : 9999 ≤ (dateOf n).y - 1 := by omega
  have := h1.2.2.2.1
  omega

/-! ### Theorems -/

/-- C194. The day of observation is eight digits, the year, month and day of a date of the
Gregorian calendar, namely of the day that contains the given time moved by the offset: 1 January
of year 1 is day 1, and day 0 of the Modified Julian Date is day 678576 of that count. -/
theorem C194_date {mjd offset : ℚ} (h0 : 0 ≤ mjd + offset) (h1 : mjd + offset < 2973484) :
    ∃ (t : Date) (n : ℕ), IsDate t ∧ ordinal t = n + 678576 ∧ (n : ℚ) ≤ mjd + offset ∧ mjd + offset < n + 1 ∧
      (dayobs mjd offset).length = 8 ∧ (∀ d ∈ dayobs mjd offset, d < 10) ∧
      digitValue ((dayobs mjd offset).take 4) = t.y ∧ digitValue (((dayobs mjd offset).drop 4).take 2) = t.m ∧
      digitValue ((dayobs mjd offset).drop 6) = t.d := by
  have hf : 0 ≤ ⌊mjd + offset⌋ := Int.floor_nonneg.2 h0
  have hc : ((⌊mjd + offset⌋.toNat : ℕ) : ℤ) = ⌊mjd + offset⌋ := Int.toNat_of_nonneg hf
  have hq : ((⌊mjd + offset⌋.toNat : ℕ) : ℚ) = (⌊mjd + offset⌋ : ℚ) := by exact_mod_cast hc
  have hlt : ⌊mjd + offset⌋ < 2973484 := Int.floor_lt.2 (by exact_mod_cast h1)
  obtain ⟨d1, d2⟩ := dateOf_date ⌊mjd + offset⌋.toNat
  have hy := year_small (n := ⌊mjd + offset⌋.toNat) (by omega)
  obtain ⟨w1, w2, w3⟩ := write_spec d1 hy
  refine ⟨dateOf ⌊mjd + offset⌋.toNat, ⌊mjd + offset⌋.toNat, d1, d2, ?_, ?_, w1, w3, ?_⟩
  · rw [hq]; exact Int.floor_le _
  · rw [hq]; exact Int.lt_floor_add_one _
  · unfold dayobs write
    generalize dateOf ⌊mjd + offset⌋.toNat = t at *
    obtain ⟨g1, g2, g3, g4, g5⟩ := d1
    have hg := gregorian_range t.y t.m
    obtain ⟨a1, a2, a3⟩ := zfill_spec (w := 4) (n := t.y) (by norm_num) (by norm_num; omega)
    obtain ⟨b1, b2, b3⟩ := zfill_spec (w := 2) (n := t.m) (by norm_num) (by norm_num; omega)
    obtain ⟨c1, c2, c3⟩ := zfill_spec (w := 2) (n := t.d) (by norm_num) (by norm_num; omega)
    refine ⟨?_, ?_, ?_⟩
    · rw [List.append_assoc, List.take_left' a1, a2]
    · rw [List.append_assoc, List.drop_left' a1, List.take_left' b1, b2]
    · rw [List.drop_left' (by rw [List.length_append, a1, b1]), c2]

/-- C194. Days of observation, compared as strings, are ordered as the days are, and are equal
exactly for times of one day. -/
theorem C194_order {mjd mjd' offset : ℚ} (h0 : 0 ≤ mjd + offset) (h1 : mjd + offset < 2973484) (h0' : 0 ≤ mjd' + offset)
    (h1' : mjd' + offset < 2973484) :
    (dayobs mjd offset < dayobs mjd' offset ↔ ∃ n : ℤ, mjd + offset < n ∧ (n : ℚ) ≤ mjd' + offset) ∧
      (dayobs mjd offset = dayobs mjd' offset ↔ ⌊mjd + offset⌋ = ⌊mjd' + offset⌋) := by
  have hf : 0 ≤ ⌊mjd + offset⌋ := Int.floor_nonneg.2 h0
  have hlt : ⌊mjd + offset⌋ < 2973484 := Int.floor_lt.2 (by exact_mod_cast h1)
  have hf' : 0 ≤ ⌊mjd' + offset⌋ := Int.floor_nonneg.2 h0'
  have hlt' : ⌊mjd' + offset⌋ < 2973484 := Int.floor_lt.2 (by exact_mod_cast h1')
  have key : ∀ a b : ℕ, a ≤ 2973483 → b ≤ 2973483 → (write (dateOf a) < write (dateOf b) ↔ a < b) := by
    intro a b ha hb
    obtain ⟨x1, x2, x3⟩ := write_spec (dateOf_date a).1 (year_small ha)
    obtain ⟨y1, y2, y3⟩ := write_spec (dateOf_date b).1 (year_small hb)
    rw [digits_order x3 y3 (by rw [x1, y1]), x2, y2]
    constructor
    · intro h
      by_contra hc
      rcases Nat.lt_or_ge b a with hba | hba
      · have := dateOf_code hba; omega
      · obtain rfl : a = b := by omega
        omega
    · exact dateOf_code
  have hex : (∃ n : ℤ, mjd + offset < n ∧ (n : ℚ) ≤ mjd' + offset) ↔ ⌊mjd + offset⌋ < ⌊mjd' + offset⌋ := by
    constructor
    · rintro ⟨n, hn, hn'⟩
      exact lt_of_lt_of_le (Int.floor_lt.2 hn) (Int.le_floor.2 hn')
    · intro h
      exact ⟨⌊mjd' + offset⌋, Int.floor_lt.1 h, Int.floor_le _⟩
  unfold dayobs
  refine ⟨?_, ?_⟩
  · rw [hex, key _ _ (by omega) (by omega)]
    omega
  · constructor
    · intro h
      have n1 := (key ⌊mjd + offset⌋.toNat ⌊mjd' + offset⌋.toNat (by omega) (by omega)).not.1 (by rw [h]; exact lt_irrefl _)
      have n2 := (key ⌊mjd' + offset⌋.toNat ⌊mjd + offset⌋.toNat (by omega) (by omega)).not.1 (by rw [h]; exact lt_irrefl _)
      omega
    · intro h; rw [h]

/-- The first day of 2026. -/
example : ordinal ⟨2026, 1, 1⟩ = 61041 + 678576 := by decide +kernel

/-- Months and days of one digit have a zero in front. -/
example : write ⟨2026, 3, 9⟩ = [2, 0, 2, 6, 0, 3, 0, 9] := by
  have h : ∀ n, n < 10 → n ≠ 0 → decimal n = [n] := by
    intro n h h0
    unfold decimal
    rw [if_neg h0, Nat.digits_of_lt 10 n h0 h]; rfl
  unfold write zfill
  rw [h 3 (by norm_num) (by norm_num), h 9 (by norm_num) (by norm_num)]
  have : decimal 2026 = [2, 0, 2, 6] := by unfold decimal; norm_num
  dsimp only
  rw [this]; rfl

end Verif
