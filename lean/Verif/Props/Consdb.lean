import Verif.Model.Consdb
import Verif.Props.Sphere
import Mathlib.Algebra.Order.Round
import Mathlib.Data.List.Nodup
import Mathlib.Tactic.Linarith
import Mathlib.Tactic.NormNum
import Mathlib.Tactic.FieldSimp
import Mathlib.Tactic.Ring

/-!
# Visits from the consolidated database (C160-C165)
-/

namespace Verif

open Cdb

/-! ### C160 -/

/-- C160. Where every answer other than a success is an error, the query ends after at most three requests: with the data of the first success, or else with the error of the third
answer. -/
theorem C160_retry_partial {α : Type} (rs : ℕ → Reply α) (herr : ∀ i, (rs i).status ≠ 200 → 400 ≤ (rs i).status ∧ (rs i).status < 600) :
    (∀ i < 3, (rs i).status = 200 → (∀ j < i, (rs j).status ≠ 200) → post rs 3 0 0 = some (i + 1, .data (rs i).body)) ∧
    ((∀ i < 3, (rs i).status ≠ 200) → post rs 3 0 0 = some (3, .raised (rs 2).status)) := by
  constructor
  · intro i hi h hbefore
    have hcases : i = 0 ∨ i = 1 ∨ i = 2 := by omega
    rcases hcases with rfl | rfl | rfl
    · simp [post, h]
    · have h0 := hbefore 0 (by omega)
      simp [post, h, h0]
    · have h0 := hbefore 0 (by omega)
      have h1 := hbefore 1 (by omega)
      simp [post, h, h0, h1]
  · intro h
    have h0 := h 0 (by omega)
    have h1 := h 1 (by omega)
    have h2 := h 2 (by omega)
    have := herr 2 h2
    simp [post, h0, h1, h2, Reply.isError, this]

/-- C160. Whatever the answers, data that are returned are those of the first success. -/
theorem C160_first {α : Type} (rs : ℕ → Reply α) (fuel n : ℕ) (a : α) (h : post rs fuel 0 0 = some (n, .data a)) :
    ∃ i, n = i + 1 ∧ (rs i).status = 200 ∧ (rs i).body = a ∧ ∀ j < i, (rs j).status ≠ 200 := by
  have key : ∀ fuel sent failed, (∀ j < sent, (rs j).status ≠ 200) → post rs fuel sent failed = some (n, .data a) →
      ∃ i, n = i + 1 ∧ (rs i).status = 200 ∧ (rs i).body = a ∧ ∀ j < i, (rs j).status ≠ 200 := by
    intro fuel
    induction fuel with
    | zero =>
      intro sent failed _ h
      cases h
    | succ fuel ih =>
      intro sent failed hb h
      unfold post at h
      by_cases h1 : (rs sent).status = 200
      · rw [if_pos h1] at h
        cases h
        exact ⟨sent, rfl, h1, rfl, hb⟩
      · rw [if_neg h1] at h
        by_cases h2 : 2 < failed + 1 ∧ (rs sent).isError
        · rw [if_pos h2] at h
          cases h
        · rw [if_neg h2] at h
          refine ih _ _ (fun j hj => ?_) h
          rcases Nat.lt_succ_iff_lt_or_eq.1 hj with hj | rfl
          · exact hb j hj
          · exact h1
  exact key fuel 0 0 (fun j hj => absurd hj (Nat.not_lt_zero j)) h

/-- C160 does not hold for answers that are neither a success nor an error, as 204: requests are sent without end. -/
theorem C160_endless_violated (fuel : ℕ) : post (fun _ => (⟨204, ()⟩ : Reply Unit)) fuel 0 0 = none := by
  have key : ∀ fuel sent failed, post (fun _ => (⟨204, ()⟩ : Reply Unit)) fuel sent failed = none := by
    intro fuel
    induction fuel with
    | zero => exact fun _ _ => rfl
    | succ fuel ih =>
      intro sent failed
      unfold post
      rw [if_neg (by decide), if_neg (by rintro ⟨_, h⟩; exact absurd h (by decide)), ih]
  exact key fuel 0 0

/-- Two failures and a success. -/
example : (post (fun i => (⟨if i = 2 then 200 else 503, i⟩ : Reply ℕ)) 3 0 0).map (fun r => r.1) = some 3 := by decide

/-! ### C161 -/

/-- The leap years of the Gregorian calendar. -/
def LeapYear (y : ℕ) : Prop := (4 ∣ y ∧ ¬ 100 ∣ y) ∨ 400 ∣ y

instance (y : ℕ) : Decidable (LeapYear y) := inferInstanceAs (Decidable (_ ∨ _))

/-- The length of a month of the Gregorian calendar. -/
def gregorian (y m : ℕ) : ℕ :=
  if m ∈ [1, 3, 5, 7, 8, 10, 12] then 31 else if m ∈ [4, 6, 9, 11] then 30 else if LeapYear y then 29 else 28

theorem leap_year (y : ℕ) : leap y = true ↔ LeapYear y := by
  unfold leap LeapYear
  simp only [Bool.and_eq_true, Bool.or_eq_true, beq_iff_eq, bne_iff_ne, ne_eq]
  omega

theorem monthDays_gregorian {y m : ℕ} (h1 : 1 ≤ m) (h2 : m ≤ 12) : monthDays y m = gregorian y m := by
  unfold monthDays gregorian
  simp only [leap_year, List.mem_cons, List.not_mem_nil, or_false]
  split_ifs <;> omega

/-- A date that exists. -/
def IsDate (t : Date) : Prop := 1 ≤ t.y ∧ 1 ≤ t.m ∧ t.m ≤ 12 ∧ 1 ≤ t.d ∧ t.d ≤ gregorian t.y t.m

/-- The day after. -/
def dayAfter (t : Date) : Date :=
  if t.d < gregorian t.y t.m then ⟨t.y, t.m, t.d + 1⟩ else if t.m < 12 then ⟨t.y, t.m + 1, 1⟩ else ⟨t.y + 1, 1, 1⟩

/-- The date a number of days later. -/
def daysAfter : ℕ → Date → Date
  | 0, t => t
  | n + 1, t => dayAfter (daysAfter n t)

theorem gregorian_range (y m : ℕ) : 28 ≤ gregorian y m ∧ gregorian y m ≤ 31 := by
  unfold gregorian
  split_ifs <;> omega

theorem gregorian_december (y : ℕ) : gregorian y 12 = 31 := rfl

theorem dayAfter_date {t : Date} (h : IsDate t) : IsDate (dayAfter t) ∧ t.code < (dayAfter t).code := by
  obtain ⟨h1, h2, h3, h4, h5⟩ := h
  have hr := gregorian_range t.y t.m
  unfold dayAfter
  split_ifs with ha hb
  · refine ⟨⟨h1, h2, h3, by simp, ha⟩, ?_⟩
    unfold Date.code
    dsimp only
    omega
  · refine ⟨⟨h1, by simp, hb, le_refl _, ?_⟩, ?_⟩
    · have := gregorian_range t.y (t.m + 1)
      dsimp only
      omega
    · unfold Date.code
      dsimp only
      omega
  · refine ⟨⟨by simp, le_refl _, by simp, le_refl _, ?_⟩, ?_⟩
    · have := gregorian_range (t.y + 1) 1
      dsimp only
      omega
    · unfold Date.code
      dsimp only
      omega

/-- No date lies between one and the day after. -/
theorem code_gap {t r : Date} (ht : IsDate t) (hr : IsDate r) (h : t.code < r.code) : (dayAfter t).code ≤ r.code := by
  obtain ⟨h1, h2, h3, h4, h5⟩ := ht
  obtain ⟨g1, g2, g3, g4, g5⟩ := hr
  have hmt := gregorian_range t.y t.m
  have hmr := gregorian_range r.y r.m
  unfold Date.code at h
  have hy : t.y ≤ r.y := by omega
  rcases Nat.lt_or_ge t.y r.y with hlt | hge
  · unfold dayAfter Date.code
    split_ifs <;> dsimp only <;> omega
  · have hyeq : t.y = r.y := by omega
    have hm : t.m ≤ r.m := by omega
    rcases Nat.lt_or_ge t.m r.m with hlt | hge
    · unfold dayAfter Date.code
      split_ifs <;> dsimp only <;> omega
    · have hmeq : t.m = r.m := by omega
      have hd : t.d < r.d := by omega
      have : t.d < gregorian t.y t.m := by
        rw [hyeq, hmeq]
        omega
      unfold dayAfter Date.code
      rw [if_pos this]
      dsimp only
      omega

theorem code_inj {t r : Date} (ht : IsDate t) (hr : IsDate r) (h : t.code = r.code) : t = r := by
  obtain ⟨h1, h2, h3, h4, h5⟩ := ht
  obtain ⟨g1, g2, g3, g4, g5⟩ := hr
  have hmt := gregorian_range t.y t.m
  have hmr := gregorian_range r.y r.m
  unfold Date.code at h
  cases t
  cases r
  simp only [Date.mk.injEq]
  dsimp only at *
  omega

theorem prev_after {t : Date} (h : IsDate t) (hy : 2 ≤ t.y) : IsDate t.prev ∧ dayAfter t.prev = t ∧ t.y ≤ t.prev.y + 1 := by
  obtain ⟨h1, h2, h3, h4, h5⟩ := h
  unfold Date.prev
  split_ifs with ha hb
  · refine ⟨⟨h1, h2, h3, by dsimp only; omega, by dsimp only; omega⟩, ?_, by simp⟩
    unfold dayAfter
    dsimp only
    rw [if_pos (by omega)]
    cases t
    simp only [Date.mk.injEq, true_and]
    dsimp only at *
    omega
  · have := gregorian_range t.y (t.m - 1)
    rw [monthDays_gregorian (by omega) (by omega)]
    refine ⟨⟨h1, by dsimp only; omega, by dsimp only; omega, by dsimp only; omega, le_refl _⟩, ?_, by simp⟩
    unfold dayAfter
    dsimp only
    rw [if_neg (lt_irrefl _), if_pos (by omega)]
    cases t
    simp only [Date.mk.injEq, true_and]
    dsimp only at *
    omega
  · refine ⟨⟨by dsimp only; omega, by simp, by simp, by simp, by dsimp only; rw [gregorian_december]⟩, ?_, by dsimp only; omega⟩
    unfold dayAfter
    dsimp only
    rw [gregorian_december, if_neg (lt_irrefl _), if_neg (lt_irrefl _)]
    cases t
    simp only [Date.mk.injEq]
    dsimp only at *
    omega

theorem daysAfter_comm (n : ℕ) (t : Date) : daysAfter n (dayAfter t) = dayAfter (daysAfter n t) := by
  induction n with
  | zero => rfl
  | succ n ih => exact congrArg dayAfter ih

theorem back_after {t : Date} (h : IsDate t) (n : ℕ) (hy : n + 2 ≤ t.y) : IsDate (t.back n) ∧ daysAfter n (t.back n) = t ∧ t.y ≤ (t.back n).y + n := by
  induction n with
  | zero => exact ⟨h, rfl, le_refl _⟩
  | succ n ih =>
    obtain ⟨h1, h2, h3⟩ := ih (by omega)
    obtain ⟨g1, g2, g3⟩ := prev_after h1 (by omega)
    refine ⟨g1, ?_, ?_⟩
    · change dayAfter (daysAfter n (t.back n).prev) = t
      rw [← daysAfter_comm, g2, h2]
    · change t.y ≤ (t.back n).prev.y + (n + 1)
      omega

theorem daysAfter_date {t : Date} (h : IsDate t) (n : ℕ) : IsDate (daysAfter n t) ∧ t.code + n ≤ (daysAfter n t).code := by
  induction n with
  | zero => exact ⟨h, by simp [daysAfter]⟩
  | succ n ih =>
    obtain ⟨h1, h2⟩ := dayAfter_date ih.1
    refine ⟨h1, ?_⟩
    change t.code + (n + 1) ≤ (dayAfter (daysAfter n t)).code
    omega

/-- The dates after one and up to another are those a number of days before that one. -/
theorem between_dates {p r : Date} (hp : IsDate p) (hr : IsDate r) (n : ℕ) :
    (p.code < r.code ∧ r.code ≤ (daysAfter n p).code) ↔ ∃ k < n, daysAfter k r = daysAfter n p := by
  induction n generalizing p with
  | zero =>
    constructor
    · rintro ⟨h1, h2⟩
      exact absurd h1 (not_lt.2 h2)
    · rintro ⟨k, hk, _⟩
      exact absurd hk (Nat.not_lt_zero k)
  | succ n ih =>
    obtain ⟨hd, hlt⟩ := dayAfter_date hp
    have he : daysAfter (n + 1) p = daysAfter n (dayAfter p) := (daysAfter_comm n p).symm
    rw [he]
    constructor
    · rintro ⟨h1, h2⟩
      rcases Nat.lt_or_ge (dayAfter p).code r.code with h | h
      · obtain ⟨k, hk, hke⟩ := (ih hd).1 ⟨h, h2⟩
        exact ⟨k, by omega, hke⟩
      · have := code_inj hd hr (le_antisymm (code_gap hp hr h1) h)
        exact ⟨n, by omega, by rw [this]⟩
    · rintro ⟨k, hk, hke⟩
      rcases Nat.lt_succ_iff_lt_or_eq.1 hk with hk | rfl
      · obtain ⟨h1, h2⟩ := (ih hd).2 ⟨k, hk, hke⟩
        exact ⟨by omega, h2⟩
      · rw [← hke]
        obtain ⟨_, h1⟩ := daysAfter_date hr k
        refine ⟨?_, by omega⟩
        have hinj : ∀ k {a b : Date}, IsDate a → IsDate b → daysAfter k a = daysAfter k b → a.code ≤ b.code := by
          intro k
          induction k with
          | zero => rintro a b _ _ (rfl : a = b); exact le_refl _
          | succ k ih' =>
            intro a b ha hb h
            by_contra hcon
            have hg := code_gap hb ha (not_le.1 hcon)
            have h' : daysAfter k (dayAfter a) = daysAfter k (dayAfter b) := by rw [daysAfter_comm, daysAfter_comm]; exact h
            have := ih' (dayAfter_date ha).1 (dayAfter_date hb).1 h'
            have := (dayAfter_date ha).2
            omega
        have := hinj k hd hr hke.symm
        omega

/-- C161. The visits returned are those of the table, in its order, that were taken on the chosen night or one of the nights before it, as many nights in all as asked for, across ends of
months and years; that have a start, a place, a camera angle and a band or filter; and that meet the constraints. -/
theorem C161_nights (day : Date) (hday : IsDate day) (nights : ℕ) (hn : nights + 2 ≤ day.y) (extra : Row → Bool) (table : List Row) :
    (visits day nights extra table).Sublist table ∧
    ∀ (r : Row) (t : Date), IsDate t → r.dayObs = t.code →
      ((visits day nights extra table).count r = if (∃ k < nights, daysAfter k t = day) ∧ r.start ≠ none ∧ r.ra ≠ none ∧ r.dec ≠ none ∧ r.rotation ≠ none ∧
        (r.band ≠ none ∨ r.filter ≠ none) ∧ extra r = true then table.count r else 0) := by
  refine ⟨List.filter_sublist, fun r t ht hr => ?_⟩
  obtain ⟨hb, hba, _⟩ := back_after hday nights hn
  have hbet := between_dates hb ht nights
  rw [hba] at hbet
  have hw : wanted day nights extra r = true ↔ ((∃ k < nights, daysAfter k t = day) ∧ r.start ≠ none ∧ r.ra ≠ none ∧ r.dec ≠ none ∧ r.rotation ≠ none ∧
      (r.band ≠ none ∨ r.filter ≠ none) ∧ extra r = true) := by
    rw [← hbet]
    unfold wanted
    simp only [Bool.and_eq_true, Bool.or_eq_true, decide_eq_true_eq, Option.isSome_iff_ne_none, hr]
    constructor
    · rintro ⟨⟨⟨⟨⟨⟨⟨a, b⟩, c⟩, d⟩, e⟩, f⟩, g⟩, h⟩
      exact ⟨⟨g, f⟩, a, b, c, d, e, h⟩
    · rintro ⟨⟨g, f⟩, a, b, c, d, e, h⟩
      exact ⟨⟨⟨⟨⟨⟨⟨a, b⟩, c⟩, d⟩, e⟩, f⟩, g⟩, h⟩
  unfold visits
  by_cases h : wanted day nights extra r = true
  · rw [List.count_filter h, if_pos (hw.1 h)]
  · rw [if_neg (fun h' => h (hw.2 h')), List.count_eq_zero]
    intro hmem
    exact h (List.mem_filter.1 hmem).2

/-- The two nights up to the first of March of a leap year. -/
example : IsDate ⟨2024, 3, 1⟩ ∧ 2 + 2 ≤ 2024 ∧ Date.back ⟨2024, 3, 1⟩ 2 = ⟨2024, 2, 28⟩ ∧ daysAfter 1 ⟨2024, 2, 29⟩ = ⟨2024, 3, 1⟩ ∧ Date.back ⟨2025, 1, 1⟩ 1 = ⟨2024, 12, 31⟩ := by
  refine ⟨⟨?_, ?_, ?_, ?_, ?_⟩, ?_, ?_, ?_, ?_⟩ <;> decide

/-- C161. Every column of the two tables is asked for once by its name, from the table of visits where that has it. -/
theorem C161_columns (visit quick : List String) (hv : visit.Nodup) (hq : quick.Nodup) :
    ((columns visit quick).map Prod.snd).Nodup ∧
      (∀ c, c ∈ (columns visit quick).map Prod.snd ↔ c ∈ visit ∨ c ∈ quick) ∧
      ∀ c b, (b, c) ∈ columns visit quick → (b = false ↔ c ∈ visit) := by
  have hmap : (columns visit quick).map Prod.snd = visit ++ quick.filter fun c => !visit.contains c := by
    unfold columns
    rw [List.map_append, List.map_map, List.map_map]
    simp [Function.comp_def]
  refine ⟨?_, ?_, ?_⟩
  · rw [hmap, List.nodup_append]
    refine ⟨hv, hq.filter _, ?_⟩
    rintro a ha b hb rfl
    have := (List.mem_filter.1 hb).2
    simp [ha] at this
  · intro c
    rw [hmap, List.mem_append, List.mem_filter]
    by_cases h : c ∈ visit <;> simp [h]
  · intro c b h
    unfold columns at h
    rw [List.mem_append, List.mem_map, List.mem_map] at h
    rcases h with ⟨a, ha, hab⟩ | ⟨a, ha, hab⟩
    · cases hab
      simp [ha]
    · cases hab
      have := (List.mem_filter.1 ha).2
      simpa using this

example : columns ["visit_id", "band"] ["visit_id", "zero_point"] = [(false, "visit_id"), (false, "band"), (true, "zero_point")] := by decide

/-! ### C162 -/

/-- The distance of two directions, in degrees. -/
def gap (x y : ℚ) : ℚ := |x - y - 360 * round ((x - y) / 360)|

theorem gap_le (x y : ℚ) : gap x y ≤ |x - y| := by
  have h := round_le ((x - y) / 360) 0
  unfold gap
  have e : x - y - 360 * (round ((x - y) / 360) : ℚ) = 360 * ((x - y) / 360 - (round ((x - y) / 360) : ℚ)) := by ring
  have e' : x - y = 360 * ((x - y) / 360 - ((0 : ℤ) : ℚ)) := by push_cast; ring
  rw [e]
  conv_rhs => rw [e']
  rw [abs_mul, abs_mul]
  exact mul_le_mul_of_nonneg_left h (abs_nonneg _)

theorem gap_small {x y : ℚ} (h : |x - y| ≤ 180) : gap x y = |x - y| := by
  apply le_antisymm (gap_le x y)
  unfold gap
  have e : x - y = 360 * ((x - y) / 360) := by ring
  set z := (x - y) / 360 with hz
  have hzle : |z| ≤ 1 / 2 := by
    rw [hz, abs_div]
    have : |(360 : ℚ)| = 360 := abs_of_pos (by norm_num)
    rw [this, div_le_iff₀ (by norm_num)]
    linarith
  rw [e, show 360 * z - 360 * (round z : ℚ) = 360 * (z - (round z : ℚ)) by ring, abs_mul, abs_mul]
  refine mul_le_mul_of_nonneg_left ?_ (abs_nonneg _)
  rw [abs_sub_round_eq_min]
  obtain ⟨h1, h2⟩ := abs_le.1 hzle
  rcases le_or_gt 0 z with hp | hn
  · rcases lt_or_eq_of_le h2 with h2 | h2
    · rw [Int.fract_eq_self.2 ⟨hp, by linarith⟩, abs_of_nonneg hp]
      exact le_min (le_refl _) (by linarith)
    · have : Int.fract z = z := Int.fract_eq_self.2 ⟨hp, by linarith⟩
      rw [this, abs_of_nonneg hp]
      exact le_min (le_refl _) (by linarith)
  · have : Int.fract z = z + 1 := by
      rw [Int.fract_eq_iff]
      exact ⟨by linarith, by linarith, -1, by push_cast; ring⟩
    rw [this, abs_of_neg hn]
    exact le_min (by linarith) (by linarith)

/-- C162. A column of its own is used as it is; without one the altitude is halfway between those at both ends, or the first; the azimuth is halfway as well where the way between both ends
does not cross the north. -/
theorem C162_middle_partial (first last : ℚ) :
    (∀ own first last, middle (some own) first last = own) ∧
    middle none (some (some first)) none = some first ∧ (∀ last, middle none none last = none) ∧
    ∃ a, middle none (some (some first)) (some (some last)) = some a ∧ min first last ≤ a ∧ a ≤ max first last ∧ |a - first| = |a - last| ∧
      (|first - last| ≤ 180 → gap a first = gap first last / 2 ∧ gap a last = gap first last / 2) := by
  refine ⟨fun _ _ _ => rfl, rfl, fun _ => rfl, (first + last) / 2, rfl, ?_, ?_, ?_, ?_⟩
  · have h1 := min_le_left first last
    have h2 := min_le_right first last
    linarith
  · have h1 := le_max_left first last
    have h2 := le_max_right first last
    linarith
  · rw [show (first + last) / 2 - first = -((first - last) / 2) by ring, show (first + last) / 2 - last = (first - last) / 2 by ring, abs_neg]
  · intro h
    have e1 : |(first + last) / 2 - first| = |first - last| / 2 := by
      rw [show (first + last) / 2 - first = -((first - last) / 2) by ring, abs_neg, abs_div, abs_of_pos (show (0 : ℚ) < 2 by norm_num)]
    have e2 : |(first + last) / 2 - last| = |first - last| / 2 := by
      rw [show (first + last) / 2 - last = (first - last) / 2 by ring, abs_div, abs_of_pos (show (0 : ℚ) < 2 by norm_num)]
    have h0 := abs_nonneg (first - last)
    rw [gap_small h, gap_small (by rw [e1]; linarith), gap_small (by rw [e2]; linarith), e1, e2]
    exact ⟨rfl, rfl⟩

/-- C162 does not hold for azimuths to both sides of the north: halfway between 359 and 1 degrees the south is given. -/
theorem C162_north_violated : middle none (some (some 359)) (some (some 1)) = some 180 ∧ gap 180 359 = 179 ∧ gap 359 1 = 2 := by
  refine ⟨by decide +kernel, ?_, ?_⟩
  · rw [gap_small (by norm_num [abs_le])]
    norm_num
  · have h : round ((359 - 1 : ℚ) / 360) = 1 := by
      rw [round_eq, Int.floor_eq_iff]
      norm_num
    unfold gap
    rw [h]
    norm_num

/-- C162. Without a middle of its own the time in the middle of a visit lies within it: halfway from its start to its end, or half the open time after its start. -/
theorem C162_midpoint (start stop : ℚ) (shut : Option ℚ) (h : start ≤ stop) :
    (∀ own last, midpoint (some own) last start shut = own) ∧
    (∃ t, midpoint none (some (some stop)) start shut = some t ∧ t - start = stop - t ∧ start ≤ t ∧ t ≤ stop ∧ 2 * (t - start) * 86400 = visitTime start stop) ∧
    (∀ s, midpoint none none start (some s) = some (start + s / 2 / 86400)) := by
  refine ⟨fun _ _ => rfl, ⟨(start + stop) / 2, rfl, by ring, by linarith, by linarith, ?_⟩, fun s => ?_⟩
  · unfold visitTime
    ring
  · unfold midpoint
    dsimp only [Option.map_some]
    rw [show 1 / 2 * s = s / 2 by ring]

/-- C162. Without numbers of visits, the ones made up tell visits apart with up to 9999 in a night. -/
theorem C162_ids_partial (d1 s1 d2 s2 : ℕ) (h1 : s1 < 10000) (h2 : s2 < 10000) : guessId d1 s1 = guessId d2 s2 ↔ d1 = d2 ∧ s1 = s2 := by
  unfold guessId
  omega

/-- C162 does not hold for longer nights: the ten thousandth visit of a night has the number of the first of the next day. -/
theorem C162_ids_violated : guessId 20250101 10000 = guessId 20250102 0 := rfl

/-- C162. The band is that of the database, or else the first letter of the name of the filter. -/
theorem C162_band (b : String) (c : Char) (cs : List Char) :
    (∀ filter, bandOf (some b) filter = some b) ∧ bandOf none (some (String.ofList (c :: cs))) = some (String.ofList [c]) := by
  refine ⟨fun _ => rfl, ?_⟩
  unfold bandOf
  simp

example : bandOf none (some "g_6") = some "g" := by decide

/-! ### C163 -/

/-- C163. The airmass computed without one in the database is the length of the line of sight through a shell as high as one 470th of the radius of the earth, in units of that height: with
the observer 470 from the centre, the point so far along the line of sight is 471 from it. It is one at the zenith, and grows with the distance from the zenith, to less than 31 at the horizon. -/
theorem C163_airmass (zd : ℝ) :
    0 < airmass zd ∧ (470 + airmass zd * Real.cos zd) ^ 2 + (airmass zd * Real.sin zd) ^ 2 = 471 ^ 2 ∧ airmass 0 = 1 ∧ 1 ≤ airmass zd ∧
      (∀ z, 0 ≤ zd → zd < z → z ≤ Real.pi → airmass zd < airmass z) ∧ airmass (Real.pi / 2) < 31 := by
  have hsq : ∀ a : ℝ, Real.sqrt (a ^ 2 + 941) ^ 2 = a ^ 2 + 941 := fun a => Real.sq_sqrt (by positivity)
  have hgt : ∀ a : ℝ, a < Real.sqrt (a ^ 2 + 941) := fun a => Real.lt_sqrt_of_sq_lt (by linarith)
  have hgt' : ∀ a : ℝ, -a < Real.sqrt (a ^ 2 + 941) := fun a => Real.lt_sqrt_of_sq_lt (by nlinarith)
  have hmono : ∀ a b : ℝ, a < b → Real.sqrt (b ^ 2 + 941) - b < Real.sqrt (a ^ 2 + 941) - a := by
    intro a b hab
    have h1 := hsq a
    have h2 := hsq b
    have h3 := hgt a
    have h4 := hgt b
    have h5 := hgt' a
    have h6 := hgt' b
    set s := Real.sqrt (a ^ 2 + 941)
    set t := Real.sqrt (b ^ 2 + 941)
    by_contra hcon
    have : (t - s) * (t + s) = (b - a) * (b + a) := by nlinarith
    have hst : 0 < s + t := by linarith
    nlinarith
  have hzero : airmass 0 = 1 := by
    unfold airmass
    dsimp only
    rw [Real.cos_zero, show (470 * (1 : ℝ)) ^ 2 + 941 = 471 ^ 2 by norm_num, Real.sqrt_sq (by norm_num)]
    norm_num
  refine ⟨?_, ?_, hzero, ?_, ?_, ?_⟩
  · have := hgt (470 * Real.cos zd)
    unfold airmass
    dsimp only
    linarith
  · have h1 := hsq (470 * Real.cos zd)
    have h2 := Real.sin_sq_add_cos_sq zd
    unfold airmass
    dsimp only
    set s := Real.sqrt ((470 * Real.cos zd) ^ 2 + 941)
    set c := Real.cos zd
    have e : (470 + (s - 470 * c) * c) ^ 2 + ((s - 470 * c) * Real.sin zd) ^ 2 = 470 ^ 2 + 2 * 470 * c * (s - 470 * c) + (s - 470 * c) ^ 2 * (Real.sin zd ^ 2 + c ^ 2) := by ring
    rw [e, h2]
    nlinarith
  · rcases lt_or_eq_of_le (Real.cos_le_one zd) with h | h
    · have := hmono (470 * Real.cos zd) (470 * 1) (by linarith)
      rw [← hzero]
      unfold airmass
      dsimp only
      rw [Real.cos_zero]
      exact this.le
    · rw [← hzero]
      unfold airmass
      dsimp only
      rw [Real.cos_zero, h]
  · intro z h0 h hz
    have := Real.cos_lt_cos_of_nonneg_of_le_pi h0 hz h
    exact hmono _ _ (by linarith)
  · unfold airmass
    dsimp only
    rw [Real.cos_pi_div_two, show (470 * (0 : ℝ)) ^ 2 + 941 = 941 by norm_num, mul_zero, sub_zero, Real.sqrt_lt' (by norm_num)]
    norm_num

/-- C163. The depth made from an effective time is the reference depth at 30 seconds, grows with the time, and the time can be read off it. -/
theorem C163_depth (ref t : ℝ) (ht : 0 < t) :
    effDepth ref 30 = ref ∧ (∀ t', t < t' → effDepth ref t < effDepth ref t') ∧ 30 * (10 : ℝ) ^ ((effDepth ref t - ref) / 1.25) = t := by
  refine ⟨?_, ?_, ?_⟩
  · unfold effDepth
    norm_num
  · intro t' h
    have := Real.logb_lt_logb (b := 10) (by norm_num) (show 0 < t / 30 by positivity) (show t / 30 < t' / 30 by linarith)
    unfold effDepth
    linarith
  · unfold effDepth
    rw [show (ref + 1.25 * Real.logb 10 (t / 30) - ref) / 1.25 = Real.logb 10 (t / 30) by ring, Real.rpow_logb (by norm_num) (by norm_num) (by positivity)]
    ring

/-- C163. The sky brightness of a background gathered at a steady rate depends neither on the exposure time nor on the clouds that lower the zero point; a sky a hundred times brighter is
five magnitudes brighter. -/
theorem C163_sky (zpT shut shut' zero zero' rate pixel : ℝ) (hs : 0 < shut) (hs' : 0 < shut') (hr : 0 < rate) (hp : 0 < pixel) :
    skyMag zpT shut zero (rate * shut) pixel = skyMag zpT shut' zero' (rate * shut') pixel ∧
      skyMag zpT shut zero (100 * (rate * shut)) pixel = skyMag zpT shut zero (rate * shut) pixel - 5 := by
  have key : ∀ s z : ℝ, 0 < s → skyMag zpT s z (rate * s) pixel = zpT - 2.5 * Real.logb 10 (rate / pixel ^ 2) := by
    intro s z h
    unfold skyMag extinction
    rw [show rate * s / pixel ^ 2 = (rate / pixel ^ 2) * s by ring, Real.logb_mul (by positivity) (by positivity)]
    ring
  refine ⟨by rw [key shut zero hs, key shut' zero' hs'], ?_⟩
  unfold skyMag
  have h100 : Real.logb 10 (100 : ℝ) = 2 := by
    rw [show (100 : ℝ) = (10 : ℝ) ^ (2 : ℝ) by norm_num, Real.logb_rpow (by norm_num) (by norm_num)]
  rw [show 100 * (rate * shut) / pixel ^ 2 = 100 * (rate * shut / pixel ^ 2) by ring, Real.logb_mul (by norm_num) (by positivity), h100]
  ring

/-! ### C164 -/

theorem refMjd_spec (start : ℚ) (ts : List ℚ) : refMjd start ts ≤ start ∧ (∀ t ∈ ts, refMjd start ts ≤ t) ∧ (refMjd start ts = start ∨ refMjd start ts ∈ ts) := by
  induction ts with
  | nil => exact ⟨le_refl _, by simp, Or.inl rfl⟩
  | cons t ts ih =>
    obtain ⟨h1, h2, h3⟩ := ih
    unfold refMjd
    refine ⟨le_trans (min_le_right _ _) h1, ?_, ?_⟩
    · intro u hu
      rcases List.mem_cons.1 hu with rfl | hu
      · exact min_le_left _ _
      · exact le_trans (min_le_right _ _) (h2 u hu)
    · rcases min_choice t (refMjd start ts) with h | h
      · right
        rw [h]
        exact List.mem_cons_self
      · rw [h]
        rcases h3 with h3 | h3
        · left
          exact h3
        · right
          exact List.mem_cons_of_mem _ h3

/-- C164. Nights are never negative; visits have the same night when no noon (of universal time) lies between them, and a later night otherwise; without visits from before the survey they
count from its first night, whatever the other visits. -/
theorem C164_night_partial (start : ℚ) (ts : List ℚ) (t u : ℚ) (ht : t ∈ ts) (htu : t ≤ u) :
    0 ≤ night start ts t ∧ (night start ts t = night start ts u ↔ ¬ ∃ n : ℤ, t < n + 1 / 2 ∧ (n + 1 / 2 : ℚ) ≤ u) ∧ night start ts t ≤ night start ts u ∧
      ((∀ v ∈ ts, start ≤ v) → night start ts t = ⌊t - 1 / 2⌋ - ⌊start - 1 / 2⌋) := by
  obtain ⟨h1, h2, h3⟩ := refMjd_spec start ts
  have hm : ⌊t - 1 / 2⌋ ≤ ⌊u - 1 / 2⌋ := Int.floor_le_floor (by linarith)
  refine ⟨?_, ?_, ?_, ?_⟩
  · unfold night
    have := Int.floor_le_floor (show refMjd start ts - 1 / 2 ≤ t - 1 / 2 by linarith [h2 t ht])
    omega
  · unfold night
    constructor
    · rintro h ⟨n, hn1, hn2⟩
      have h' : ⌊t - 1 / 2⌋ = ⌊u - 1 / 2⌋ := by omega
      have ha : ⌊t - 1 / 2⌋ < n := Int.floor_lt.2 (by linarith)
      have hb : n ≤ ⌊u - 1 / 2⌋ := Int.le_floor.2 (by linarith)
      omega
    · intro h
      by_contra hne
      apply h
      refine ⟨⌊u - 1 / 2⌋, ?_, ?_⟩
      · have : t - 1 / 2 < (⌊u - 1 / 2⌋ : ℚ) := Int.floor_lt.1 (by omega)
        linarith
      · have := Int.floor_le (u - 1 / 2)
        linarith
  · unfold night
    omega
  · intro h
    have : refMjd start ts = start := by
      rcases h3 with h3 | h3
      · exact h3
      · exact le_antisymm h1 (h _ h3)
    unfold night
    rw [this]

/-- C164 does not hold with visits from before the survey: the night of a visit depends on which other visits are asked for with it. -/
theorem C164_early_violated : night 60980 [60001] 60001 = 0 ∧ night 60980 [60000, 60001] 60001 = 1 := by decide +kernel

example : (60981 : ℚ) ∈ [(60981 : ℚ), 60982] ∧ (60981 : ℚ) ≤ 60982 ∧ night 60980 [60981, 60982] 60982 = 2 := by
  refine ⟨by simp, by norm_num, by decide +kernel⟩

/-! ### C165 -/

/-- The slew distance of each visit is the angle to the one before it among those returned, and there is none for the first. -/
theorem slews_get (vs : List (ℝ × ℝ)) : (slews none vs).length = vs.length ∧ (vs ≠ [] → (slews none vs)[0]? = some none) ∧
    ∀ i v w, vs[i]? = some v → vs[i + 1]? = some w → (slews none vs)[i + 1]? = some (some (Sph.sep v.1 v.2 w.1 w.2)) := by
  have hlen : ∀ (vs : List (ℝ × ℝ)) (p : Option (ℝ × ℝ)), (slews p vs).length = vs.length := by
    intro vs
    induction vs with
    | nil => intro p; cases p <;> rfl
    | cons v vs ih => intro p; cases p <;> simp [slews, ih]
  have hsome : ∀ (vs : List (ℝ × ℝ)) (p : ℝ × ℝ) (i : ℕ) (v w : ℝ × ℝ), (p :: vs)[i]? = some v → vs[i]? = some w →
      (slews (some p) vs)[i]? = some (some (Sph.sep v.1 v.2 w.1 w.2)) := by
    intro vs
    induction vs with
    | nil => intro p i v w _ h; simp at h
    | cons u vs ih =>
      intro p i v w hv hw
      cases i with
      | zero =>
        simp only [List.getElem?_cons_zero, Option.some.injEq] at hv hw
        subst hv hw
        rfl
      | succ i =>
        rw [List.getElem?_cons_succ] at hv hw
        exact ih u i v w hv hw
  refine ⟨hlen vs none, ?_, ?_⟩
  · intro h
    cases vs with
    | nil => exact absurd rfl h
    | cons v vs => rfl
  · intro i v w hv hw
    cases vs with
    | nil => simp at hv
    | cons u vs =>
      rw [List.getElem?_cons_succ] at hw
      change (none :: slews (some u) vs)[i + 1]? = _
      rw [List.getElem?_cons_succ]
      exact hsome vs u i v w hv hw

/-- C165. For visits returned in order of time, the slew distance of a visit is the angle to the visit just before it, and the first visit has none. -/
theorem C165_slew_partial (vs : List (ℚ × ℝ × ℝ)) (hs : vs.Pairwise (fun a b => a.1 < b.1)) (i : ℕ) (w : ℚ × ℝ × ℝ) (hw : vs[i]? = some w) :
    (∀ v ∈ vs, v.1 < w.1 → (∀ u ∈ vs, u.1 ≤ v.1 ∨ w.1 ≤ u.1) → (slews none (vs.map Prod.snd))[i]? = some (some (Sph.sep v.2.1 v.2.2 w.2.1 w.2.2))) ∧
      ((∀ v ∈ vs, w.1 ≤ v.1) → (slews none (vs.map Prod.snd))[i]? = some none) := by
  obtain ⟨_, hfirst, hnext⟩ := slews_get (vs.map Prod.snd)
  have hord : ∀ (j k : ℕ) (a b : ℚ × ℝ × ℝ), vs[j]? = some a → vs[k]? = some b → j < k → a.1 < b.1 := by
    intro j k a b ha hb hjk
    obtain ⟨hj, ha⟩ := List.getElem?_eq_some_iff.1 ha
    obtain ⟨hk, hb⟩ := List.getElem?_eq_some_iff.1 hb
    subst ha hb
    exact List.pairwise_iff_getElem.1 hs j k hj hk hjk
  constructor
  · intro v hv hvw hno
    obtain ⟨j, hj⟩ := List.mem_iff_getElem?.1 hv
    have hji : j < i := by
      rcases Nat.lt_trichotomy j i with h | h | h
      · exact h
      · subst h
        rw [hj] at hw
        cases hw
        exact absurd hvw (lt_irrefl _)
      · exact absurd (hord i j w v hw hj h) (not_lt.2 hvw.le)
    have hji' : i = j + 1 := by
      by_contra hne
      have hlt : j + 1 < vs.length := by
        have := (List.getElem?_eq_some_iff.1 hw).1
        omega
      have hu : vs[j + 1]? = some vs[j + 1] := List.getElem?_eq_getElem hlt
      have h1 := hord j (j + 1) v _ hj hu (by omega)
      have h2 := hord (j + 1) i _ w hu hw (by omega)
      rcases hno _ (List.mem_iff_getElem?.2 ⟨j + 1, hu⟩) with h | h <;> linarith
    subst hji'
    exact hnext j v.2 w.2 (by rw [List.getElem?_map, hj]; rfl) (by rw [List.getElem?_map, hw]; rfl)
  · intro hmin
    cases i with
    | zero =>
      apply hfirst
      rintro h
      rw [List.map_eq_nil_iff] at h
      rw [h] at hw
      simp at hw
    | succ i =>
      have hlt : i < vs.length := by
        have := (List.getElem?_eq_some_iff.1 hw).1
        omega
      have h1 := hord i (i + 1) _ w (List.getElem?_eq_getElem hlt) hw (by omega)
      have h2 := hmin _ (List.mem_iff_getElem?.2 ⟨i, List.getElem?_eq_getElem hlt⟩)
      linarith

/-- C165 does not hold for visits in another order, and the query asks for none: the last visit of the night then has no slew distance, and the first one has that to a visit after it. -/
theorem C165_order_violated (a b : ℝ × ℝ) : slews none ([((2 : ℚ), a), (1, b)].map Prod.snd) = [none, some (Sph.sep a.1 a.2 b.1 b.2)] := rfl

example : [((1 : ℚ), ((0 : ℝ), (0 : ℝ))), (2, 1, 0)].Pairwise (fun a b => a.1 < b.1) := by norm_num

end Verif
