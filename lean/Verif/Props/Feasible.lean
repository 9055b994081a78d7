import Verif.Model.Feasible
import Verif.Props.FeaturesLast
import Verif.Props.FeaturesCount
import Verif.Props.BandSched

/-!
Property C55: window, delay and modulo feasibility functions hold exactly in the documented
window, with its end points.
-/

namespace Verif

open Feas Feat

/-- A set of conditions for the examples. -/
def cond0 : Cond where
  mjd := 60000.2
  night := 7
  mounted := ["g", "r", "i"]
  sunAlt := -40
  moonAlt := -10
  moonrise := 60000.3
  moonset := 60000.9
  n12setting := 60000.0
  n18setting := 60000.02
  n18rising := 60000.4
  n12rising := 60000.42
  lmst := 5
  scheduled := []
  bulkCloud := 0

/-- A visit for the examples. -/
def visAt (t : ℚ) (night : ℤ) (note : String) : Vis :=
  ⟨0, t, night, "r", note, "", none, 0, 0, 0, []⟩

/-! ### Nights, windows, patterns -/

/-- C55, last night: documented feasible when the night is less than the maximum. Missing: the
maximum itself (`C55_last_night_violated`). -/
theorem C55_last_night_partial (m : ℤ) (c : Cond) (h : c.night ≠ m) : onlyBefore m c = true ↔ c.night < m := by
  unfold onlyBefore
  simp only [Bool.not_eq_true', decide_eq_false_iff_not, not_lt]
  omega

example : onlyBefore 366 cond0 = true ∧ cond0.night ≠ 366 := by decide +kernel

/-- The maximum night is feasible. -/
theorem C55_last_night_violated : onlyBefore 7 cond0 = true ∧ ¬ cond0.night < 7 := by decide +kernel

/-- C55, bands: feasible exactly when every needed band is mounted. Missing: no needed band
(`C55_no_bands_violated`). -/
theorem C55_bands_partial (bands : List String) (hb : bands ≠ []) (c : Cond) :
    bandLoaded bands c = some (decide (∀ b ∈ bands, b ∈ c.mounted)) := by
  have key : ∀ (bands : List String) (last : Bool), bandLoop c bands (some last) =
      some (if bands = [] then last else decide (∀ b ∈ bands, b ∈ c.mounted)) := by
    intro bands
    induction bands with
    | nil => intro last; rfl
    | cons b bs ih =>
      intro last
      unfold bandLoop
      by_cases hm : b ∈ c.mounted
      · rw [if_pos (by simpa using hm), ih]
        rcases bs with _ | ⟨x, xs⟩ <;> simp [hm]
      · rw [if_neg (by simpa using hm)]
        simp [hm]
  rcases bands with _ | ⟨b, bs⟩
  · exact absurd rfl hb
  · have := key (b :: bs) true
    rw [if_neg (List.cons_ne_nil b bs)] at this
    rw [← this]
    rfl

example : bandLoaded ["g", "i"] cond0 = some true ∧ bandLoaded ["g", "z"] cond0 = some false := by decide +kernel

/-- With no needed band the test raises. -/
theorem C55_no_bands_violated (c : Cond) : bandLoaded [] c = none := rfl

theorem foldl_or_any {α : Type} (p : α → Bool) (l : List α) (a : Bool) :
    l.foldl (fun r w => if p w then true else r) a = (a || l.any p) := by
  induction l generalizing a with
  | nil => simp
  | cons x l ih =>
    rw [List.foldl_cons, ih, List.any_cons]
    cases p x <;> simp

/-- C55, time windows: feasible exactly when the time is in one of the windows, ends included;
the two ends of a window may be given in either order. -/
theorem C55_windows (ws : List (ℚ × ℚ)) (c : Cond) :
    inTimeWindow ws c = true ↔
      ∃ w ∈ ws, (w.1 ≤ c.mjd ∧ c.mjd ≤ w.2) ∨ (w.2 ≤ c.mjd ∧ c.mjd ≤ w.1) := by
  unfold inTimeWindow
  rw [foldl_or_any (fun w => inWindow w c.mjd), Bool.false_or, List.any_eq_true]
  apply exists_congr
  intro w
  apply and_congr_right
  intro _
  unfold inWindow
  simp only [Bool.and_eq_true, decide_eq_true_eq]
  rcases le_total w.1 w.2 with h | h
  · rw [min_eq_left h, max_eq_right h]
    constructor
    · exact Or.inl
    · rintro (h1 | ⟨h1, h2⟩)
      · exact h1
      · exact ⟨by linarith, by linarith⟩
  · rw [min_eq_right h, max_eq_left h]
    constructor
    · exact Or.inr
    · rintro (⟨h1, h2⟩ | h1)
      · exact ⟨by linarith, by linarith⟩
      · exact h1

example : inTimeWindow [(59000, 59001), (60000.1, 60000.2)] cond0 = true ∧
    inTimeWindow [(59000, 59001), (60000.21, 60000.3)] cond0 = false ∧ inTimeWindow [] cond0 = false := by decide +kernel

/-- C55, night pattern: night `q * n + k` follows entry `k` of a pattern of length `n`, for negative
nights as well. -/
theorem C55_pattern_partial (pattern : List Bool) (q : ℤ) (k : ℕ) (hk : k < pattern.length) (c : Cond)
    (hc : c.night = q * pattern.length + k) : nightModulo pattern c = some pattern[k] := by
  unfold nightModulo
  have : c.night % (pattern.length : ℤ) = k := by
    rw [hc, add_comm, Int.add_mul_emod_self_right]
    exact Int.emod_eq_of_lt (by omega) (by omega)
  rw [this, Int.toNat_natCast]
  exact List.getElem?_eq_getElem hk

example : nightModulo [true, false, false] { cond0 with night := -3 } = some true ∧
    nightModulo [true, false, false] cond0 = some false := by decide +kernel

/-- An empty pattern raises. -/
theorem C55_empty_pattern_violated (c : Cond) : nightModulo [] c = none := rfl

/-! ### Limits -/

/-- C55, altitude and cloud limits: the value at the limit is feasible. -/
theorem C55_limits (rad limit : ℚ) (c : Cond) :
    (moonAltLimit rad limit c = true ↔ c.moonAlt ≤ limit * rad) ∧
    (sunAltLimit rad limit c = true ↔ c.sunAlt ≤ limit * rad) ∧
    (sunAltHigh rad limit c = true ↔ limit * rad ≤ c.sunAlt) ∧
    (moonDown c = true ↔ c.moonAlt ≤ 0) ∧
    (cloudedOut limit c = true ↔ c.bulkCloud ≤ limit) := by
  unfold moonAltLimit sunAltLimit sunAltHigh moonDown cloudedOut
  simp only [Bool.not_eq_true', decide_eq_false_iff_not, not_lt, and_self]

example : moonAltLimit 1 (-10) cond0 = true ∧ moonAltLimit 1 (-11) cond0 = false ∧ sunAltHigh 1 (-40) cond0 = true := by
  decide +kernel

/-- C55, airmass range of a point: feasible exactly when the airmass at the point is in the range,
ends included. Missing: a resolution other than the default (`C55_airmass_violated`). -/
theorem C55_airmass_partial (dflt nside : ℕ) (pixOf : ℕ → ℕ) (airmass : ℕ → ℕ → ℚ) (lo hi : ℚ) (h : lo ≤ hi)
    (hn : nside = dflt) :
    airmassRange dflt nside pixOf airmass (lo, hi) = true ↔
      lo ≤ airmass nside (pixOf nside) ∧ airmass nside (pixOf nside) ≤ hi := by
  subst hn
  unfold airmassRange inWindow
  simp only [Bool.and_eq_true, decide_eq_true_eq, min_eq_left h, max_eq_right h]

example : airmassRange 2 2 (fun n => n * 3) (fun _ p => p) (6, 7) = true := by decide +kernel

/-- With another resolution the pixel number of one resolution is looked up in the map of the other:
here each pixel has the airmass of the quarter of the sky it is in, and a point of airmass 1 is
taken to be at airmass 3. -/
theorem C55_airmass_violated :
    ∃ (pixOf : ℕ → ℕ) (airmass : ℕ → ℕ → ℚ), (∀ n, airmass n (pixOf n) = 1) ∧
      airmassRange 2 4 pixOf airmass (1, 2) = false :=
  ⟨fun n => n, fun n p => if p ≤ n then 1 else 3, fun _ => if_pos le_rfl, by decide +kernel⟩

/-! ### Twilight -/

/-- C55, not in twilight: feasible exactly from the evening to the morning crossing of the given
altitude, both included. -/
theorem C55_not_twilight (c : Cond) :
    (notTwilight 18 c = some (decide (c.n18setting ≤ c.mjd ∧ c.mjd ≤ c.n18rising))) ∧
    (notTwilight 12 c = some (decide (c.n12setting ≤ c.mjd ∧ c.mjd ≤ c.n12rising))) := by
  have key : ∀ s r t : ℚ, (if r < t then false else if t < s then false else true) = decide (s ≤ t ∧ t ≤ r) := by
    intro s r t
    rw [Bool.eq_iff_iff, decide_eq_true_iff]
    by_cases h1 : r < t
    · simp [h1]
    · by_cases h2 : t < s
      · simp [h1, h2]
      · simp [h1, h2, not_lt.1 h1, not_lt.1 h2]
  exact ⟨congrArg some (key _ _ _), congrArg some (key _ _ _)⟩

example : notTwilight 18 cond0 = some true ∧ notTwilight 18 { cond0 with mjd := 60000.4 } = some true ∧
    notTwilight 18 { cond0 with mjd := 60000.41 } = some false ∧ notTwilight 6 cond0 = none := by decide +kernel

/-- C55, time before twilight: feasible exactly when more than the time needed (in minutes) is left
to the morning crossing of the given altitude. -/
theorem C55_time_to_twilight (need : ℚ) (c : Cond) :
    (timeToTwilight need 18 c = some (decide (c.mjd + need / 1440 < c.n18rising))) ∧
    (timeToTwilight need 12 c = some (decide (c.mjd + need / 1440 < c.n12rising))) := by
  have key : ∀ r t : ℚ, decide (need / 60 / 24 < r - t) = decide (t + need / 1440 < r) := by
    intro r t
    rw [Bool.eq_iff_iff, decide_eq_true_iff, decide_eq_true_iff, div_div, show (60 : ℚ) * 24 = 1440 by norm_num]
    constructor <;> intro h <;> linarith
  exact ⟨congrArg some (key _ _), congrArg some (key _ _)⟩

example : timeToTwilight 288 18 cond0 = some false ∧ timeToTwilight 287 18 cond0 = some true := by decide +kernel

/-- C55, near twilight (from the code): feasible exactly when at least the minimum time is left to
the morning crossing, and either the sun is higher than the limit or the time left is less than the
maximum. The settings are rejected when the maximum is below the minimum. -/
theorem C55_close_partial (rad limit toTwi minLeft : ℚ) (c : Cond) :
    closeToTwilight rad limit toTwi minLeft c =
      if toTwi < minLeft then none
      else some (decide (c.mjd + minLeft / 1440 ≤ c.n12rising ∧
        (limit * rad < c.sunAlt ∨ c.n12rising < c.mjd + toTwi / 1440))) := by
  unfold closeToTwilight closeInit
  by_cases h : toTwi < minLeft
  · rw [if_pos h, if_pos h]; rfl
  · rw [if_neg h, if_neg h]
    simp only [Option.map_some, Option.some.injEq]
    rw [Bool.eq_iff_iff, decide_eq_true_iff]
    rw [div_div, div_div, show (60 : ℚ) * 24 = 1440 by norm_num]
    by_cases h1 : c.n12rising - c.mjd < minLeft / 1440
    · rw [if_pos h1]
      simp only [Bool.false_eq_true, false_iff, not_and]
      intro h2
      linarith
    · rw [if_neg h1]
      by_cases h2 : c.n12rising - c.mjd < toTwi / 1440
      · rw [if_pos h2]
        simp only [true_iff]
        exact ⟨by linarith, Or.inr (by linarith)⟩
      · rw [if_neg h2, decide_eq_true_iff]
        constructor
        · exact fun h3 => ⟨by linarith, Or.inl h3⟩
        · rintro ⟨_, h3 | h3⟩
          · exact h3
          · linarith

example : closeToTwilight 1 (-14.8) 21 15 { cond0 with mjd := 60000.408 } = some true ∧
    closeToTwilight 1 (-14.8) 21 15 cond0 = some false ∧ closeToTwilight 1 (-14.8) 14 15 cond0 = none := by
  decide +kernel

/-- Documented as all three conditions together; a high sun alone is enough, ten hours before the
morning crossing. -/
theorem C55_close_violated : closeToTwilight 1 (-14.8) 21 15 { cond0 with mjd := 60000, sunAlt := -13 } = some true ∧
    ¬ (60000.42 : ℚ) < 60000 + 21 / 1440 := by
  decide +kernel

/-- C55, after evening twilight: when feasible, less than the given time has gone by since the
crossing; and feasible when it is less by more than the tolerance. Missing: times before the crossing
(`C55_after_evening_violated`). -/
theorem C55_after_evening_partial (after : ℚ) (alt : ℕ) (s : ℚ) (c : Cond)
    (hs : (alt = 18 ∧ s = c.n18setting) ∨ (alt = 12 ∧ s = c.n12setting)) :
    ∃ b, afterEvening after alt c = some b ∧ (b = true → c.mjd - s < after / 1440) ∧
      (c.mjd - s < after / 1440 → Tol.default.limit * min |c.mjd - s| |after / 1440| < |c.mjd - s - after / 1440| → b = true) := by
  have he : afterEvening after alt c = some (ltS Tol.default (c.mjd - s) (after / 60 / 24)) := by
    rcases hs with ⟨rfl, rfl⟩ | ⟨rfl, rfl⟩ <;> rfl
  refine ⟨_, he, ?_, ?_⟩
  · intro h
    have := C15_lt_sound _ _ _ h
    rwa [div_div, show (60 : ℚ) * 24 = 1440 by norm_num] at this
  · intro h1 h2
    rw [div_div, show (60 : ℚ) * 24 = 1440 by norm_num]
    exact (C15_exact_when_far Tol.default (by decide +kernel) _ _ h2).1.2 h1

example : afterEvening 30 18 { cond0 with mjd := 60000.04 } = some true ∧ afterEvening 30 18 cond0 = some false := by
  decide +kernel

/-- Documented: right after evening twilight; feasible two hours before its end. -/
theorem C55_after_evening_violated : ∃ c : Cond, c.mjd + 1 / 12 = c.n18setting ∧ afterEvening 30 18 c = some true :=
  ⟨{ cond0 with mjd := 60000.02 - 1 / 12 }, by decide +kernel⟩

/-- C55, end of the night: when feasible, less than the given time is left to the crossing; and
feasible when it is less by more than the tolerance. Missing: times after the crossing
(`C55_end_of_night_violated`). -/
theorem C55_end_of_night_partial (left : ℚ) (alt : ℕ) (s : ℚ) (c : Cond)
    (hs : (alt = 18 ∧ s = c.n18rising) ∨ (alt = 12 ∧ s = c.n12rising)) :
    ∃ b, endOfEvening left alt c = some b ∧ (b = true → s - c.mjd < left / 1440) ∧
      (s - c.mjd < left / 1440 → Tol.default.limit * min |s - c.mjd| |left / 1440| < |s - c.mjd - left / 1440| → b = true) := by
  have he : endOfEvening left alt c = some (ltS Tol.default (s - c.mjd) (left / 60 / 24)) := by
    rcases hs with ⟨rfl, rfl⟩ | ⟨rfl, rfl⟩ <;> rfl
  refine ⟨_, he, ?_, ?_⟩
  · intro h
    have := C15_lt_sound _ _ _ h
    rwa [div_div, show (60 : ℚ) * 24 = 1440 by norm_num] at this
  · intro h1 h2
    rw [div_div, show (60 : ℚ) * 24 = 1440 by norm_num]
    exact (C15_exact_when_far Tol.default (by decide +kernel) _ _ h2).1.2 h1

example : endOfEvening 30 18 { cond0 with mjd := 60000.39 } = some true ∧ endOfEvening 30 18 cond0 = some false := by
  decide +kernel

/-- Documented: a limited time before twilight; feasible two hours after the crossing. -/
theorem C55_end_of_night_violated : ∃ c : Cond, c.n18rising + 1 / 12 = c.mjd ∧ endOfEvening 30 18 c = some true :=
  ⟨{ cond0 with mjd := 60000.4 + 1 / 12 }, by decide +kernel⟩

/-- C55, time in twilight (from the code): feasible exactly when more than the time needed is left to
the evening crossing of 18 degrees, or the sun is above 18 degrees and it is left to the morning
crossing of 12. -/
theorem C55_time_in_twilight (rad need : ℚ) (c : Cond) :
    timeInTwilight rad need c = true ↔ c.mjd + need / 1440 < c.n18setting ∨
      (-18 * rad < c.sunAlt ∧ c.mjd + need / 1440 < c.n12rising) := by
  unfold timeInTwilight
  rw [div_div, show (60 : ℚ) * 24 = 1440 by norm_num]
  by_cases h1 : need / 1440 < c.n18setting - c.mjd
  · rw [if_pos h1]
    simp only [true_iff]
    exact Or.inl (by linarith)
  · rw [if_neg h1]
    have h1' : ¬ c.mjd + need / 1440 < c.n18setting := by intro h; exact h1 (by linarith)
    by_cases h2 : -18 * rad < c.sunAlt
    · rw [if_pos h2, decide_eq_true_iff]
      simp only [h1', h2, false_or, true_and]
      constructor <;> intro h <;> linarith
    · rw [if_neg h2]
      simp only [Bool.false_eq_true, h1', h2, false_and, or_self]

example : timeInTwilight 1 5 { cond0 with mjd := 60000.41, sunAlt := -15 } = true ∧ timeInTwilight 1 5 cond0 = false := by
  decide +kernel

/-! ### Scheduled visits -/

/-- C55, time before the next scheduled visit: feasible exactly when every scheduled visit is more
than the time needed (in minutes) away. Missing: scheduled visits in the past, which are not next
(`C55_scheduled_violated`). -/
theorem C55_scheduled_partial (need : ℚ) (c : Cond) (hf : ∀ t ∈ c.scheduled, c.mjd ≤ t) :
    timeToScheduled need c = true ↔ ∀ t ∈ c.scheduled, c.mjd ≤ t → c.mjd + need / 1440 < t := by
  unfold timeToScheduled
  rcases hs : c.scheduled with _ | ⟨t, ts⟩
  · simp
  · simp only [decide_eq_true_eq]
    rw [div_div, show (60 : ℚ) * 24 = 1440 by norm_num]
    rw [hs] at hf
    obtain ⟨h1, h2, h3⟩ := foldl_min_spec ts t
    constructor
    · intro h x hx _
      rcases List.mem_cons.1 hx with rfl | hx
      · linarith
      · have := h2 x hx
        linarith
    · intro h
      have : ts.foldl min t ∈ t :: ts := by
        rcases h3 with h3 | h3
        · rw [h3]; exact List.mem_cons_self
        · exact List.mem_cons_of_mem _ h3
      have := h _ this (hf _ this)
      linarith

example : timeToScheduled 30 { cond0 with scheduled := [60001, 60000.3] } = true ∧
    timeToScheduled 30 { cond0 with scheduled := [60001, 60000.21] } = false := by decide +kernel

/-- A scheduled visit in the past makes the test infeasible for ever, though the next one is a year
away. -/
theorem C55_scheduled_violated (need : ℚ) (hn : 0 ≤ need) (c : Cond) (t : ℚ) (ht : t ∈ c.scheduled) (hp : t ≤ c.mjd) :
    timeToScheduled need c = false := by
  unfold timeToScheduled
  rcases hs : c.scheduled with _ | ⟨x, xs⟩
  · rw [hs] at ht; simp at ht
  · simp only [decide_eq_false_iff_not, not_lt]
    rw [hs] at ht
    obtain ⟨h1, h2, _⟩ := foldl_min_spec xs x
    have h3 : xs.foldl min x ≤ t := by
      rcases List.mem_cons.1 ht with rfl | h
      · exact h1
      · exact h2 t h
    have : 0 ≤ need / 60 / 24 := by positivity
    linarith

example : timeToScheduled 30 { cond0 with scheduled := [60000.1, 60365] } = false := by decide +kernel

end Verif
