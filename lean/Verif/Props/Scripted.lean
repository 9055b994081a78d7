import Verif.Spec.Scripted
import Verif.Lemmas.Angles
import Mathlib.Data.String.Basic

/-!
Properties C36 to C38, C71 and C72: scripted surveys.
-/

namespace Verif

open Script

/-! ### C36: what is offered -/

theorem azIn_iff (c : Cond) (hT : 0 < c.turn) (lo hi az : ℚ) : azIn c lo hi az = true ↔ InSector c.turn lo hi az := by
  unfold azIn InSector
  rw [decide_eq_true_iff]
  have h1 := Ang.md_nonneg hT (az - lo)
  have h2 := Ang.md_lt hT (hi - lo)
  constructor
  · intro h
    refine ⟨-⌊(az - lo) / c.turn⌋, -⌊(hi - lo) / c.turn⌋, ?_, ?_, ?_⟩ <;>
    · unfold Ang.md at *; push_cast; linarith
  · rintro ⟨k, j, a, b, d⟩
    have e1 : Ang.md c.turn (az - lo) = az - lo + k * c.turn :=
      Ang.same_eq hT ((Ang.md_same _ _).trans ⟨-k, by push_cast; ring⟩) (Ang.md_nonneg hT _) (Ang.md_lt hT _)
        (by linarith) (by linarith)
    have e2 : Ang.md c.turn (hi - lo) = hi - lo + j * c.turn :=
      Ang.same_eq hT ((Ang.md_same _ _).trans ⟨-j, by push_cast; ring⟩) (Ang.md_nonneg hT _) (Ang.md_lt hT _)
        (by linarith) (by linarith)
    rw [e1, e2]; linarith

theorem hourAngle_iff (c : Cond) (e : Entry) (hu : Usual c e) (h : ℚ) : IsHourAngle c e.ra h ↔ h = hourAngle c e := by
  obtain ⟨hT, ⟨l1, l2⟩, r1, r2⟩ := hu
  have a1 : 0 ≤ e.ra * 24 / c.turn := by positivity
  have a2 : e.ra * 24 / c.turn < 24 := by rw [div_lt_iff₀ hT]; linarith
  have key : IsHourAngle c e.ra (hourAngle c e) := by
    unfold hourAngle
    dsimp only
    rw [if_neg (show ¬ (24 < c.lmst - e.ra * 24 / c.turn) by linarith)]
    split
    · refine ⟨by linarith, by linarith, -1, by push_cast; ring⟩
    · refine ⟨by linarith, by linarith, 0, by push_cast; ring⟩
  constructor
  · rintro ⟨b1, b2, k, hk⟩
    obtain ⟨d1, d2, j, hj⟩ := key
    exact Ang.same_eq (T := (24 : ℚ)) (by norm_num) ⟨j - k, by push_cast; linarith⟩ b1 b2 d1 d2
  · rintro rfl; exact key

theorem within_iff (l : ℚ × ℚ) (x : ℚ) : (decide (min l.1 l.2 ≤ x) && decide (x ≤ max l.1 l.2)) = true ↔ Within l x := by
  unfold Within
  rw [Bool.and_eq_true, decide_eq_true_iff, decide_eq_true_iff, min_le_iff, le_max_iff]
  constructor
  · rintro ⟨a | a, b | b⟩
    · rcases le_total l.1 l.2 with h | h
      · exact .inl ⟨a, b.trans h⟩
      · exact .inr ⟨h.trans a, b⟩
    · exact .inl ⟨a, b⟩
    · exact .inr ⟨a, b⟩
    · rcases le_total l.1 l.2 with h | h
      · exact .inl ⟨h.trans a, b⟩
      · exact .inr ⟨a, b.trans h⟩
  · rintro (⟨a, b⟩ | ⟨a, b⟩)
    · exact ⟨.inl a, .inr b⟩
    · exact ⟨.inr a, .inl b⟩

theorem skyAltOk_iff (c : Cond) (e : Entry) :
    skyAltOk c e = true ↔ ∀ ls, c.skyAlt = some ls → ∃ l ∈ ls, Within l (c.alt e.ra e.dec) := by
  unfold skyAltOk
  cases hc : c.skyAlt with
  | none => simp
  | some ls =>
    simp only [List.any_eq_true, within_iff, Option.some.injEq]
    constructor
    · rintro h _ rfl; exact h
    · intro h; exact h ls rfl

theorem skyAzOk_iff (c : Cond) (hT : 0 < c.turn) (e : Entry) :
    skyAzOk c e = true ↔ ∀ ls, c.skyAz = some ls → ∃ l ∈ ls, AzAllowed c.turn l (c.az e.ra e.dec) := by
  unfold skyAzOk AzAllowed
  cases hc : c.skyAz with
  | none => simp
  | some ls =>
    simp only [List.any_eq_true, Bool.or_eq_true, decide_eq_true_iff, azIn_iff c hT, Option.some.injEq]
    constructor
    · rintro h _ rfl; exact h
    · intro h; exact h ls rfl

theorem telAzOk_iff (c : Cond) (hT : 0 < c.turn) (e : Entry) :
    telAzOk c e = true ↔ AzAllowed c.turn c.telAz (c.az e.ra e.dec) := by
  unfold telAzOk AzAllowed
  split
  · next h =>
    rw [azIn_iff c hT]
    exact ⟨.inr, fun h' => h'.resolve_left (by linarith)⟩
  · next h => simp only [true_iff]; exact .inl (not_lt.1 h)

/-- All tests together. -/
def passes (cfg : Cfg) (c : Cond) (e : Entry) : Bool :=
  inWindow c e && limitsOk c e && skyAltOk c e && telAltOk c e && skyAzOk c e && telAzOk c e &&
  (!cfg.checkMounted || c.mounted.contains e.band) && (!cfg.checkActive || e.band == c.current) && rewardOk cfg e

theorem passes_iff (cfg : Cfg) (c : Cond) (e : Entry) (hu : Usual c e) : passes cfg c e = true ↔ Eligible cfg c e := by
  have hha : (∃ h, IsHourAngle c e.ra h ∧ (e.haMax < h ∨ h < e.haMin)) ↔
      (e.haMax < hourAngle c e ∨ hourAngle c e < e.haMin) := by
    constructor
    · rintro ⟨h, h1, h2⟩; rw [← (hourAngle_iff c e hu h).1 h1]; exact h2
    · intro h; exact ⟨_, (hourAngle_iff c e hu _).2 rfl, h⟩
  have hr : rewardOk cfg e = true ↔ ∀ f, cfg.finite = some f → f e.ra e.dec = true := by
    unfold rewardOk; cases cfg.finite <;> simp
  unfold passes inWindow limitsOk telAltOk
  simp only [Bool.and_eq_true, skyAltOk_iff, skyAzOk_iff c hu.turn, telAzOk_iff c hu.turn, hr]
  rw [← Bool.and_eq_true (decide (min c.telAlt.1 c.telAlt.2 ≤ c.alt e.ra e.dec)), within_iff]
  simp only [Bool.or_eq_true, decide_eq_true_iff, Bool.not_eq_true', ← hha]
  constructor
  · rintro ⟨⟨⟨⟨⟨⟨⟨⟨⟨⟨a1, a2⟩, a3⟩, ⟨⟨⟨⟨b1, b2⟩, b3⟩, b4⟩, b5⟩⟩, d⟩, f⟩, g⟩, i⟩, j⟩, k⟩, l⟩
    refine ⟨a3, a1, a2, b1, b3, b2, b4, b5, d, f, g, i, fun h => ?_, fun h => ?_, l⟩
    · rcases j with j | j
      · rw [h] at j; cases j
      · simpa using j
    · rcases k with k | k
      · rw [h] at k; cases k
      · simpa using k
  · rintro ⟨a3, a1, a2, b1, b3, b2, b4, b5, d, f, g, i, j, k, l⟩
    refine ⟨⟨⟨⟨⟨⟨⟨⟨⟨⟨a1, a2⟩, a3⟩, ⟨⟨⟨⟨b1, b2⟩, b3⟩, b4⟩, b5⟩⟩, d⟩, f⟩, g⟩, i⟩, ?_⟩, ?_⟩, l⟩
    · cases h : cfg.checkMounted
      · exact .inl rfl
      · exact .inr (by simpa using j h)
    · cases h : cfg.checkActive
      · exact .inl rfl
      · exact .inr (by simpa using k h)

theorem checkList_eq (cfg : Cfg) (s : St) (c : Cond) :
    checkList cfg s c = truncate cfg c (s.script.filter (passes cfg c)) := by
  unfold checkList checkAltsHa
  dsimp only
  congr 1
  unfold passes
  cases cfg.checkMounted <;> cases cfg.checkActive <;> simp [List.filter_filter] <;>
  · congr 1; funext e; grind

theorem truncate_perm (cfg : Cfg) (c : Cond) (es : List Entry) :
    ∃ r, (truncate cfg c es ++ r).Perm es ∧ (truncate cfg c es).length ≤ cfg.limit := by
  unfold truncate
  split
  · exact ⟨es.drop cfg.limit, by rw [List.take_append_drop], List.length_take_le _ _⟩
  · split
    · exact ⟨(es.insertionSort (before c)).drop cfg.limit,
        by rw [List.take_append_drop]; exact List.perm_insertionSort _ _, List.length_take_le _ _⟩
    · next h => exact ⟨[], by simp, by omega⟩

theorem genRough_fresh (cfg : Cfg) (s : St) (c : Cond) (h : s.lastRough ≠ c.mjd) :
    (genRough cfg s c).2 = if tooLate cfg c (checkList cfg s c) = true then [] else checkList cfg s c := by
  unfold genRough
  rw [if_neg h]
  dsimp only
  split
  · next h => rw [h]; simp
  · split <;> rfl

/-- **C36.** What is offered at a new time are outstanding visits of the script, in their time
window, within all limits and with a band in the telescope; and not more than the limit. -/
theorem C36_offered (cfg : Cfg) (s : St) (c : Cond) (hnew : s.lastRough ≠ c.mjd) (hu : ∀ e ∈ s.script, Usual c e) :
    (∀ e ∈ (genRough cfg s c).2, e ∈ s.script ∧ Eligible cfg c e) ∧ (genRough cfg s c).2.length ≤ cfg.limit := by
  rw [genRough_fresh cfg s c hnew, checkList_eq]
  obtain ⟨r, hp, hl⟩ := truncate_perm cfg c (s.script.filter (passes cfg c))
  split
  · simp
  · refine ⟨fun e he => ?_, hl⟩
    have := hp.mem_iff.1 (List.mem_append_left r he)
    rw [List.mem_filter] at this
    exact ⟨this.1, (passes_iff cfg c e (hu e this.1)).1 this.2⟩

open Classical in
/-- **C36.** Without sorting, the first visits of the script that may be offered are offered, unless
all are withheld. -/
theorem C36_first (cfg : Cfg) (s : St) (c : Cond) (hnew : s.lastRough ≠ c.mjd) (hu : ∀ e ∈ s.script, Usual c e)
    (hs : cfg.sort = .none) (hb : cfg.beforeTwi = false) :
    (genRough cfg s c).2 = (s.script.filter (fun e => decide (Eligible cfg c e))).take cfg.limit := by
  rw [genRough_fresh cfg s c hnew, checkList_eq]
  have ht : ∀ l, tooLate cfg c l = false := by intro l; unfold tooLate; rw [hb]; rfl
  rw [ht]
  simp only [Bool.false_eq_true, if_false]
  unfold truncate; rw [hs]
  dsimp only
  congr 1
  apply List.filter_congr
  intro e he
  rw [Bool.eq_iff_iff, decide_eq_true_iff]
  exact passes_iff cfg c e (hu e he)

theorem before_total (c : Cond) (a b : Entry) : before c a b ∨ before c b a := by
  unfold before
  rcases lt_trichotomy a.band b.band with h | h | h
  · exact .inl (.inl h)
  · rcases le_total (-1 * signedHa c a) (-1 * signedHa c b) with h' | h'
    · exact .inl (.inr ⟨h, h'⟩)
    · exact .inr (.inr ⟨h.symm, h'⟩)
  · exact .inr (.inl h)

theorem before_trans (c : Cond) (a b d : Entry) (h : before c a b) (h' : before c b d) : before c a d := by
  unfold before at *
  rcases h with h | ⟨h1, h2⟩ <;> rcases h' with h' | ⟨h'1, h'2⟩
  · exact .inl (String.lt_trans h h')
  · rw [← h'1]; exact .inl h
  · rw [h1]; exact .inl h'
  · exact .inr ⟨h1.trans h'1, h2.trans h'2⟩

/-- **C36.** With sorting, every visit that may be offered is offered or comes no earlier, in the
order of bands and hour angles, than all that are; and something is left out only when the limit
is reached. -/
theorem C36_sorted (cfg : Cfg) (s : St) (c : Cond) (hnew : s.lastRough ≠ c.mjd) (hu : ∀ e ∈ s.script, Usual c e)
    (hs : cfg.sort = .ha) (hb : cfg.beforeTwi = false) (e : Entry) (he : e ∈ s.script) (hel : Eligible cfg c e)
    (hout : e ∉ (genRough cfg s c).2) :
    (genRough cfg s c).2.length = cfg.limit ∧ ∀ x ∈ (genRough cfg s c).2, before c x e := by
  have ht : ∀ l, tooLate cfg c l = false := by intro l; unfold tooLate; rw [hb]; rfl
  rw [genRough_fresh cfg s c hnew, checkList_eq, ht] at hout ⊢
  simp only [Bool.false_eq_true, if_false] at hout ⊢
  have hm : e ∈ s.script.filter (passes cfg c) := List.mem_filter.2 ⟨he, (passes_iff cfg c e (hu e he)).2 hel⟩
  generalize s.script.filter (passes cfg c) = l at hm hout
  unfold truncate at *
  rw [hs] at *
  dsimp only at *
  split at hout
  · next hl =>
    rw [if_pos hl]
    have : Std.Total (before c) := ⟨before_total c⟩
    have : IsTrans Entry (before c) := ⟨before_trans c⟩
    have hsort := List.pairwise_insertionSort (before c) l
    have hmem : e ∈ l.insertionSort (before c) := (List.mem_insertionSort _).2 hm
    refine ⟨by rw [List.length_take, List.length_insertionSort]; omega, fun x hx => ?_⟩
    rw [← List.take_append_drop cfg.limit (l.insertionSort (before c))] at hsort hmem
    rw [List.pairwise_append] at hsort
    rcases List.mem_append.1 hmem with h | h
    · exact absurd h hout
    · exact hsort.2.2 x hx e h
  · exact absurd hm hout

/-! A script for the examples: positions on the equator of a sky where altitude is declination. -/

/-- A scripted visit with wide limits. -/
def visit (note band : String) (mjd : ℚ) : Entry :=
  { note := note, band := band, exptime := 30, mjd := mjd, tol := 1, flush := mjd + 2, ra := 1, dec := 5, altMin := 0,
    altMax := 10, haMax := 20, haMin := 4, sunMax := 0, moonMin := 3, observed := false }

/-- A night at the given time, with a full turn of 24. -/
def skyAt (mjd : ℚ) : Cond :=
  { mjd := mjd, turn := 24, lmst := 2, alt := fun _ d => d, az := fun r _ => r, moon := fun _ _ => 7, sunAlt := -1,
    skyAlt := some [(4, 6)], telAlt := (9, 1), skyAz := some [(20, 3)], telAz := (0, 2), mounted := ["g", "r"],
    current := "r", twilight := mjd + 1 }

/-- Settings for the examples. -/
def cfg0 (sort : Order) (ignore : List String) : Cfg :=
  { ignore := ignore, limit := 2, beforeTwi := false, bandChange := 1 / 100, checkMounted := true, checkActive := false,
    sort := sort, finite := some (fun r _ => decide (r < 20)), detail := id }

example : (genRough (cfg0 .none []) { init 0 with script := [visit "a" "g" 0, visit "b" "u" 0, visit "c" "r" 5] }
    (skyAt (1 / 2))).2.map Entry.note = ["a"] := by decide +kernel

example : (genRough (cfg0 .ha []) { init 0 with script := [visit "a" "r" 0, visit "b" "g" 0, visit "c" "g" 0] }
    (skyAt (1 / 2))).2.map Entry.note = ["b", "c"] := by decide +kernel

example : Usual (skyAt (1 / 2)) (visit "a" "g" 0) := ⟨by decide +kernel, by decide +kernel, by decide +kernel⟩

end Verif
