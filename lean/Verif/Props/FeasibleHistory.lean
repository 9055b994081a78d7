import Verif.Props.Feasible

/-!
Property C55, tests that depend on the visits so far, and on hour angles.
-/

namespace Verif

open Feas Feat

/-- The note of the visit contains the wanted one (any visit, if none is wanted). -/
def Marked (note : Option String) (v : Vis) : Prop := ∀ n ∈ note, isIn n v.note

instance (note : Option String) (v : Vis) : Decidable (Marked note v) := by unfold Marked; infer_instance

theorem lastObs_wanted (note : Option String) (v : Vis) :
    LastObs.wanted ⟨note, none⟩ v = decide (Marked note v) := by
  unfold LastObs.wanted Marked
  rw [Bool.eq_iff_iff]
  cases note <;> simp

theorem count_marked (note : Option String) (h : List Vis) : count note h = h.countP (fun v => decide (Marked note v)) := by
  have key : ∀ (h : List Vis) (s : NObsCount), (h.foldl (NObsCount.one ⟨note, none, false⟩) s).count =
      s.count + h.countP (fun v => decide (Marked note v)) := by
    intro h
    induction h with
    | nil => intro s; rfl
    | cons v h ih =>
      intro s
      rw [List.foldl_cons, ih, List.countP_cons]
      have : (NObsCount.bandOne ⟨note, none, false⟩ v && NObsCount.noteOk ⟨note, none, false⟩ v) = decide (Marked note v) := by
        unfold NObsCount.bandOne NObsCount.noteOk Marked
        rw [Bool.eq_iff_iff]
        cases note <;> simp
      unfold NObsCount.one
      simp only [Bool.false_and, Bool.false_eq_true, if_false, this]
      by_cases hm : Marked note v
      · simp [hm]; omega
      · simp [hm]
  rw [count, key]
  exact Nat.zero_add _

theorem count_all (h : List Vis) : count none h = h.length := by
  rw [count_marked, List.countP_eq_length]
  intro v _
  simp [Marked]

/-- C55, once in a night: feasible exactly when no visit of this night has one of the notes. Missing:
the start of a night, before its first visit (`C55_once_violated`). -/
theorem C55_once_partial (notes : List String) (h : List Vis) (hc : Chrono h) (c : Cond)
    (hn : ∀ l, h.getLast? = some l → l.night = c.night) :
    onceInNight notes h c = true ↔ ¬ ∃ v ∈ h, v.night = c.night ∧ v.note ∈ notes := by
  unfold onceInNight
  rcases hl : h.getLast? with _ | l
  · rw [List.getLast?_eq_none_iff] at hl
    subst hl
    simp [NoteInNight.init]
  · rw [C70_note_in_night (some notes) h l hl hc, hn l hl]
    simp only [Bool.not_eq_true', decide_eq_false_iff_not, not_lt, Nat.le_zero, List.countP_eq_zero]
    simp

example : onceInNight ["a", "b"] [visAt 60000.1 7 "c", visAt 60000.15 7 "a"] cond0 = false ∧
    onceInNight ["a", "b"] [visAt 59999.1 6 "a", visAt 60000.15 7 "c"] cond0 = true := by decide +kernel

/-- On a new night the visits of the night before still block the survey, until any visit is made. -/
theorem C55_once_violated : onceInNight ["a"] [visAt 59999.1 6 "a"] cond0 = false ∧
    ¬ ∃ v ∈ [visAt 59999.1 6 "a"], v.night = cond0.night ∧ v.note ∈ ["a"] := by decide +kernel

theorem lastMark_eq (note : Option String) (h : List Vis) :
    lastMark note h = (((h.filter (fun v => decide (Marked note v))).getLast?).map Vis.mjd).getD 0 := by
  have := (C34_last_observation ⟨note, none⟩ [] h).2
  rw [List.nil_append] at this
  rw [lastMark, this]
  have e : (fun v => (decide (InBand (none : Option String) v) && decide (∀ n ∈ note, isIn n v.note = true))) =
      fun v => decide (Marked note v) := by
    funext v
    rw [Bool.eq_iff_iff]
    simp [InBand, Marked]
  dsimp only at e ⊢
  rw [e]

/-- The time since the last marked visit is the least time since any. -/
theorem since_last (note : Option String) (h : List Vis) (hc : Chrono h) (t d : ℚ) (hd : d ≤ t) :
    ¬ t - lastMark note h < d ↔ ∀ v ∈ h, Marked note v → d ≤ t - v.mjd := by
  rw [lastMark_eq, not_lt]
  rcases hl : (h.filter (fun v => decide (Marked note v))).getLast? with _ | l
  · rw [List.getLast?_eq_none_iff, List.filter_eq_nil_iff] at hl
    constructor
    · intro _ v hv hm
      exact absurd (decide_eq_true hm) (hl v hv)
    · intro _
      simpa using hd
  · have hmem := List.mem_of_getLast? hl
    obtain ⟨hm1, hm2⟩ := List.mem_filter.1 hmem
    simp only [Option.map_some, Option.getD_some]
    constructor
    · intro h1 v hv hm
      have hvf : v ∈ h.filter (fun v => decide (Marked note v)) := List.mem_filter.2 ⟨hv, decide_eq_true hm⟩
      obtain ⟨g, hg⟩ := List.getLast?_eq_some_iff.1 hl
      have hp : (h.filter (fun v => decide (Marked note v))).Pairwise (fun a b => a.mjd ≤ b.mjd ∧ a.night ≤ b.night) :=
        List.Pairwise.filter _ hc
      rw [hg] at hvf hp
      rcases List.mem_append.1 hvf with hv1 | hv1
      · have := ((List.pairwise_append.1 hp).2.2 v hv1 l (by simp)).1
        linarith
      · rw [List.mem_singleton.1 hv1]; exact h1
    · intro h1
      exact h1 l hm1 (of_decide_eq_true hm2)

/-- C55, forced delay: feasible exactly when every visit with the note was made at least the delay ago.
Dates are assumed to be larger than the delay. -/
theorem C55_delay (delay : ℚ) (note : Option String) (h : List Vis) (hc : Chrono h) (c : Cond) (hd : delay ≤ c.mjd) :
    forceDelay delay note h c = true ↔ ∀ v ∈ h, Marked note v → v.mjd + delay ≤ c.mjd := by
  unfold forceDelay
  rw [Bool.not_eq_true', decide_eq_false_iff_not, since_last note h hc _ _ hd]
  apply forall₃_congr
  intro v _ _
  constructor <;> intro h <;> linarith

/-- C55, delay: the deprecated name of a survey counts only if no note is given; a note always
does. -/
theorem C55_note (delay : ℚ) (note survey : Option String) (h : List Vis) (hc : Chrono h) (c : Cond) (hd : delay ≤ c.mjd) :
    forceDelay delay (noteOf note survey) h c = true ↔
      ∀ v ∈ h, (if note = none then Marked survey v else Marked note v) → v.mjd + delay ≤ c.mjd := by
  rw [C55_delay delay _ h hc c hd]
  rcases note with _ | n
  · rfl
  · simp [noteOf]

example : forceDelay 2 (some "a") [visAt 59998.2 5 "xay", visAt 60000.1 7 "c"] cond0 = true ∧
    forceDelay 2 (some "a") [visAt 59998.3 5 "xay", visAt 60000.1 7 "c"] cond0 = false := by decide +kernel

/-- C55, delay that depends on the share of visits: with the share above the fractions before entry `i`
and not above entry `i` (or `i` the last entry), delay `i` applies. Missing: no visit yet
(`C55_soft_delay_violated`). -/
theorem C55_soft_delay_partial (fractions delays : List ℚ) (hs : fractions.Pairwise (· ≤ ·))
    (hl : fractions.length = delays.length) (note : Option String) (h : List Vis) (hc : Chrono h) (hne : h ≠ [])
    (c : Cond) (i : ℕ) (hi : i < delays.length) (hd : delays[i] ≤ c.mjd)
    (r : ℚ) (hr : r * h.length = h.countP (fun v => decide (Marked note v)))
    (hlo : ∀ j (hj : j < i), fractions[j] < r) (hhi : i + 1 = delays.length ∨ r ≤ fractions[i]) :
    softDelay fractions delays note h c =
      some (decide (∀ v ∈ h, Marked note v → v.mjd + delays[i] ≤ c.mjd)) := by
  have hlen : (0 : ℚ) < h.length := by
    have := List.length_pos_of_ne_nil hne
    exact_mod_cast this
  have hratio : ratio note h = some r := by
    unfold ratio
    rw [count_all, if_neg (by have := List.length_pos_of_ne_nil hne; omega), count_marked]
    congr 1
    rw [← hr]
    field_simp
  have hidx : softIndex fractions r = i := by
    have hc' := searchLeft_count fractions hs r
    have hle : i ≤ Bands.searchLeft fractions r := by
      by_contra hlt
      push Not at hlt
      have := (hc' (Bands.searchLeft fractions r) (by omega)).1 (hlo _ hlt)
      omega
    have hup : Bands.searchLeft fractions r ≤ fractions.length := by
      unfold Bands.searchLeft
      exact (List.takeWhile_sublist _).length_le
    unfold softIndex
    rcases hhi with hhi | hhi
    · split_ifs with he <;> omega
    · have h1 : ¬ i < Bands.searchLeft fractions r := fun hh =>
        absurd ((hc' i (by omega)).2 hh) (not_lt.2 hhi)
      rw [if_neg (by omega)]
      omega
  unfold softDelay
  rw [if_neg (by simpa using hl), hratio, Option.bind_some, hidx, List.getElem?_eq_getElem hi, Option.map_some]
  congr 1
  rw [Bool.eq_iff_iff, Bool.not_eq_true', decide_eq_false_iff_not, since_last note h hc _ _ hd, decide_eq_true_iff]
  apply forall₃_congr
  intro v _ _
  constructor <;> intro h <;> linarith

example : softDelay [0, 0.009, 0.017] [0, 0.5, 1.5] (some "a") [visAt 59998.2 5 "a", visAt 60000.1 7 "c"] cond0 = some true ∧
    softDelay [0, 0.009, 0.017] [0, 0.5, 1.5] (some "a") [visAt 59999.2 5 "a", visAt 60000.1 7 "c"] cond0 = some false ∧
    softDelay [0, 0.009, 0.017] [0, 0.5, 1.5] (some "b") [visAt 59999.2 5 "a"] cond0 = some true := by decide +kernel

/-- At the start of a survey, with no visit made, the test raises. -/
theorem C55_soft_delay_violated (fractions delays : List ℚ) (note : Option String) (c : Cond) :
    softDelay fractions delays note [] c = none := by
  unfold softDelay
  split <;> rfl

/-- C55, share of visits: feasible exactly when no visit has been made, or the marked visits are at
most the given share of all. -/
theorem C55_fraction (frac : ℚ) (note : Option String) (h : List Vis) :
    fractionOfObs frac note h = true ↔
      h = [] ∨ ((h.countP (fun v => decide (Marked note v)) : ℕ) : ℚ) ≤ frac * h.length := by
  unfold fractionOfObs
  rw [count_all, count_marked]
  by_cases hne : h = []
  · subst hne; simp
  · have hlen : 0 < h.length := List.length_pos_of_ne_nil hne
    have hq : (0 : ℚ) < h.length := by exact_mod_cast hlen
    rw [if_pos hlen, Bool.not_eq_true', decide_eq_false_iff_not, not_lt, div_le_iff₀ hq]
    simp [hne]

example : fractionOfObs 0.5 (some "a") [visAt 1 1 "a", visAt 1 1 "b"] = true ∧
    fractionOfObs 0.4 (some "a") [visAt 1 1 "a", visAt 1 1 "b"] = false ∧ fractionOfObs 0 (some "a") [] = true := by
  decide +kernel

/-! ### Hour angles -/

theorem mod24_spec (x : ℚ) : 0 ≤ mod24 x ∧ mod24 x < 24 ∧ ∃ k : ℤ, mod24 x = x + 24 * k := by
  unfold mod24
  have h1 := Int.floor_le (x / 24)
  have h2 := Int.lt_floor_add_one (x / 24)
  refine ⟨by linarith, by linarith, -⌊x / 24⌋, by push_cast; ring⟩

theorem mod24_unique (x y : ℚ) (h0 : 0 ≤ y) (h1 : y < 24) (k : ℤ) (hk : y = x + 24 * k) : mod24 x = y := by
  obtain ⟨g0, g1, j, hj⟩ := mod24_spec x
  have e : mod24 x - y = 24 * ((j - k : ℤ) : ℚ) := by rw [hj, hk]; push_cast; ring
  have a1 : ((j - k : ℤ) : ℚ) < 1 := by linarith
  have a2 : (-1 : ℚ) < ((j - k : ℤ) : ℚ) := by linarith
  have b1 : j - k < 1 := by exact_mod_cast a1
  have b2 : -1 < j - k := by exact_mod_cast a2
  have : j - k = 0 := by omega
  rw [this] at e
  push_cast at e
  linarith

/-- C55, hour-angle windows between 0 and 24 hours: feasible exactly when the hour angle of the target
(sidereal time minus right ascension, up to whole days) is in one of them, start included and end not.
Missing: windows over zero given as one, `[-2, 2]` or `[22, 26]` (`C55_hour_angle_violated`). -/
theorem C55_hour_angle_partial (ra : ℚ) (limits : List (ℚ × ℚ)) (hl : ∀ l ∈ limits, 0 ≤ l.1 ∧ l.2 ≤ 24) (c : Cond) :
    hourAngleLimit ra limits c = true ↔
      ∃ l ∈ limits, ∃ k : ℤ, l.1 ≤ c.lmst - ra / 15 + 24 * k ∧ c.lmst - ra / 15 + 24 * k < l.2 := by
  have hfold : ∀ (ls : List (ℚ × ℚ)) (a : Bool), ls.foldl (fun r l => r || (decide (l.1 ≤ targetHa ra c) &&
      decide (targetHa ra c < l.2))) a = (a || ls.any (fun l => decide (l.1 ≤ targetHa ra c) && decide (targetHa ra c < l.2))) := by
    intro ls
    induction ls with
    | nil => intro a; simp
    | cons l ls ih => intro a; rw [List.foldl_cons, ih, List.any_cons, Bool.or_assoc]
  have hra : c.lmst - ra / 360 * 24 = c.lmst - ra / 15 := by ring
  unfold hourAngleLimit
  rw [hfold, Bool.false_or, List.any_eq_true]
  unfold targetHa
  rw [hra]
  apply exists_congr
  intro l
  apply and_congr_right
  intro hm
  simp only [Bool.and_eq_true, decide_eq_true_eq]
  constructor
  · rintro ⟨h1, h2⟩
    obtain ⟨_, _, k, hk⟩ := mod24_spec (c.lmst - ra / 15)
    exact ⟨k, by rw [← hk]; exact h1, by rw [← hk]; exact h2⟩
  · rintro ⟨k, h1, h2⟩
    have := mod24_unique (c.lmst - ra / 15) _ (le_trans (hl l hm).1 h1) (lt_of_lt_of_le h2 (hl l hm).2) k rfl
    rw [this]
    exact ⟨h1, h2⟩

example : hourAngleLimit 90 [(22, 24), (0, 2)] cond0 = true ∧ hourAngleLimit 120 [(22, 24), (0, 2)] cond0 = false ∧
    hourAngleLimit 45 [(22, 24), (0, 2)] cond0 = false := by decide +kernel

/-- A window over zero given as one leaves out a part of it. -/
theorem C55_hour_angle_violated : hourAngleLimit 90 [(-2, 2)] cond0 = false ∧
    ((-2 : ℚ) ≤ cond0.lmst - 90 / 15 ∧ cond0.lmst - 90 / 15 < 2) := by decide +kernel

end Verif
