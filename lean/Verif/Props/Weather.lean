import Verif.Model.Weather
import Verif.Lemmas.IntRounded
import Verif.Lemmas.Angles
import Verif.Props.BandSched

/-!
Property C44: weather is that of the nearest sample.
-/

namespace Verif

open Wx Bands

theorem searchLeft_le (dates : List ℚ) (x : ℚ) : searchLeft dates x ≤ dates.length := by
  unfold searchLeft
  exact List.Sublist.length_le (List.takeWhile_sublist _)

theorem getLast?_get {V : Type} (l : List V) (h : l ≠ []) : l.getLast? = l[l.length - 1]? := List.getLast?_eq_getElem?

/-- Between the first and the last sample the nearest is found. -/
theorem lookup_inside {V : Type} (dates : List ℚ) (values : List V) (hs : dates.Pairwise (· ≤ ·)) (hlen : values.length = dates.length)
    (x a b : ℚ) (ha : dates.head? = some a) (hb : dates.getLast? = some b) (h1 : a < x) (h2 : x ≤ b) :
    ∃ (i : ℕ) (d : ℚ) (v : V), dates[i]? = some d ∧ values[i]? = some v ∧ lookup dates values x = some v ∧ ∀ d' ∈ dates, |d - x| ≤ |d' - x| := by
  have hne : dates ≠ [] := by rintro rfl; simp at ha
  have hpos : 0 < dates.length := List.length_pos_iff.2 hne
  have hcount := searchLeft_count dates hs x
  rw [List.head?_eq_getElem?, List.getElem?_eq_getElem hpos, Option.some.injEq] at ha
  rw [List.getLast?_eq_getElem?, List.getElem?_eq_getElem (by omega), Option.some.injEq] at hb
  have hi0 : 0 < searchLeft dates x := (hcount 0 hpos).1 (by rw [ha]; exact h1)
  have hin : searchLeft dates x < dates.length := by
    by_contra hc
    have := (hcount (dates.length - 1) (by omega)).2 (by omega)
    rw [hb] at this
    exact absurd this (not_lt.2 h2)
  generalize hidx : searchLeft dates x = idx at *
  have hl : dates[idx - 1] < x := (hcount (idx - 1) (by omega)).2 (by omega)
  have hr : x ≤ dates[idx] := by
    by_contra hc
    exact absurd ((hcount idx hin).1 (not_le.1 hc)) (lt_irrefl _)
  have hleft : ∀ d' ∈ dates, d' ≤ dates[idx - 1] ∨ dates[idx] ≤ d' := by
    intro d' hd'
    obtain ⟨j, hj, rfl⟩ := List.getElem_of_mem hd'
    rcases Nat.lt_or_ge j idx with h | h
    · left
      rcases Nat.lt_or_ge j (idx - 1) with h' | h'
      · exact List.pairwise_iff_getElem.1 hs j (idx - 1) hj (by omega) h'
      · have : j = idx - 1 := by omega
        subst this; exact le_rfl
    · right
      rcases Nat.lt_or_ge idx j with h' | h'
      · exact List.pairwise_iff_getElem.1 hs idx j hin hj h'
      · have : j = idx := by omega
        subst this; exact le_rfl
  have hlook : lookup dates values x = if x - dates[idx - 1] < dates[idx] - x then values[idx - 1]? else values[idx]? := by
    unfold lookup before
    dsimp only
    rw [hidx, if_neg (by omega), if_neg (by omega), List.getElem?_eq_getElem (by omega : idx - 1 < dates.length), List.getElem?_eq_getElem hin]
  by_cases hc : x - dates[idx - 1] < dates[idx] - x
  · refine ⟨idx - 1, dates[idx - 1], values[idx - 1], List.getElem?_eq_getElem (by omega), List.getElem?_eq_getElem (by omega), ?_, ?_⟩
    · rw [hlook, if_pos hc, List.getElem?_eq_getElem (by omega)]
    · intro d' hd'
      rw [abs_of_neg (by linarith)]
      rcases hleft d' hd' with h | h
      · rw [abs_of_neg (by linarith)]; linarith
      · rw [abs_of_nonneg (by linarith)]; linarith
  · refine ⟨idx, dates[idx], values[idx], List.getElem?_eq_getElem (by omega), List.getElem?_eq_getElem (by omega), ?_, ?_⟩
    · rw [hlook, if_neg hc, List.getElem?_eq_getElem (by omega)]
    · intro d' hd'
      rw [abs_of_nonneg (by linarith)]
      rcases hleft d' hd' with h | h
      · rw [abs_of_neg (by linarith)]; linarith
      · rw [abs_of_nonneg (by linarith)]; linarith

/-- At or before the first sample the last one is taken. -/
theorem lookup_before {V : Type} (dates : List ℚ) (values : List V) (hs : dates.Pairwise (· ≤ ·))
    (x a b : ℚ) (ha : dates.head? = some a) (hb : dates.getLast? = some b) (hab : a < b) (h1 : x ≤ a) :
    lookup dates values x = values.getLast? := by
  have hne : dates ≠ [] := by rintro rfl; simp at ha
  have hpos : 0 < dates.length := List.length_pos_iff.2 hne
  have ha' := ha
  rw [List.head?_eq_getElem?, List.getElem?_eq_getElem hpos, Option.some.injEq] at ha'
  have hidx : searchLeft dates x = 0 := by
    by_contra hc
    have := (searchLeft_count dates hs x 0 hpos).2 (by omega)
    rw [ha'] at this
    exact absurd this (not_lt.2 h1)
  unfold lookup before
  dsimp only
  rw [hidx, if_pos rfl, if_pos rfl, hb, List.getElem?_eq_getElem hpos, ha']
  dsimp only
  rw [if_pos (by linarith)]

/-- After the last sample the search raises. -/
theorem lookup_after {V : Type} (dates : List ℚ) (values : List V) (hs : dates.Pairwise (· ≤ ·))
    (x : ℚ) (h : ∀ d ∈ dates, d < x) : lookup dates values x = none := by
  have hidx : searchLeft dates x = dates.length := by
    refine le_antisymm (searchLeft_le dates x) ?_
    by_contra hc
    have hlt : searchLeft dates x < dates.length := not_le.1 hc
    exact absurd ((searchLeft_count dates hs x _ hlt).1 (h _ (List.getElem_mem hlt))) (lt_irrefl _)
  unfold lookup
  dsimp only
  rw [hidx, List.getElem?_eq_none (le_refl _)]
  cases before dates dates.length <;> rfl

/-! ### The tables -/

theorem sorted_dates {V : Type} (table : List (ℚ × V)) : ((Wx.sorted table).map Prod.fst).Pairwise (· ≤ ·) := by
  rw [List.pairwise_map]
  haveI : IsTotal (ℚ × V) (fun a b => a.1 ≤ b.1) := ⟨fun a b => le_total _ _⟩
  haveI : IsTrans (ℚ × V) (fun a b => a.1 ≤ b.1) := ⟨fun a b c => le_trans⟩
  exact List.pairwise_insertionSort _ _

theorem sorted_mem {V : Type} (table : List (ℚ × V)) (p : ℚ × V) : p ∈ Wx.sorted table ↔ p ∈ table :=
  (List.perm_insertionSort _ _).mem_iff

/-- The earliest and the latest sample of a table. -/
def Earliest {V : Type} (table : List (ℚ × V)) (lo : ℚ) : Prop := (∃ p ∈ table, p.1 = lo) ∧ ∀ p ∈ table, lo ≤ p.1
def Latest {V : Type} (table : List (ℚ × V)) (hi : ℚ) : Prop := (∃ p ∈ table, p.1 = hi) ∧ ∀ p ∈ table, p.1 ≤ hi

theorem span_spec {V : Type} (table : List (ℚ × V)) (lo hi : ℚ) (hlo : Earliest table lo) (hhi : Latest table hi) :
    span table = some (lo, hi) ∧ ((Wx.sorted table).map Prod.fst).head? = some lo ∧ ((Wx.sorted table).map Prod.fst).getLast? = some hi := by
  have hs := sorted_dates table
  have hm := sorted_mem table
  unfold span
  generalize Wx.sorted table = l at *
  have hne : l ≠ [] := by
    rintro rfl
    obtain ⟨p, hp, _⟩ := hlo.1
    exact absurd ((hm p).2 hp) (by simp)
  have hhead : (l.map Prod.fst).head? = some lo := by
    cases l with
    | nil => exact absurd rfl hne
    | cons p l =>
      rw [List.map_cons, List.pairwise_cons] at hs
      simp only [List.map_cons, List.head?_cons, Option.some.injEq]
      refine le_antisymm ?_ (hlo.2 p ((hm p).1 (by simp)))
      obtain ⟨q, hq, rfl⟩ := hlo.1
      rcases List.mem_cons.1 ((hm q).2 hq) with rfl | h
      · exact le_rfl
      · exact hs.1 _ (List.mem_map_of_mem h)
  have hlast : (l.map Prod.fst).getLast? = some hi := by
    obtain ⟨l', p, rfl⟩ : ∃ l' p, l = l' ++ [p] := ⟨l.dropLast, l.getLast hne, (List.dropLast_append_getLast hne).symm⟩
    rw [List.map_append, List.pairwise_append] at hs
    simp only [List.map_append, List.map_cons, List.map_nil, List.getLast?_append_of_ne_nil, ne_eq, List.cons_ne_self, not_false_eq_true,
      List.getLast?_singleton, List.getLast?_append, Option.some_or, Option.some.injEq]
    refine le_antisymm (hhi.2 p ((hm p).1 (by simp))) ?_
    obtain ⟨q, hq, rfl⟩ := hhi.1
    rcases List.mem_append.1 ((hm q).2 hq) with h | h
    · exact hs.2.2 _ (List.mem_map_of_mem h) p.1 (by simp)
    · rw [List.mem_singleton.1 h]
  refine ⟨?_, hhead, hlast⟩
  rw [List.head?_map] at hhead
  rw [List.getLast?_map] at hlast
  cases h1 : l.head? with
  | none => rw [h1] at hhead; cases hhead
  | some p =>
    cases h2 : l.getLast? with
    | none => rw [h2] at hlast; cases hlast
    | some q =>
      rw [h1] at hhead; rw [h2] at hlast
      simp only [Option.map_some, Option.some.injEq] at hhead hlast
      dsimp only
      rw [hhead, hlast]

/-- **C44, seeing.** The table, whose length in time is not zero, is repeated without end, with its last sample at the time
of the first of the next repetition. The value at any time is that of a sample nearest to it among all repetitions. -/
theorem C44_seeing {V : Type} (table : List (ℚ × V)) (lo hi : ℚ) (hlo : Earliest table lo) (hhi : Latest table hi) (hne : lo < hi)
    (delta : ℚ) :
    ∃ p ∈ table, seeing table delta = some p.2 ∧
      ∃ m : ℤ, ∀ q ∈ table, ∀ k : ℤ, |p.1 + m * (hi - lo) - (lo + delta)| ≤ |q.1 + k * (hi - lo) - (lo + delta)| := by
  obtain ⟨h1, h2, h3⟩ := span_spec table lo hi hlo hhi
  have hT : 0 < hi - lo := sub_pos.2 hne
  have hn := Ang.md_nonneg hT delta
  have hl := Ang.md_lt hT delta
  obtain ⟨c, hc⟩ : ∃ c : ℤ, delta = Ang.md (hi - lo) delta + c * (hi - lo) := ⟨⌊delta / (hi - lo)⌋, by unfold Ang.md; ring⟩
  have hsee : seeing table delta = lookup ((Wx.sorted table).map Prod.fst) ((Wx.sorted table).map Prod.snd) (Ang.md (hi - lo) delta + lo) := by
    unfold seeing
    rw [h1]; dsimp only
    rw [if_neg hT.ne']
  rw [hsee]
  generalize hx : Ang.md (hi - lo) delta = x at *
  have hs := sorted_dates table
  -- other repetitions lie outside
  have hout : ∀ q ∈ table, ∀ k : ℤ, k ≠ 0 → q.1 + k * (hi - lo) ≤ lo ∨ hi ≤ q.1 + k * (hi - lo) := by
    intro q hq k hk
    have e1 := hlo.2 q hq
    have e2 := hhi.2 q hq
    rcases lt_or_gt_of_ne hk with h | h
    · left
      have : (k : ℚ) ≤ -1 := by exact_mod_cast Int.le_sub_one_of_lt h
      nlinarith
    · right
      have : (1 : ℚ) ≤ k := by exact_mod_cast h
      nlinarith
  rcases eq_or_lt_of_le hn with h0 | h0
  · -- the first moment of a repetition
    have hb := lookup_before ((Wx.sorted table).map Prod.fst) ((Wx.sorted table).map Prod.snd) hs (x + lo) lo hi h2 h3 hne (by rw [← h0]; simp)
    rw [hb]
    rw [List.getLast?_map] at h3 ⊢
    cases hp : (Wx.sorted table).getLast? with
    | none => rw [hp] at h3; cases h3
    | some p =>
      rw [hp] at h3
      simp only [Option.map_some, Option.some.injEq] at h3
      refine ⟨p, (sorted_mem table p).1 (List.mem_of_getLast? hp), rfl, c - 1, fun q _ k => ?_⟩
      rw [h3, hc, ← h0]
      have : hi + ((c - 1 : ℤ) : ℚ) * (hi - lo) - (lo + (0 + c * (hi - lo))) = 0 := by push_cast; ring
      rw [this, abs_zero]
      exact abs_nonneg _
  · obtain ⟨i, d, v, g1, g2, g3, g4⟩ := lookup_inside _ ((Wx.sorted table).map Prod.snd) hs (by simp) (x + lo) lo hi h2 h3 (by linarith) (by linarith)
    rw [List.getElem?_map, Option.map_eq_some_iff] at g1 g2
    obtain ⟨p, hp, rfl⟩ := g1
    obtain ⟨p', hp', rfl⟩ := g2
    rw [hp] at hp'
    cases hp'
    refine ⟨p, (sorted_mem table p).1 (List.mem_of_getElem? hp), g3, c, fun q hq k => ?_⟩
    have e1 : p.1 + c * (hi - lo) - (lo + delta) = p.1 - (x + lo) := by rw [hc]; ring
    have e2 : q.1 + k * (hi - lo) - (lo + delta) = q.1 + ((k - c : ℤ) : ℚ) * (hi - lo) - (x + lo) := by rw [hc]; push_cast; ring
    rw [e1, e2]
    by_cases hk : k - c = 0
    · rw [hk]; simp only [Int.cast_zero, zero_mul, add_zero]
      exact g4 _ (List.mem_map_of_mem ((sorted_mem table q).2 hq))
    · obtain ⟨pl, hpl, hpl'⟩ := hlo.1
      obtain ⟨ph, hph, hph'⟩ := hhi.1
      have b1 := g4 _ (List.mem_map_of_mem ((sorted_mem table pl).2 hpl))
      have b2 := g4 _ (List.mem_map_of_mem ((sorted_mem table ph).2 hph))
      rw [hpl', abs_of_neg (by linarith : lo - (x + lo) < 0)] at b1
      rw [hph', abs_of_pos (by linarith : 0 < hi - (x + lo))] at b2
      rcases hout q hq (k - c) hk with h | h
      · rw [abs_of_neg (by linarith : q.1 + ((k - c : ℤ) : ℚ) * (hi - lo) - (x + lo) < 0)]; linarith
      · rw [abs_of_pos (by linarith : 0 < q.1 + ((k - c : ℤ) : ℚ) * (hi - lo) - (x + lo))]; linarith

example : seeing [(5, "a"), (9, "b"), (15, "c")] 3 = some "b" ∧ seeing [(5, "a"), (9, "b"), (15, "c")] 11 = some "a" ∧
    Earliest [((5 : ℚ), "a"), (9, "b"), (15, "c")] 5 ∧ Latest [((5 : ℚ), "a"), (9, "b"), (15, "c")] 15 := by
  refine ⟨by decide +kernel, by decide +kernel, ?_, ?_⟩
  · exact ⟨⟨(5, "a"), by simp, rfl⟩, by decide +kernel⟩
  · exact ⟨⟨(15, "c"), by simp, rfl⟩, by decide +kernel⟩

/-- How far times may be off by rounding to the scale. -/
def slack (scale : Option ℚ) : ℚ := match scale with | none => 0 | some s => 2 / s

theorem scaled_mono (scale : Option ℚ) (hs : ∀ s, scale = some s → 0 < s) {x y : ℚ} (h : x ≤ y) : Wx.scaled scale x ≤ Wx.scaled scale y := by
  unfold Wx.scaled
  cases scale with
  | none => exact h
  | some s =>
    dsimp only
    exact_mod_cast roundHalfEven_mono (mul_le_mul_of_nonneg_right h (hs s rfl).le)

theorem scaled_near (scale : Option ℚ) (hs : ∀ s, scale = some s → 0 < s) (d d' x : ℚ)
    (h : |Wx.scaled scale d - Wx.scaled scale x| ≤ |Wx.scaled scale d' - Wx.scaled scale x|) : |d - x| ≤ |d' - x| + slack scale := by
  unfold slack
  cases scale with
  | none => simpa [Wx.scaled] using h
  | some s =>
    have hp := hs s rfl
    simp only [Wx.scaled] at h
    have n1 := abs_le.1 (roundHalfEven_near (d * s))
    have n2 := abs_le.1 (roundHalfEven_near (d' * s))
    have n3 := abs_le.1 (roundHalfEven_near (x * s))
    have key : |d - x| * s ≤ |d' - x| * s + 2 := by
      rw [← abs_of_pos hp, ← abs_mul, ← abs_mul, sub_mul, sub_mul]
      have t1 : |d * s - x * s| ≤ |(roundHalfEven (d * s) : ℚ) - roundHalfEven (x * s)| + 1 := by
        rw [abs_le]
        have := abs_le.1 (le_refl |(roundHalfEven (d * s) : ℚ) - roundHalfEven (x * s)|)
        constructor <;> linarith
      have t2 : |(roundHalfEven (d' * s) : ℚ) - roundHalfEven (x * s)| ≤ |d' * s - x * s| + 1 := by
        rw [abs_le]
        have := abs_le.1 (le_refl |d' * s - x * s|)
        constructor <;> linarith
      linarith
    dsimp only
    rw [← sub_nonneg]
    have : 0 ≤ (|d' - x| * s + 2 - |d - x| * s) / s := div_nonneg (by linarith) hp.le
    have e : (|d' - x| * s + 2 - |d - x| * s) / s = |d' - x| + 2 / s - |d - x| := by field_simp
    rw [e] at this; exact this

/-- A year of 365.25 days, in seconds. -/
def julianYear : ℚ := 31557600

theorem year_eq : Wx.year = julianYear := by unfold Wx.year julianYear; norm_num

/-- **C44 (partial), clouds.** The table is used up to a whole number of years. After its first sample and up
to its last one the value is that of a sample nearest in time, up to the rounding of times. -/
theorem C44_cloud_partial {V : Type} (scale : Option ℚ) (hsc : ∀ s, scale = some s → 0 < s) (table : List (ℚ × V)) (lo hi : ℚ)
    (hlo : Earliest table lo) (hhi : Latest table hi) (years : ℤ) (hy : years = ⌊(hi - lo) / julianYear⌋) (hy0 : years ≠ 0) (delta : ℚ)
    (x : ℚ) (hx : x = Ang.md (years * julianYear) delta) (h1 : Wx.scaled scale lo < Wx.scaled scale x) (h2 : x ≤ hi) :
    ∃ p ∈ table, cloud scale table delta = some p.2 ∧ ∀ q ∈ table, |p.1 - x| ≤ |q.1 - x| + slack scale := by
  obtain ⟨e1, e2, e3⟩ := span_spec table lo hi hlo hhi
  have hs := sorted_dates table
  have hcl : cloud scale table delta = lookup ((Wx.sorted table).map (fun p => Wx.scaled scale p.1)) ((Wx.sorted table).map Prod.snd) (Wx.scaled scale x) := by
    unfold cloud
    rw [e1, year_eq]; dsimp only
    rw [← hy, if_neg hy0, hx]
  have hmm : (Wx.sorted table).map (fun p => Wx.scaled scale p.1) = ((Wx.sorted table).map Prod.fst).map (Wx.scaled scale) := by
    rw [List.map_map]; rfl
  have hs' : ((Wx.sorted table).map (fun p => Wx.scaled scale p.1)).Pairwise (· ≤ ·) := by
    rw [hmm, List.pairwise_map]
    exact hs.imp (fun h => scaled_mono scale hsc h)
  obtain ⟨i, d, v, g1, g2, g3, g4⟩ := lookup_inside _ ((Wx.sorted table).map Prod.snd) hs' (by simp) (Wx.scaled scale x)
    (Wx.scaled scale lo) (Wx.scaled scale hi) (by rw [hmm, List.head?_map, e2]; rfl) (by rw [hmm, List.getLast?_map, e3]; rfl) h1
    (scaled_mono scale hsc h2)
  rw [hcl, g3]
  rw [List.getElem?_map, Option.map_eq_some_iff] at g1 g2
  obtain ⟨p, hp, rfl⟩ := g1
  obtain ⟨p', hp', rfl⟩ := g2
  rw [hp] at hp'
  cases hp'
  refine ⟨p, (sorted_mem table p).1 (List.mem_of_getElem? hp), rfl, fun q hq => ?_⟩
  exact scaled_near scale hsc _ _ _ (g4 _ (List.mem_map_of_mem (f := fun p => Wx.scaled scale p.1) ((sorted_mem table q).2 hq)))

/-- Four samples over a little more than a year. -/
def someClouds : List (ℚ × ℚ) := [(0, 1), (1000, 3), (20000000, 5), (Wx.year + 5000, 8)]

example : cloud (some 1000000) someClouds (Wx.year * 7 + 600) = some 3 ∧ cloud none someClouds 20 = some 1 := by decide +kernel

/-- **C44 fails** for clouds at or before the first sample: the value is that of the last one. -/
theorem C44_first_violated {V : Type} (table : List (ℚ × V)) (lo hi : ℚ) (hlo : Earliest table lo) (hhi : Latest table hi) (hne : lo < hi)
    (years : ℤ) (hy : years = ⌊(hi - lo) / julianYear⌋) (hy0 : years ≠ 0) (delta : ℚ) (h : Ang.md (years * julianYear) delta ≤ lo) :
    ∃ p ∈ table, cloud none table delta = some p.2 ∧ p.1 = hi := by
  obtain ⟨e1, e2, e3⟩ := span_spec table lo hi hlo hhi
  have hcl : cloud none table delta = lookup ((Wx.sorted table).map Prod.fst) ((Wx.sorted table).map Prod.snd) (Ang.md (years * julianYear) delta) := by
    unfold cloud
    rw [e1, year_eq]; dsimp only
    rw [← hy, if_neg hy0]; rfl
  rw [hcl, lookup_before _ _ (sorted_dates table) _ lo hi e2 e3 hne h, List.getLast?_map]
  rw [List.getLast?_map] at e3
  cases hp : (Wx.sorted table).getLast? with
  | none => rw [hp] at e3; cases e3
  | some p =>
    rw [hp] at e3
    exact ⟨p, (sorted_mem table p).1 (List.mem_of_getLast? hp), rfl, by simpa using e3⟩

/-- At the time of the first sample, value 1, the value is 8. -/
theorem C44_witness : cloud (some 1000000) someClouds 0 = some 8 ∧ cloud (some 1000000) someClouds Wx.year = some 8 := by decide +kernel

/-- **C44 fails** for clouds if samples start before time zero: after the last one the search raises. -/
theorem C44_end_violated : cloud none [(-10000, (1 : ℚ)), (Wx.year - 9000, 2)] (Wx.year - 5000) = none := by decide +kernel

end Verif
