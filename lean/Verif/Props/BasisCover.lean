import Verif.Props.BasisSky
import Mathlib.Algebra.Order.Floor.Ring
import Mathlib.Algebra.BigOperators.Group.List.Lemmas

/-!
C109 (coverage by year and season), C110 (footprint), C111 (counts of visits), C112 (near the sun).
-/

namespace Verif

open Feat Bf

/-! ### C109 -/

/-- The pixel is in season: its right ascension is that opposite to the sun and `o`, between the ends of the season, up to full turns. -/
def InSeason (T sStart sEnd sunRa ra o : ℚ) : Prop := sStart ≤ o ∧ o ≤ sEnd ∧ ∃ k : ℤ, ra = sunRa + T / 2 + o + k * T

theorem wrap_eq (T x : ℚ) : ∃ k : ℤ, wrap T x = x + k * T := ⟨-⌊x / T⌋, by unfold wrap; push_cast; ring⟩

theorem wrap_bounds (T x : ℚ) (hT : 0 < T) : 0 ≤ wrap T x ∧ wrap T x < T := by
  unfold wrap
  have h1 := Int.floor_le (x / T)
  have h2 := Int.lt_floor_add_one (x / T)
  rw [le_div_iff₀ hT] at h1
  rw [div_lt_iff₀ hT] at h2
  constructor <;> nlinarith

theorem wrap_unique (T x y : ℚ) (hT : 0 < T) (k : ℤ) (h : x = y + k * T) (h0 : 0 ≤ y) (h1 : y < T) : wrap T x = y := by
  have : ⌊x / T⌋ = k := by
    rw [Int.floor_eq_iff, le_div_iff₀ hT, div_lt_iff₀ hT]
    constructor <;> nlinarith
  unfold wrap
  rw [this, h]
  ring

theorem into_inSeason (T sStart sEnd sunRa ra o : ℚ) (hT : 0 < T) (hlen : sEnd - sStart < T) (h : InSeason T sStart sEnd sunRa ra o) :
    into T sEnd sunRa ra = sEnd - o := by
  obtain ⟨h1, h2, k, hk⟩ := h
  unfold into
  obtain ⟨a, ha⟩ := wrap_eq T (sunRa + T / 2)
  obtain ⟨b, hb⟩ := wrap_eq T (ra - wrap T (sunRa + T / 2))
  rw [hb, ha]
  apply wrap_unique T _ _ hT (-(k - a + b)) _ (by linarith) (by linarith)
  rw [hk]
  push_cast
  ring

theorem into_le (T sStart sEnd sunRa ra : ℚ) (hT : 0 < T) (h : into T sEnd sunRa ra ≤ sEnd - sStart) :
    InSeason T sStart sEnd sunRa ra (sEnd - into T sEnd sunRa ra) := by
  have h0 : 0 ≤ into T sEnd sunRa ra := (wrap_bounds T _ hT).1
  refine ⟨by linarith, by linarith, ?_⟩
  unfold into
  obtain ⟨a, ha⟩ := wrap_eq T (sunRa + T / 2)
  obtain ⟨b, hb⟩ := wrap_eq T (ra - wrap T (sunRa + T / 2))
  obtain ⟨c, hc⟩ := wrap_eq T (sEnd - wrap T (ra - wrap T (sunRa + T / 2)))
  refine ⟨c - b + a, ?_⟩
  rw [hc, hb, ha]
  push_cast
  ring

theorem perYear_get (T season sStart sEnd : ℚ) (nightMax : ℤ) (footprint : List (Option ℚ)) (nth : ℕ → ℚ) (t : ℚ) (night : ℤ) (sunRa : ℚ) (ra : List ℚ)
    (hnight : night ≤ nightMax) (hclear : ClearOf (sEnd - sStart) (ra.map (into T sEnd sunRa))) (p : ℕ) (f : Option ℚ) (r : ℚ)
    (hf : footprint[p]? = some f) (hr : ra[p]? = some r) :
    ∃ m, perYear T season sStart sEnd nightMax footprint nth t night sunRa ra = .inr m ∧
      m[p]? = some (if f = none ∨ f = some 0 then 0 else (if season < t - nth p then 1 else 0) *
        ((if sEnd - sStart < into T sEnd sunRa r then 0 else into T sEnd sunRa r) / (sEnd - sStart))) := by
  unfold perYear
  rw [if_neg (not_lt.2 hnight)]
  refine ⟨_, rfl, ?_⟩
  have hp : p < ra.length := (List.getElem?_eq_some_iff.1 hr).1
  have hw : (yearWeights T sStart sEnd sunRa ra)[p]? =
      some ((if sEnd - sStart < into T sEnd sunRa r then 0 else into T sEnd sunRa r) / (sEnd - sStart)) := by
    unfold yearWeights
    rw [(cmp_clear _ _ hclear).2.2.1, List.map_map, put_map, List.getElem?_map, List.getElem?_map, hr]
    simp
  unfold Mask.put
  rw [List.getElem?_zipWith, List.getElem?_map, hf, List.getElem?_zipWith, List.getElem?_map, List.getElem?_range hp, hw]
  simp only [Option.map_some, Bool.or_eq_true, beq_iff_eq]

/-- C109: until the last night asked for, a pixel of the footprint that is behind (its n-th latest visit is older than the season asks for) gets a reward that rises
from 0 at the start of its season to 1 at the end; all others get 0. Missing: a right ascension within the tolerance of the end of the
season. -/
theorem C109_year_partial (T season sStart sEnd : ℚ) (nightMax : ℤ) (footprint : List (Option ℚ)) (nth : ℕ → ℚ) (t : ℚ) (night : ℤ) (sunRa : ℚ) (ra : List ℚ)
    (hT : 0 < T) (hlen : sEnd - sStart < T) (hnight : night ≤ nightMax) (hclear : ClearOf (sEnd - sStart) (ra.map (into T sEnd sunRa)))
    (p : ℕ) (f : Option ℚ) (r : ℚ) (hf : footprint[p]? = some f) (hr : ra[p]? = some r) :
    ∃ m, perYear T season sStart sEnd nightMax footprint nth t night sunRa ra = .inr m ∧
      (∀ o, f ≠ none → f ≠ some 0 → season < t - nth p → InSeason T sStart sEnd sunRa r o → m[p]? = some ((sEnd - o) / (sEnd - sStart))) ∧
      (f = none ∨ f = some 0 ∨ t - nth p ≤ season ∨ (∀ o, ¬ InSeason T sStart sEnd sunRa r o) → m[p]? = some 0) := by
  obtain ⟨m, hm, hv⟩ := perYear_get T season sStart sEnd nightMax footprint nth t night sunRa ra hnight hclear p f r hf hr
  refine ⟨m, hm, ?_, ?_⟩
  · intro o h1 h2 h3 h4
    rw [hv, if_neg (by tauto), if_pos h3, into_inSeason T sStart sEnd sunRa r o hT hlen h4, if_neg (not_lt.2 (by linarith [h4.1])), one_mul]
  · intro h
    rw [hv]
    rcases h with h | h | h | h
    · rw [if_pos (Or.inl h)]
    · rw [if_pos (Or.inr h)]
    · rw [if_neg (not_lt.2 h), zero_mul]; simp
    · have : sEnd - sStart < into T sEnd sunRa r := by
        by_contra hh
        exact h _ (into_le T sStart sEnd sunRa r hT (not_lt.1 hh))
      rw [if_pos this]; simp

/-- C109: after the last night asked for there is no reward. -/
theorem C109_after (T season sStart sEnd : ℚ) (nightMax : ℤ) (footprint : List (Option ℚ)) (nth : ℕ → ℚ) (t : ℚ) (night : ℤ) (sunRa : ℚ) (ra : List ℚ)
    (h : nightMax < night) : perYear T season sStart sEnd nightMax footprint nth t night sunRa ra = .inl 0 := by
  unfold perYear; rw [if_pos h]

theorem largest_count (season t : ℚ) (n : ℕ) (hn : 1 ≤ n) (ts : List ℚ) (hs : ts.Pairwise (· ≤ ·)) (ht : season < t) :
    season < t - LastNObs.largest n ts ↔ ts.countP (fun x => decide (t - x ≤ season)) < n := by
  unfold LastNObs.largest
  by_cases hlen : ts.length < n
  · rw [if_pos hlen]
    have := List.countP_le_length (p := fun x => decide (t - x ≤ season)) (l := ts)
    constructor
    · intro _; omega
    · intro _; linarith
  · rw [if_neg hlen]
    have hi : ts.length - n < ts.length := by omega
    rw [List.getD_eq_getElem?_getD, List.getElem?_eq_getElem hi, Option.getD_some]
    constructor
    · intro h
      rw [← List.take_append_drop (ts.length - n + 1) ts, List.countP_append]
      have h0 : (ts.take (ts.length - n + 1)).countP (fun x => decide (t - x ≤ season)) = 0 := by
        rw [List.countP_eq_zero]
        intro x hx
        obtain ⟨i, hi', rfl⟩ := List.mem_iff_getElem.1 hx
        rw [List.getElem_take]
        have hi2 : i < ts.length - n + 1 := by simp at hi'; omega
        have : ts[i]'(by omega) ≤ ts[ts.length - n] := by
          rcases Nat.lt_or_ge i (ts.length - n) with h' | h'
          · exact List.pairwise_iff_getElem.1 hs i _ _ _ h'
          · have : i = ts.length - n := by omega
            subst this; exact le_refl _
        simp only [decide_eq_true_eq, not_le]
        linarith
      have h1 := List.countP_le_length (p := fun x => decide (t - x ≤ season)) (l := ts.drop (ts.length - n + 1))
      rw [List.length_drop] at h1
      omega
    · intro h
      by_contra hh
      have hh := not_lt.1 hh
      have : n ≤ ts.countP (fun x => decide (t - x ≤ season)) := by
        rw [← List.take_append_drop (ts.length - n) ts, List.countP_append]
        have h1 : (ts.drop (ts.length - n)).countP (fun x => decide (t - x ≤ season)) = (ts.drop (ts.length - n)).length := by
          rw [List.countP_eq_length]
          intro x hx
          obtain ⟨i, hi', rfl⟩ := List.mem_iff_getElem.1 hx
          rw [List.getElem_drop]
          rw [List.length_drop] at hi'
          have : ts[ts.length - n] ≤ ts[ts.length - n + i]'(by omega) := by
            rcases Nat.eq_zero_or_pos i with h' | h'
            · subst h'; exact le_refl _
            · exact List.pairwise_iff_getElem.1 hs _ _ _ _ (by omega)
          simp only [decide_eq_true_eq]
          linarith
        rw [h1, List.length_drop]
        omega
      omega

/-- C109: a pixel is behind exactly when fewer than `n` visits in the band covered it within the time asked for. Missing: band names of several letters. -/
theorem C109_behind_partial (b : Option String) (n : ℕ) (hn : 1 ≤ n) (h : List Vis) (hc : Chrono h) (hl : Letters b h) (hf : Footprints h) (season t : ℚ)
    (ht : season < t) (p : ℕ) :
    season < t - (h.foldl (LastNObs.one ⟨b, n⟩) (LastNObs.init ⟨b, n⟩) p).headD 0 ↔
      h.countP (fun v => decide (InBand b v) && decide (p ∈ v.pix) && decide (t - v.mjd ≤ season)) < n := by
  rw [(C34_last_n_times_partial ⟨b, n⟩ hn h hl hf).2 p, drop_padded]
  have hhead : ((List.range n).map (fun j => LastNObs.largest (n - j) (timesOf ⟨b, n⟩ p h))).headD 0 = LastNObs.largest n (timesOf ⟨b, n⟩ p h) := by
    obtain ⟨m, rfl⟩ : ∃ m, n = m + 1 := ⟨n - 1, by omega⟩
    rw [List.range_succ_eq_map]
    rfl
  dsimp only
  rw [hhead, largest_count season t n hn _ _ ht]
  · have e : (timesOf ⟨b, n⟩ p h).countP (fun x => decide (t - x ≤ season)) =
        h.countP (fun v => decide (InBand b v) && decide (p ∈ v.pix) && decide (t - v.mjd ≤ season)) := by
      unfold timesOf
      rw [List.countP_map, List.countP_filter]
      apply List.countP_congr
      intro v _
      have : LastNObs.bandBulk ⟨b, n⟩ v = decide (InBand b v) := by
        unfold LastNObs.bandBulk InBand
        rw [Bool.eq_iff_iff]
        cases b <;> simp
      simp only [this, Function.comp, Bool.and_eq_true, decide_eq_true_eq]
      tauto
    rw [e]
  · unfold timesOf
    rw [List.pairwise_map]
    apply List.Pairwise.filter
    exact List.Pairwise.imp (fun h => h.1) hc

example : InSeason 24 (-4) 2 0 11 (-1) ∧ ClearOf (2 - -4) ([11, 20].map (into 24 2 0)) ∧
    perYear 24 300 (-4) 2 365 [some 1, some 1] (fun _ => 0) 1000 10 0 [11, 20] = .inr [1 / 2, 0] ∧
    (let h := [vis 1 800 1 "r" "a" [0], vis 2 900 1 "r" "a" [0]]
     h.countP (fun v => decide (InBand none v) && decide (0 ∈ v.pix) && decide (1000 - v.mjd ≤ 300)) = 2 ∧
     (h.foldl (LastNObs.one ⟨none, 2⟩) (LastNObs.init ⟨none, 2⟩) 0).headD 0 = 800) := by
  refine ⟨⟨by norm_num, by norm_num, 0, by norm_num⟩, ?_, ?_, ?_⟩
  · right; unfold Clear; decide +kernel
  · decide +kernel
  · decide +kernel

/-- C109, good seeing: a pixel is rewarded with 1 exactly when it is in the footprint, misses visits this season, and seeing and depth are now good enough. -/
theorem C109_good_seeing (npix : ℕ) (fwhmMax penaltyMax : ℚ) (desired : ℕ) (footprint dark : ℕ → ℚ) (depth : ℕ → Option ℚ) (fwhm : ℕ → ℚ) (count : ℕ → ℕ)
    (p : ℕ) (hp : p < npix) :
    ∃ x, (goodSeeing npix fwhmMax penaltyMax desired footprint dark depth fwhm count)[p]? = some x ∧ (x = 0 ∨ x = 1) ∧
      (x = 1 ↔ 0 < footprint p ∧ count p < desired ∧ fwhm p ≤ fwhmMax ∧ ∃ d, depth p = some d ∧ dark p - d ≤ penaltyMax) := by
  have h01 : ∀ P : Prop, [Decidable P] → ((if P then (1 : ℚ) else 0) = 0 ∨ (if P then (1 : ℚ) else 0) = 1) := by intro P _; split <;> simp
  have hx : ∀ P : Prop, [Decidable P] → ((if P then (1 : ℚ) else 0) = 1 ↔ P) := by intro P _; split <;> simp_all
  unfold goodSeeing
  rw [List.getElem?_map, List.getElem?_range hp]
  refine ⟨_, rfl, h01 _, ?_⟩
  rw [hx]
  cases hd : depth p with
  | none => simp
  | some d =>
    simp only [Bool.and_eq_true, decide_eq_true_eq, Option.some.injEq, exists_eq_left']
    tauto

/-- C109, coverage of a season: a pixel is rewarded with 1 exactly when it is in the footprint, misses visits this season, and the season is far enough along. Missing: a
season within the tolerance of that point. -/
theorem C109_season_partial (npix perSeason : ℕ) (frac : ℚ) (footprint season : ℕ → ℚ) (count : ℕ → ℕ)
    (hclear : ClearOf frac ((List.range npix).map (fun p => season p - ⌊season p⌋))) (p : ℕ) (hp : p < npix) :
    ∃ x, (seasonCoverage npix perSeason frac footprint season count)[p]? = some x ∧ (x = 0 ∨ x = 1) ∧
      (x = 1 ↔ 0 < footprint p ∧ count p < perSeason ∧ ∃ (k : ℤ) (r : ℚ), season p = k + r ∧ frac < r ∧ 0 ≤ r ∧ r < 1) := by
  have h01 : ∀ P : Prop, [Decidable P] → ((if P then (1 : ℚ) else 0) = 0 ∨ (if P then (1 : ℚ) else 0) = 1) := by intro P _; split <;> simp
  have hx : ∀ P : Prop, [Decidable P] → ((if P then (1 : ℚ) else 0) = 1 ↔ P) := by intro P _; split <;> simp_all
  have e : (List.range npix).map (fun p => (season p - ⌊season p⌋, frac)) = ((List.range npix).map (fun p => season p - (⌊season p⌋ : ℚ))).map (fun x => (x, frac)) := by
    rw [List.map_map]; rfl
  unfold seasonCoverage
  rw [e, (cmp_clear _ _ hclear).2.2.1, List.map_map, zipWith_map_same, put_map, List.getElem?_map, List.getElem?_range hp]
  refine ⟨_, rfl, h01 _, ?_⟩
  rw [hx]
  simp only [Bool.and_eq_true, decide_eq_true_eq, Function.comp]
  constructor
  · rintro ⟨⟨h1, h2⟩, h3⟩
    exact ⟨h1, h2, ⌊season p⌋, season p - ⌊season p⌋, by ring, h3, by linarith [Int.floor_le (season p)], by linarith [Int.lt_floor_add_one (season p)]⟩
  · rintro ⟨h1, h2, k, r, hk, h3, h4, h5⟩
    have : ⌊season p⌋ = k := by rw [Int.floor_eq_iff]; constructor <;> linarith
    rw [this, hk]
    exact ⟨⟨h1, h2⟩, by linarith⟩

/-- C109 fails for the code when one pixel is at the wanted part of its season: the map is compared in whole seasons and no
other pixel is marked, here one that is lacking visits and past the wanted part. With the first pixel elsewhere it is. -/
theorem C109_rounding_violated :
    seasonCoverage 2 1 (2 / 5) (fun _ => 1) (fun p => if p = 0 then 2 / 5 else 9 / 20) (fun _ => 0) = [0, 0] ∧
    seasonCoverage 2 1 (2 / 5) (fun _ => 1) (fun p => if p = 0 then 1 / 5 else 9 / 20) (fun _ => 0) = [0, 1] := by
  decide +kernel

example : ClearOf (1 / 2) ((List.range 2).map (fun p => (if p = 0 then 13 / 10 else -1 / 4 : ℚ) - ⌊(if p = 0 then 13 / 10 else -1 / 4 : ℚ)⌋)) ∧
    seasonCoverage 2 3 (1 / 2) (fun _ => 1) (fun p => if p = 0 then 13 / 10 else -1 / 4) (fun _ => 2) = [0, 1] ∧
    goodSeeing 2 (4 / 5) (1 / 2) 3 (fun _ => 1) (fun _ => 24) (fun p => if p = 0 then none else some (239 / 10)) (fun _ => 7 / 10) (fun _ => 0) = [0, 1] := by
  refine ⟨?_, ?_, ?_⟩
  · right; unfold Clear; decide +kernel
  · decide +kernel
  · decide +kernel

/-! ### C110 -/

theorem cast_sum_map {α : Type} (l : List α) (f : α → ℕ) : (((l.map f).sum : ℕ) : ℚ) = (l.map (fun x => (f x : ℚ))).sum := by
  induction l with
  | nil => simp
  | cons a l ih => simp only [List.map_cons, List.sum_cons, ← ih]; push_cast; ring

/-- C110: a pixel of the footprint gets the number of visits it should have by now (its share of all visits, counted by pixel) less the number it has; the others get the
value asked for. -/
theorem C110_value (npix : ℕ) (oob : Option ℚ) (first now : ℕ → ℚ) (all mine : ℕ → ℕ) (p : ℕ) (hp : p < npix) :
    (0 < first p → (Bf.footprint npix oob first now all mine)[p]? = some (some (now p * ((List.range npix).map (fun q => (all q : ℚ))).sum - mine p))) ∧
    (first p ≤ 0 → (Bf.footprint npix oob first now all mine)[p]? = some oob) := by
  unfold Bf.footprint
  rw [List.getElem?_map, List.getElem?_range hp]
  have e : ((((List.range npix).map all).sum : ℕ) : ℚ) = ((List.range npix).map (fun q => (all q : ℚ))).sum := by
    exact cast_sum_map _ _
  refine ⟨fun h => ?_, fun h => ?_⟩
  · rw [Option.map_some, if_neg (not_le.2 h), e]
  · rw [Option.map_some, if_pos h]

/-- C110: of two pixels of the footprint with the same share, the one with fewer visits in the band is rewarded more. -/
theorem C110_order (npix : ℕ) (oob : Option ℚ) (first now : ℕ → ℚ) (all mine : ℕ → ℕ) (p q : ℕ) (hp : p < npix) (hq : q < npix) (h1 : 0 < first p) (h2 : 0 < first q)
    (hs : now p = now q) (hlt : mine p < mine q) :
    ∃ x y, (Bf.footprint npix oob first now all mine)[p]? = some (some x) ∧ (Bf.footprint npix oob first now all mine)[q]? = some (some y) ∧ y < x := by
  refine ⟨_, _, (C110_value npix oob first now all mine p hp).1 h1, (C110_value npix oob first now all mine q hq).1 h2, ?_⟩
  have : (mine p : ℚ) < mine q := by exact_mod_cast hlt
  rw [hs]
  linarith

theorem sum_sub_map {α : Type} (l : List α) (f g : α → ℚ) : (l.map (fun x => f x - g x)).sum = (l.map f).sum - (l.map g).sum := by
  induction l with
  | nil => simp
  | cons a l ih => simp only [List.map_cons, List.sum_cons, ih]; ring

theorem sum_mul_map {α : Type} (l : List α) (f : α → ℚ) (c : ℚ) : (l.map (fun x => f x * c)).sum = (l.map f).sum * c := by
  induction l with
  | nil => simp
  | cons a l ih => simp only [List.map_cons, List.sum_cons, ih]; ring

theorem sum_add_map {α : Type} (l : List α) (f g : α → ℚ) : (l.map (fun x => f x + g x)).sum = (l.map f).sum + (l.map g).sum := by
  induction l with
  | nil => simp
  | cons a l ih => simp only [List.map_cons, List.sum_cons, ih]; ring

theorem sum_swap {α β : Type} (l : List α) (m : List β) (f : α → β → ℚ) :
    (l.map (fun a => (m.map (f a)).sum)).sum = (m.map (fun b => (l.map (fun a => f a b)).sum)).sum := by
  induction l with
  | nil => simp
  | cons a l ih =>
    simp only [List.map_cons, List.sum_cons]
    rw [ih, sum_add_map]

/-- C110: when the shares of all bands add up to 1, all visits are in these bands and in the footprints, the rewards of all bands and pixels add up to 0: what one lacks, others
have too much. -/
theorem C110_balance (npix : ℕ) (bands : List String) (first now : String → ℕ → ℚ) (all : ℕ → ℕ) (mine : String → ℕ → ℕ)
    (hshare : (bands.map (fun b => ((List.range npix).map (now b)).sum)).sum = 1) (hall : ∀ p, (all p : ℚ) = (bands.map (fun b => (mine b p : ℚ))).sum)
    (hout : ∀ b ∈ bands, ∀ p, p < npix → first b p ≤ 0 → now b p = 0 ∧ mine b p = 0) :
    (bands.map (fun b => ((Bf.footprint npix none (first b) (now b) all (mine b)).map (fun x => x.getD 0)).sum)).sum = 0 := by
  have e : ((((List.range npix).map all).sum : ℕ) : ℚ) = ((List.range npix).map (fun q => (all q : ℚ))).sum := by
    exact cast_sum_map _ _
  have hb : ∀ b ∈ bands, ((Bf.footprint npix none (first b) (now b) all (mine b)).map (fun x => x.getD 0)).sum =
      ((List.range npix).map (now b)).sum * ((List.range npix).map (fun q => (all q : ℚ))).sum - ((List.range npix).map (fun q => (mine b q : ℚ))).sum := by
    intro b hb
    rw [← sum_mul_map, ← sum_sub_map]
    unfold Bf.footprint
    rw [List.map_map]
    congr 1
    apply List.map_congr_left
    intro p hp
    simp only [Function.comp]
    by_cases hf : first b p ≤ 0
    · have := hout b hb p (List.mem_range.1 hp) hf
      rw [if_pos hf, this.1, this.2]; simp
    · rw [if_neg hf, e]; rfl
  rw [List.map_congr_left hb, sum_sub_map, sum_mul_map, hshare, one_mul, sum_swap]
  rw [show (fun q => (all q : ℚ)) = fun q => (bands.map (fun b => (mine b q : ℚ))).sum from funext hall]
  ring

example : let now := fun (b : String) (p : ℕ) => (if b = "r" then (if p = 0 then 1 / 2 else 1 / 4) else (if p = 0 then 1 / 4 else 0) : ℚ)
    let mine := fun (b : String) (p : ℕ) => if b = "r" then p + 1 else if p = 0 then 1 else 0
    Bf.footprint 2 none (fun _ => 1) (now "r") (fun p => mine "r" p + mine "g" p) (mine "r") = [some 1, some (-1)] ∧
    Bf.footprint 2 none (fun p => if p = 0 then 1 else 0) (now "g") (fun p => mine "r" p + mine "g" p) (mine "g") = [some 0, none] := by
  decide +kernel

/-! ### C111 -/

/-- C111: the reward of a survey falls with its own visits and rises with those of its group. -/
theorem C111_balance (reference : ℚ) (hr : 0 < reference) (g g' s s' : ℕ) (hg : g' ≤ g) (hs : s ≤ s') :
    ∃ x y, balance reference g s = some x ∧ balance reference g' s' = some y ∧ y ≤ x ∧ 0 < y := by
  unfold balance
  rw [if_neg hr.ne', if_neg hr.ne']
  refine ⟨_, _, rfl, rfl, ?_, ?_⟩
  · have h1 : (⌊(g' : ℚ) / reference⌋ : ℤ) ≤ ⌊(g : ℚ) / reference⌋ := Int.floor_mono (by
      apply div_le_div_of_nonneg_right _ hr.le; exact_mod_cast hg)
    have h1' : ((⌊(g' : ℚ) / reference⌋ : ℤ) : ℚ) ≤ ⌊(g : ℚ) / reference⌋ := by exact_mod_cast h1
    have h0 : (0 : ℚ) ≤ (⌊(g' : ℚ) / reference⌋ : ℤ) := by
      have : (0 : ℤ) ≤ ⌊(g' : ℚ) / reference⌋ := Int.floor_nonneg.2 (by positivity)
      exact_mod_cast this
    have hden : (if 0 < s then (s : ℚ) else 1) ≤ if 0 < s' then (s' : ℚ) else 1 := by
      have hc : (s : ℚ) ≤ s' := by exact_mod_cast hs
      by_cases h : 0 < s
      · rw [if_pos h, if_pos (by omega)]; exact hc
      · rw [if_neg h]
        split
        · rename_i h'; exact_mod_cast h'
        · exact le_refl _
    have hpos : (0 : ℚ) < if 0 < s then (s : ℚ) else 1 := by
      split
      · rename_i h; exact_mod_cast h
      · norm_num
    exact div_le_div₀ (by linarith) (by linarith) hpos hden
  · have h0 : (0 : ℚ) ≤ (⌊(g' : ℚ) / reference⌋ : ℤ) := by
      have : (0 : ℤ) ≤ ⌊(g' : ℚ) / reference⌋ := Int.floor_nonneg.2 (by positivity)
      exact_mod_cast this
    apply div_pos (by linarith)
    split
    · rename_i h; exact_mod_cast h
    · norm_num

/-- C111 fails for the code: the first visit of the group gives none of its surveys a boost, nor does any before the whole reference number was taken. -/
theorem C111_boost_violated (reference : ℚ) (g s : ℕ) (hg : (g : ℚ) < reference) : balance reference g s = balance reference 0 s := by
  have hr : 0 < reference := lt_of_le_of_lt (Nat.cast_nonneg g) hg
  unfold balance
  rw [if_neg hr.ne', if_neg hr.ne']
  have : ⌊(g : ℚ) / reference⌋ = 0 := by
    rw [Int.floor_eq_iff]
    refine ⟨by simp; positivity, ?_⟩
    rw [div_lt_iff₀ hr]; simpa using hg
  rw [this]
  simp

/-- C111: the reward of a sequence is the number of visits since the last complete one. -/
theorem C111_sequence (n k j : ℕ) (hj : j < n) : Bf.sequence n (n * k + j) = some j := by
  unfold Bf.sequence
  rw [if_neg (by omega), Nat.mul_add_mod, Nat.mod_eq_of_lt hj]

/-- C111: with a reference or a sequence of 0 the reward cannot be computed. -/
theorem C111_zero (g s : ℕ) : balance 0 g s = none ∧ Bf.sequence 0 s = none := by
  constructor <;> simp [balance, Bf.sequence]

example : balance 3 7 2 = some (3 / 2) ∧ balance 3 2 0 = some 1 ∧ Bf.sequence 5 12 = some 2 := by decide +kernel

/-! ### C112 -/

/-- The pixel is up, not too low, and within a quarter turn of the sun in azimuth. -/
def NearSunLow (quarter maxAirmass : ℚ) (x : XReal × ℚ) (a : ℚ) : Prop := x.1 = .fin a ∧ 1 ≤ a ∧ a < maxAirmass ∧ -quarter < x.2 ∧ x.2 < quarter

/-- The pixels with finite airmass. -/
def finiteAir (px : List (XReal × ℚ)) : List (ℚ × ℚ) := px.filterMap (fun x => match x.1 with | .fin a => some (a, x.2) | _ => none)

theorem nearSun_fill (maxAirmass : ℚ) (penalty : Option ℚ) (g : ℚ × ℚ → Bool) : ∀ px : List (XReal × ℚ),
    nearSun.fill maxAirmass penalty px ((finiteAir px).map g) =
      px.map (fun x => match x.1 with | .fin a => if g (a, x.2) then some (a / maxAirmass) else penalty | _ => penalty) := by
  intro px
  induction px with
  | nil => rfl
  | cons x px ih =>
    obtain ⟨x, z⟩ := x
    cases x with
    | fin a =>
      have e : finiteAir ((.fin a, z) :: px) = (a, z) :: finiteAir px := rfl
      rw [e, List.map_cons, nearSun.fill, ih]; rfl
    | nan =>
      have e : finiteAir ((.nan, z) :: px) = finiteAir px := rfl
      rw [e, List.map_cons, ← ih]; cases (finiteAir px).map g <;> rfl
    | ninf =>
      have e : finiteAir ((.ninf, z) :: px) = finiteAir px := rfl
      rw [e, List.map_cons, ← ih]; cases (finiteAir px).map g <;> rfl
    | pinf =>
      have e : finiteAir ((.pinf, z) :: px) = finiteAir px := rfl
      rw [e, List.map_cons, ← ih]; cases (finiteAir px).map g <;> rfl

/-- C112: a pixel on the side of the sun and not too low gets its airmass in units of the maximum, so lower ones get more and none more than 1; all others get the penalty. Missing:
airmass or azimuth within the tolerance of the limit. -/
theorem C112_near_sun_partial (quarter maxAirmass : ℚ) (penalty : Option ℚ) (px : List (XReal × ℚ))
    (h1 : ClearOf maxAirmass ((finiteAir px).map (·.1))) (h2 : ClearOf quarter ((finiteAir px).map (fun x => |x.2|))) (p : ℕ) (x : XReal × ℚ) (hx : px[p]? = some x) :
    (∀ a, NearSunLow quarter maxAirmass x a → (nearSun quarter maxAirmass penalty px)[p]? = some (some (a / maxAirmass)) ∧ a / maxAirmass < 1) ∧
    ((∀ a, ¬ NearSunLow quarter maxAirmass x a) → (nearSun quarter maxAirmass penalty px)[p]? = some penalty) := by
  have e1 : (finiteAir px).map (fun x => (x.1, maxAirmass)) = ((finiteAir px).map (·.1)).map (fun x => (x, maxAirmass)) := by rw [List.map_map]; rfl
  have e2 : (finiteAir px).map (fun x => (|x.2|, quarter)) = ((finiteAir px).map (fun x => |x.2|)).map (fun x => (x, quarter)) := by rw [List.map_map]; rfl
  have hv : nearSun quarter maxAirmass penalty px = px.map (fun x => match x.1 with
      | .fin a => if (decide (1 ≤ a) && decide (a < maxAirmass)) && decide (|x.2| < quarter) then some (a / maxAirmass) else penalty
      | _ => penalty) := by
    rw [← nearSun_fill maxAirmass penalty (fun y => (decide (1 ≤ y.1) && decide (y.1 < maxAirmass)) && decide (|y.2| < quarter))]
    unfold nearSun
    show nearSun.fill maxAirmass penalty px (List.zipWith _ (List.zipWith _ ((finiteAir px).map _) (ltA _ ((finiteAir px).map _))) (ltA _ ((finiteAir px).map _))) = _
    rw [e1, e2, (cmp_clear _ _ h1).1, (cmp_clear _ _ h2).1, List.map_map, List.map_map, zipWith_map_same, zipWith_map_same]
    rfl
  rw [hv, List.getElem?_map, hx]
  obtain ⟨y, z⟩ := x
  refine ⟨?_, ?_⟩
  · rintro a ⟨rfl, ha, hb, hc, hd⟩
    have hz : |z| < quarter := abs_lt.2 ⟨hc, hd⟩
    refine ⟨by simp [ha, hb, hz], ?_⟩
    rw [div_lt_one (by linarith)]; exact hb
  · intro h
    cases y with
    | fin a =>
      have : ¬ (1 ≤ a ∧ a < maxAirmass ∧ |z| < quarter) := fun ⟨h1, h2, h3⟩ => h a ⟨rfl, h1, h2, (abs_lt.1 h3).1, (abs_lt.1 h3).2⟩
      simp only [Option.map_some, Bool.and_eq_true, decide_eq_true_eq]
      rw [if_neg (by tauto)]
    | nan => rfl
    | ninf => rfl
    | pinf => rfl

example : ClearOf (5 / 2) ((finiteAir [(.fin 2, 1), (.nan, 0), (.fin 2, 7), (.fin 3, 0)]).map (·.1)) ∧
    ClearOf 6 ((finiteAir [(.fin 2, 1), (.nan, 0), (.fin 2, 7), (.fin 3, 0)]).map (fun x => |x.2|)) ∧
    nearSun 6 (5 / 2) none [(.fin 2, 1), (.nan, 0), (.fin 2, 7), (.fin 3, 0)] = [some (4 / 5), none, none, none] := by
  refine ⟨?_, ?_, by decide +kernel⟩
  · right; unfold Clear; decide +kernel
  · right; unfold Clear; decide +kernel

/-- C112 fails for the code when one pixel is at the greatest airmass: the map is compared in whole airmasses and a pixel well below gets the penalty. -/
theorem C112_rounding_violated :
    nearSun 6 (5 / 2) none [(.fin (5 / 2), 1), (.fin (12 / 5), 1)] = [none, none] ∧
    nearSun 6 (5 / 2) none [(.fin 3, 1), (.fin (12 / 5), 1)] = [none, some (24 / 25)] ∧ NearSunLow 6 (5 / 2) (.fin (12 / 5), 1) (12 / 5) := by
  refine ⟨by decide +kernel, by decide +kernel, rfl, by norm_num, by norm_num, by norm_num, by norm_num⟩

end Verif
