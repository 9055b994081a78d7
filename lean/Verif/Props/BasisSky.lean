import Verif.Props.Basis
import Verif.Lemmas.CoreFill
import Mathlib.Tactic.FieldSimp
import Mathlib.Tactic.Ring
import Mathlib.Algebra.Order.Group.MinMax
import Mathlib.Tactic.LinearCombination
import Mathlib.Tactic.Linarith
import Mathlib.Algebra.BigOperators.Group.List.Basic

/-!
C103 (limited to pixels), C105 (repeat visits), C106 (cadence windows), C107 (band rewards), C108 (slew times).
-/

namespace Verif

open Feat Bf

/-! ### C103, limited to some pixels -/

theorem mapM_look (sky : List XReal) : ∀ hpid : List ℕ, (∀ p ∈ hpid, p < sky.length) →
    hpid.mapM (fun p => sky[p]?) = some (hpid.map (fun p => sky.getD p .nan)) := by
  intro hpid
  induction hpid with
  | nil => intro _; rfl
  | cons p ps ih =>
    intro h
    rw [List.mapM_cons, ih (fun q hq => h q (by simp [hq])), List.getElem?_eq_getElem (h p (by simp))]
    simp [List.getD_eq_getElem?_getD, List.getElem?_eq_getElem (h p (by simp))]

/-- C103, a function limited to some pixels: its values are those of the whole sky there, and it is feasible exactly when one of the
pixels has a value other than `nan` and `-inf`. -/
theorem C103_limited (hpid : List ℕ) (sky : List XReal) (hne : hpid ≠ []) (hlt : ∀ p ∈ hpid, p < sky.length) :
    ∃ ok, limited hpid sky = some (hpid.map (fun p => sky.getD p .nan), ok) ∧
      (ok = true ↔ ∃ p ∈ hpid, sky.getD p .nan ≠ .nan ∧ sky.getD p .nan ≠ .ninf) := by
  unfold limited
  rw [mapM_look sky hpid hlt, Option.bind_some]
  rcases hm : XReal.nanmax (hpid.map (fun p => sky.getD p .nan)) with _ | m
  · exact absurd (List.map_eq_nil_iff.1 (XReal.nanmax_none hm)) hne
  · refine ⟨XReal.ltB .ninf m, rfl, ?_⟩
    rcases XReal.nanmax_max hm with ⟨rfl, h⟩ | ⟨h0, h1, h2⟩
    · simp only [XReal.ltB, Bool.false_eq_true, false_iff]
      rintro ⟨p, hp, h3, _⟩
      exact h3 (h _ (List.mem_map.2 ⟨p, hp, rfl⟩))
    · obtain ⟨q, hq, rfl⟩ := List.mem_map.1 h1
      constructor
      · intro hlt
        refine ⟨q, hq, h0, fun he => ?_⟩
        rw [he] at hlt
        simp [XReal.ltB] at hlt
      · rintro ⟨p, hp, h3, h4⟩
        rcases h2 _ (List.mem_map.2 ⟨p, hp, rfl⟩) with h5 | h5
        · exact absurd h5 h3
        · generalize sky.getD q .nan = y at h0 h5 ⊢
          generalize sky.getD p .nan = x at h3 h4 h5
          cases x <;> cases y <;> simp_all [XReal.leB, XReal.ltB]

/-- C103 does not hold for no pixels: this raises. -/
theorem C103_no_pixels (sky : List XReal) : limited [] sky = none := rfl

example : limited [2, 0] [.nan, .fin 3, .ninf] = some ([.ninf, .nan], false) ∧ limited [2, 1] [.nan, .fin 3, .ninf] = some ([.ninf, .fin 3], true) := by
  decide +kernel

/-! ### C105 -/

/-- The time since the last visit, 0 where there was none. -/
def lagOr0 (b : Option String) (h : List Vis) (t : ℚ) (p : ℕ) : ℚ := ((h.foldl (LastObserved.one b) (fun _ => none) p).map (t - ·)).getD 0

/-- The pixel's latest visit in the band. -/
def LatestHit (b : Option String) (p : ℕ) (h : List Vis) (v : Vis) : Prop := v ∈ h ∧ Hits b p v ∧ ∀ u ∈ h, Hits b p u → u.mjd ≤ v.mjd

/-- C105: a pixel is rewarded with 1 exactly when its latest visit is as long ago as the gap asks for and it does not have its pairs yet;
else it gets 0. Missing: times since a visit equal to an end of the gap up to the tolerance
(`C105_rounding_violated`), band names of several letters. -/
theorem C105_repeat_partial (npix npairs : ℕ) (lo hi : ℚ) (b : Option String) (h : List Vis) (pairs : ℕ → ℕ) (t : ℚ) (hc : Chrono h) (hl : Letters b h)
    (h1 : ClearOf (minutes lo) ((List.range npix).map (lagOr0 b h t))) (h2 : ClearOf (minutes hi) ((List.range npix).map (lagOr0 b h t)))
    (p : ℕ) (hp : p < npix) :
    ∃ x, (visitRepeat npix npairs lo hi (h.foldl (LastObserved.one b) (fun _ => none)) pairs t)[p]? = some x ∧ (x = 0 ∨ x = 1) ∧
      (x = 1 ↔ pairs p < npairs ∧ ∃ v, LatestHit b p h v ∧ minutes lo ≤ t - v.mjd ∧ t - v.mjd ≤ minutes hi) := by
  have e : ∀ g : ℚ, (List.range npix).map (fun p => (((h.foldl (LastObserved.one b) (fun _ => none) p).map (t - ·)).getD 0, g)) =
      ((List.range npix).map (lagOr0 b h t)).map (fun x => (x, g)) := by
    intro g; rw [List.map_map]; rfl
  have hval : (visitRepeat npix npairs lo hi (h.foldl (LastObserved.one b) (fun _ => none)) pairs t)[p]? =
      some (if ((decide (minutes lo ≤ lagOr0 b h t p) && decide (lagOr0 b h t p ≤ minutes hi)) &&
        (decide (pairs p < npairs) && (h.foldl (LastObserved.one b) (fun _ => none) p).isSome)) = true then 1 else 0) := by
    unfold visitRepeat repeatFlags
    rw [e, e, (cmp_clear _ _ h1).2.2.2, (cmp_clear _ _ h2).2.1, List.map_map, List.map_map, zipWith_map_same, zipWith_map_same, put_map,
      List.getElem?_map, List.getElem?_range hp]
    rfl
  have hs := lastObserved_spec b p h hc hl
  refine ⟨_, hval, ?_, ?_⟩
  · split <;> simp
  · have hx : ∀ P : Prop, [Decidable P] → ((if P then (1 : ℚ) else 0) = 1 ↔ P) := by intro P _; split <;> simp_all
    rw [hx]
    rcases ho : h.foldl (LastObserved.one b) (fun _ => none) p with _ | l
    · simp only [Option.isSome_none, Bool.and_false, Bool.false_eq_true, false_iff]
      rintro ⟨_, v, ⟨hv, hh, _⟩, _⟩
      exact hs.1.1 ho v hv hh
    · obtain ⟨⟨v, hv, hh, rfl⟩, hmax⟩ := hs.2 l ho
      have hlag : lagOr0 b h t p = t - v.mjd := by unfold lagOr0; rw [ho]; rfl
      simp only [hlag, Option.isSome_some, Bool.and_true, Bool.and_eq_true, decide_eq_true_eq]
      constructor
      · rintro ⟨⟨ha, hb⟩, hc⟩
        exact ⟨hc, v, ⟨hv, hh, hmax⟩, ha, hb⟩
      · rintro ⟨hn, w, ⟨hw, hwh, hwm⟩, ha, hb⟩
        have : w.mjd = v.mjd := le_antisymm (hmax w hw hwh) (hwm v hv hh)
        rw [this] at ha hb
        exact ⟨⟨ha, hb⟩, hn⟩

/-- C105 fails for the code when one pixel is at the end of the gap: then all the pixels visited less than half a day ago are
rewarded, here one visited nine seconds ago. -/
theorem C105_rounding_violated :
    let h := [vis 1 (100 - 25 / 1440) 1 "r" "a" [0], vis 2 (100 - 9 / 86400) 1 "r" "a" [1]]
    visitRepeat 2 1 25 45 (h.foldl (LastObserved.one (some "r")) (fun _ => none)) (fun _ => 0) 100 = [1, 1] ∧
    visitRepeat 2 1 24 45 (h.foldl (LastObserved.one (some "r")) (fun _ => none)) (fun _ => 0) 100 = [1, 0] := by
  decide +kernel

example : let h := [vis 1 (100 - 30 / 1440) 1 "r" "a" [0], vis 2 (100 - 9 / 86400) 1 "r" "a" [1]]
    Chrono h ∧ ClearOf (minutes 25) ((List.range 3).map (lagOr0 (some "r") h 100)) ∧ ClearOf (minutes 45) ((List.range 3).map (lagOr0 (some "r") h 100)) ∧
    visitRepeat 3 1 25 45 (h.foldl (LastObserved.one (some "r")) (fun _ => none)) (fun _ => 0) 100 = [1, 0, 0] := by
  refine ⟨?_, ?_, ?_, by decide +kernel⟩
  · unfold Chrono; decide +kernel
  · right; unfold Clear; decide +kernel
  · right; unfold Clear; decide +kernel

/-! ### C106 -/

theorem lags_some (last : ℕ → Option ℚ) (t : ℚ) : ∀ area : List ℕ, (∀ p ∈ area, (last p).isSome) →
    lags last t area = some (area.map (fun p => t - (last p).getD 0)) := by
  intro area
  induction area with
  | nil => intro _; rfl
  | cons p ps ih =>
    intro h
    obtain ⟨l, hl⟩ := Option.isSome_iff_exists.1 (h p (by simp))
    simp only [lags, hl, ih (fun q hq => h q (by simp [hq])), List.map_cons, Option.getD_some]

theorem lags_none (last : ℕ → Option ℚ) (t : ℚ) : ∀ area : List ℕ, (∃ p ∈ area, last p = none) → lags last t area = none := by
  intro area
  induction area with
  | nil => rintro ⟨p, hp, _⟩; cases hp
  | cons q ps ih =>
    rintro ⟨p, hp, h⟩
    rcases List.mem_cons.1 hp with rfl | hp
    · simp [lags, h]
    · rw [lags, ih ⟨p, hp, h⟩]
      cases last q <;> rfl

theorem find_zip (p : ℕ) (g : ℕ → ℚ) : ∀ area : List ℕ,
    ((area.zip (area.map g)).find? (fun x => x.1 == p)).map (·.2) = if p ∈ area then some (g p) else none := by
  intro area
  induction area with
  | nil => rfl
  | cons q ps ih =>
    rw [List.map_cons, List.zip_cons_cons, List.find?_cons]
    by_cases h : q = p
    · subst h; simp
    · have : (q == p) = false := by simpa using h
      simp only [this]
      rw [ih]
      have : p ≠ q := fun e => h e.symm
      simp [this]

/-- C106: with an area all visited before, a pixel of it gets the enhanced value within the one window, else the suppressed one within the other, else
0; pixels out of the area get 0. Missing: areas with pixels not visited yet (`C106_unvisited_violated`), times within the tolerance of an end
of a window. -/
theorem C106_windows_partial (npix : ℕ) (area : List ℕ) (sup enh : ℚ × ℚ) (sVal eVal : ℚ) (last : ℕ → Option ℚ) (t : ℚ) (hne : area ≠ [])
    (hv : ∀ p ∈ area, (last p).isSome) (hs : sup.1 ≤ sup.2) (he : enh.1 ≤ enh.2)
    (hclear : ∀ g ∈ [sup.1, sup.2, enh.1, enh.2], ClearOf g (area.map (fun p => t - (last p).getD 0))) :
    ∃ m, cadence npix area sup sVal enh eVal last t = some (.inr m) ∧ m.length = npix ∧
      ∀ p, p < npix →
        (p ∉ area → m[p]? = some 0) ∧
        ∀ l, p ∈ area → last p = some l →
          (enh.1 < t - l ∧ t - l < enh.2 → m[p]? = some eVal) ∧
          (¬ (enh.1 < t - l ∧ t - l < enh.2) → sup.1 < t - l ∧ t - l < sup.2 → m[p]? = some sVal) ∧
          (¬ (enh.1 < t - l ∧ t - l < enh.2) → ¬ (sup.1 < t - l ∧ t - l < sup.2) → m[p]? = some 0) := by
  have hwin : ∀ w : ℚ × ℚ, w.1 ≤ w.2 → ClearOf w.1 (area.map (fun p => t - (last p).getD 0)) → ClearOf w.2 (area.map (fun p => t - (last p).getD 0)) →
      inWin w (area.map (fun p => t - (last p).getD 0)) =
        area.map (fun p => decide (w.1 < t - (last p).getD 0) && decide (t - (last p).getD 0 < w.2)) := by
    intro w hw h1 h2
    unfold inWin sorted
    rw [min_eq_left hw, max_eq_right hw]
    dsimp only
    rw [(cmp_clear _ _ h1).2.2.1, (cmp_clear _ _ h2).1, List.map_map, List.map_map, zipWith_map_same]
    rfl
  unfold cadence
  rw [if_neg hne, lags_some last t area hv, Option.map_some]
  refine ⟨_, rfl, by simp [spread], ?_⟩
  rw [hwin sup hs (hclear _ (by simp)) (hclear _ (by simp)), hwin enh he (hclear _ (by simp)) (hclear _ (by simp)), List.map_map, put_map, put_map]
  intro p hp
  have hget : ∀ g : ℕ → ℚ, (spread npix area (area.map g))[p]? = some (if p ∈ area then g p else 0) := by
    intro g
    unfold spread
    rw [List.getElem?_map, List.getElem?_range hp, Option.map_some, find_zip]
    by_cases h : p ∈ area <;> simp [h]
  rw [hget]
  refine ⟨fun h => by rw [if_neg h], ?_⟩
  intro l ha hl
  rw [if_pos ha, hl]
  simp only [Option.getD_some, Bool.and_eq_true, decide_eq_true_eq, Function.comp]
  refine ⟨fun h => by rw [if_pos h], fun h h' => by rw [if_neg h, if_pos h'], fun h h' => by rw [if_neg h, if_neg h']⟩

/-- C106 fails for the code as long as one pixel of the area has not been visited: the reward cannot be computed. -/
theorem C106_unvisited_violated (npix : ℕ) (area : List ℕ) (sup enh : ℚ × ℚ) (sVal eVal : ℚ) (last : ℕ → Option ℚ) (t : ℚ)
    (h : ∃ p ∈ area, last p = none) : cadence npix area sup sVal enh eVal last t = none := by
  unfold cadence
  have hne : area ≠ [] := by rintro rfl; obtain ⟨p, hp, _⟩ := h; cases hp
  rw [if_neg hne, lags_none last t area h]
  rfl

example : cadence 3 [0, 2] (0, 9 / 5) (-1 / 2) (21 / 10, 16 / 5) 1 (fun p => if p = 1 then none else if p = 0 then some 99 else some (195 / 2)) 100 =
      some (.inr [-1 / 2, 0, 1]) ∧
    (∀ g ∈ [(0 : ℚ), 9 / 5, 21 / 10, 16 / 5], ClearOf g ([0, 2].map (fun p => 100 - ((if p = 1 then none else if p = 0 then some 99 else some (195 / 2) : Option ℚ)).getD 0))) := by
  refine ⟨by decide +kernel, ?_⟩
  intro g hg
  simp only [List.mem_cons, List.not_mem_nil, or_false] at hg
  rcases hg with rfl | rfl | rfl | rfl
  · left; rfl
  all_goals (right; unfold Clear; decide +kernel)

/-- C106: the trapezoid is full within its width of the centre, falls with its slope on both sides, and is 0 beyond. -/
theorem C106_trapezoid (amp x0 width slope x : ℚ) (ha : 0 ≤ amp) (hw : 0 ≤ width) (hs : 0 < slope) :
    trapezoid amp x0 width slope x = max 0 (min amp (amp - slope * (|x - x0| - width / 2))) := by
  have e : slope * (amp / slope) = amp := by field_simp
  have hq : 0 ≤ amp / slope := div_nonneg ha hs.le
  unfold trapezoid
  dsimp only
  split
  · rename_i h
    have hx : 0 ≤ x - x0 := by linarith [h.1]
    rw [abs_of_nonneg hx, min_eq_right, max_eq_right]
    · linear_combination e
    · have := mul_pos hs (sub_pos.2 h.2); nlinarith
    · have := mul_nonneg hs.le (sub_nonneg.2 h.1); nlinarith
  · split
    · rename_i h1 h
      have hx : |x - x0| ≤ width / 2 := abs_le.2 ⟨by linarith [h.1], by linarith [h.2]⟩
      rw [min_eq_left, max_eq_right ha]
      have := mul_nonneg hs.le (sub_nonneg.2 hx); nlinarith
    · split
      · rename_i h1 h2 h
        have hx : x - x0 ≤ 0 := by linarith [h.2]
        rw [abs_of_nonpos hx, min_eq_right, max_eq_right]
        · linear_combination e
        · have := mul_nonneg hs.le (sub_nonneg.2 h.1); nlinarith
        · have := mul_pos hs (sub_pos.2 h.2); nlinarith
      · rename_i h1 h2 h3
        have hx : width / 2 + amp / slope ≤ |x - x0| := by
          by_cases hx3 : x0 + width / 2 ≤ x
          · have : x0 + width / 2 + amp / slope ≤ x := by
              by_contra hh; exact h1 ⟨hx3, not_le.1 hh⟩
            exact le_trans (by linarith) (le_abs_self _)
          · have h4 : x < x0 - width / 2 := by
              by_contra hh; exact h2 ⟨not_lt.1 hh, not_le.1 hx3⟩
            have : x < x0 - width / 2 - amp / slope := by
              by_contra hh; exact h3 ⟨not_lt.1 hh, h4⟩
            exact le_trans (by linarith) (neg_le_abs _)
        rw [max_eq_left]
        apply le_trans (min_le_right _ _)
        have := mul_le_mul_of_nonneg_left hx hs.le
        nlinarith

/-- C106: the smooth reward does not jump. -/
theorem C106_smooth (amp x0 width slope x y : ℚ) (ha : 0 ≤ amp) (hw : 0 ≤ width) (hs : 0 < slope) :
    |trapezoid amp x0 width slope x - trapezoid amp x0 width slope y| ≤ slope * |x - y| := by
  rw [C106_trapezoid _ _ _ _ _ ha hw hs, C106_trapezoid _ _ _ _ _ ha hw hs]
  rw [max_comm 0, max_comm 0]
  refine le_trans (abs_max_sub_max_le_abs _ _ _) ?_
  refine le_trans (abs_min_sub_min_le_max _ _ _ _) ?_
  rw [sub_self, abs_zero, max_eq_right (abs_nonneg _)]
  have : amp - slope * (|x - x0| - width / 2) - (amp - slope * (|y - x0| - width / 2)) = slope * (|y - x0| - |x - x0|) := by ring
  rw [this, abs_mul, abs_of_pos hs]
  apply mul_le_mul_of_nonneg_left _ hs.le
  refine le_trans (abs_abs_sub_abs_le_abs_sub _ _) ?_
  rw [show y - x0 - (x - x0) = -(x - y) by ring, abs_neg]

/-- C106: the smooth reward is the one trapezoid less the other; it stays between less the one amplitude and the other. -/
theorem C106_enhanced (dAmp dPeak dWidth dSlope eAmp ePeak eWidth eSlope x : ℚ) (hd : 0 ≤ dAmp) (hdw : 0 ≤ dWidth) (hds : 0 < dSlope) (he : 0 ≤ eAmp)
    (hew : 0 ≤ eWidth) (hes : 0 < eSlope) :
    supEnh dAmp dPeak dWidth dSlope eAmp ePeak eWidth eSlope x =
      max 0 (min eAmp (eAmp - eSlope * (|x - ePeak| - eWidth / 2))) - max 0 (min dAmp (dAmp - dSlope * (|x - dPeak| - dWidth / 2))) ∧
    -dAmp ≤ supEnh dAmp dPeak dWidth dSlope eAmp ePeak eWidth eSlope x ∧ supEnh dAmp dPeak dWidth dSlope eAmp ePeak eWidth eSlope x ≤ eAmp := by
  have e : supEnh dAmp dPeak dWidth dSlope eAmp ePeak eWidth eSlope x =
      max 0 (min eAmp (eAmp - eSlope * (|x - ePeak| - eWidth / 2))) - max 0 (min dAmp (dAmp - dSlope * (|x - dPeak| - dWidth / 2))) := by
    unfold supEnh
    rw [C106_trapezoid _ _ _ _ _ hd hdw hds, C106_trapezoid _ _ _ _ _ he hew hes]
    ring
  refine ⟨e, ?_, ?_⟩ <;> rw [e]
  · have h1 := le_max_left 0 (min eAmp (eAmp - eSlope * (|x - ePeak| - eWidth / 2)))
    have h2 : max 0 (min dAmp (dAmp - dSlope * (|x - dPeak| - dWidth / 2))) ≤ dAmp := max_le hd (min_le_left _ _)
    linarith
  · have h1 := le_max_left 0 (min dAmp (dAmp - dSlope * (|x - dPeak| - dWidth / 2)))
    have h2 : max 0 (min eAmp (eAmp - eSlope * (|x - ePeak| - eWidth / 2))) ≤ eAmp := max_le he (min_le_left _ _)
    linarith

/-- With the numbers the class has without a choice: right after a visit the reward is less the amplitude of the delay, four days later the other amplitude. -/
example : supEnh (1 / 2) 0 2 2 1 4 3 2 0 = -(1 / 2) ∧ supEnh (1 / 2) 0 2 2 1 4 3 2 4 = 1 := by
  decide +kernel

example : trapezoid 1 4 3 2 4 = 1 ∧ trapezoid 1 4 3 2 (57 / 10) = 3 / 5 ∧ trapezoid 1 4 3 2 (9 / 4) = 1 / 2 ∧ trapezoid 1 4 3 2 7 = 0 := by
  decide +kernel

/-! ### C107 -/

/-- One is below the level and the other above. -/
def Crossed (level a b : ℚ) : Prop := (a < level ∧ level < b) ∨ (b < level ∧ level < a)

/-- The reasons for which a change of band is free: the band is in use or none is, the moon rose or set, twilight began or ended, or enough time went
by since the last visit. -/
def FreeNow (band : String) (lag twi : ℚ) (l : Last) (c : BandCond) : Prop :=
  c.current = some band ∨ c.current = none ∨ Crossed 0 c.moonAlt l.moonAlt ∨ Crossed twi c.sunAlt l.sunAlt ∨ minutes lag < c.mjd - l.mjd

theorem mul_neg_crossed (level a b : ℚ) : (a - level) * (b - level) < 0 ↔ Crossed level a b := by
  rw [mul_neg_iff]
  unfold Crossed
  simp only [sub_pos, sub_neg]
  tauto

/-- C107: the reward is 1 exactly when the band is mounted and a change to it is free now or the last visit's note has the free
text, else 0. Missing: the note of a visit that was added by itself (`C107_note_violated`; what holds then is
`C107_strict_alone_partial`), a time equal to the limit up to the tolerance. -/
theorem C107_strict_partial (band free : String) (lag twi : ℚ) (l : Last) (c : BandCond) (hb : l.alone = false)
    (hclear : ClearOf (minutes lag) [c.mjd - l.mjd]) :
    (strictBand band lag twi free l c = 0 ∨ strictBand band lag twi free l c = 1) ∧
    (strictBand band lag twi free l c = 1 ↔ band ∈ c.mounted ∧ (FreeNow band lag twi l c ∨ isIn free l.note = true)) := by
  have hgt : gtS Tol.default (c.mjd - l.mjd) (minutes lag) = decide (minutes lag < c.mjd - l.mjd) := by
    unfold gtS
    have := (cmp_clear _ _ hclear).2.2.1
    simp only [List.map_cons, List.map_nil] at this
    rw [this]
    by_cases h : minutes lag < c.mjd - l.mjd <;> simp [h]
  have hx : ∀ P : Prop, [Decidable P] → ((if P then (1 : ℚ) else 0) = 1 ↔ P) := by intro P _; split <;> simp_all
  unfold strictBand
  refine ⟨by split <;> simp, ?_⟩
  rw [hx]
  unfold freeChange wasFree
  rw [hgt, hb]
  have h0 := mul_neg_crossed 0 c.moonAlt l.moonAlt
  simp only [sub_zero] at h0
  simp only [Bool.and_eq_true, Bool.or_eq_true, decide_eq_true_eq, beq_iff_eq, Option.isNone_iff_eq_none, List.contains_iff_mem, h0, mul_neg_crossed,
    Bool.false_eq_true, if_false]
  unfold FreeNow
  tauto

/-- C107 after a visit added by itself: the free text counts only when it is the whole note. -/
theorem C107_strict_alone_partial (band free : String) (lag twi : ℚ) (l : Last) (c : BandCond) (hb : l.alone = true)
    (hclear : ClearOf (minutes lag) [c.mjd - l.mjd]) :
    strictBand band lag twi free l c = 1 ↔ band ∈ c.mounted ∧ (FreeNow band lag twi l c ∨ l.note = free) := by
  have hgt : gtS Tol.default (c.mjd - l.mjd) (minutes lag) = decide (minutes lag < c.mjd - l.mjd) := by
    unfold gtS
    have := (cmp_clear _ _ hclear).2.2.1
    simp only [List.map_cons, List.map_nil] at this
    rw [this]
    by_cases h : minutes lag < c.mjd - l.mjd <;> simp [h]
  have hx : ∀ P : Prop, [Decidable P] → ((if P then (1 : ℚ) else 0) = 1 ↔ P) := by intro P _; split <;> simp_all
  unfold strictBand
  rw [hx]
  unfold freeChange wasFree
  rw [hgt, hb]
  have h0 := mul_neg_crossed 0 c.moonAlt l.moonAlt
  simp only [sub_zero] at h0
  simp only [Bool.and_eq_true, Bool.or_eq_true, decide_eq_true_eq, beq_iff_eq, Option.isNone_iff_eq_none, List.contains_iff_mem, h0, mul_neg_crossed, if_true]
  unfold FreeNow
  tauto

/-- C107 fails for the code: after a deep-drilling visit the change is free only when the visit came with a batch. -/
theorem C107_note_violated :
    let c : BandCond := ⟨100, 1, -1, some "r", ["g", "r"]⟩
    strictBand "g" 10 (-1 / 3) "DD" ⟨100 - 1 / 1440, 1, -1, "DD:COSMOS", true⟩ c = 0 ∧
    strictBand "g" 10 (-1 / 3) "DD" ⟨100 - 1 / 1440, 1, -1, "DD:COSMOS", false⟩ c = 1 := by
  decide +kernel

example : ClearOf (minutes 10) [100 - (100 - 1 / 1440)] := by right; unfold Clear; decide +kernel

/-- C107: staying in the band in use, or no band in use, is rewarded with 1, else 0. -/
theorem C107_change (band : String) (current : Option String) :
    (bandChange band current = 1 ↔ current = some band ∨ current = none) ∧ (bandChange band current = 0 ↔ current ≠ some band ∧ current ≠ none) := by
  unfold bandChange
  cases current with
  | none => simp
  | some x => by_cases h : x = band <;> simp [h]

theorem nObsCount_plain (c : NObsCount.Cfg) (hn : c.perNight = false) : ∀ (h : List Vis) (s : NObsCount),
    (h.foldl (NObsCount.one c) s).count = s.count + h.countP (fun v => NObsCount.bandOne c v && NObsCount.noteOk c v) := by
  intro h
  induction h with
  | nil => intro s; rfl
  | cons v h ih =>
    intro s
    rw [List.foldl_cons, ih, List.countP_cons]
    unfold NObsCount.one
    simp only [hn, Bool.false_and, Bool.false_eq_true, if_false]
    by_cases hw : (NObsCount.bandOne c v && NObsCount.noteOk c v) = true
    · simp only [hw, if_true]; omega
    · simp only [hw]; simp

/-- C107, the share of a band: all visits over one more than those in the band. Missing: band names of several letters. -/
theorem C107_share_partial (band : String) (h : List Vis) (hl : Letters (some band) h) :
    bandDist band h = (h.length : ℚ) / ((h.countP (fun v => v.band == band) : ℚ) + 1) := by
  unfold bandDist
  rw [nObsCount_plain _ rfl, nObsCount_plain _ rfl]
  have e1 : h.countP (fun v => NObsCount.bandOne ⟨none, none, false⟩ v && NObsCount.noteOk ⟨none, none, false⟩ v) = h.length := by
    rw [List.countP_eq_length]; intro v _; rfl
  have e2 : h.countP (fun v => NObsCount.bandOne ⟨none, some band, false⟩ v && NObsCount.noteOk ⟨none, some band, false⟩ v) = h.countP (fun v => v.band == band) := by
    apply List.countP_congr
    intro v hv
    simp only [NObsCount.bandOne, NObsCount.noteOk, Bool.and_true]
    rw [isIn_letters (hl.2 v hv) (hl.1 band rfl)]
  rw [e1, e2]
  simp [NObsCount.init]

/-- C107: of two bands, the one with fewer visits is rewarded more. -/
theorem C107_share_order_partial (a b : String) (h : List Vis) (ha : Letters (some a) h) (hb : Letters (some b) h)
    (hlt : h.countP (fun v => v.band == a) < h.countP (fun v => v.band == b)) : bandDist b h < bandDist a h := by
  rw [C107_share_partial a h ha, C107_share_partial b h hb]
  have hpos : (0 : ℚ) < h.length := by
    have : h.countP (fun v => v.band == b) ≤ h.length := List.countP_le_length
    exact_mod_cast lt_of_lt_of_le (Nat.zero_lt_of_lt hlt) this
  apply div_lt_div_of_pos_left hpos
  · positivity
  · have : ((h.countP (fun v => v.band == a) : ℕ) : ℚ) < (h.countP (fun v => v.band == b) : ℕ) := by exact_mod_cast hlt
    linarith

example : bandDist "g" [vis 1 10 1 "r" "a" [], vis 2 10 1 "r" "a" [], vis 3 10 1 "g" "a" []] = 3 / 2 ∧
    bandDist "r" [vis 1 10 1 "r" "a" [], vis 2 10 1 "r" "a" [], vis 3 10 1 "g" "a" []] = 1 := by decide +kernel

/-! ### C108 -/

/-- C108: a pixel is masked exactly when it cannot be reached; else it costs its slew time in units of the maximum, and nothing when the band would
have to be changed. -/
theorem C108_slew (maxTime : ℚ) (band current : Option String) (l : List XReal) :
    ∃ m, slewtime maxTime band current (.map l) = .map m ∧ m.length = l.length ∧ ∀ (p : ℕ) (x : XReal), l[p]? = some x →
      (m[p]? = some .nan ↔ ∀ q, x ≠ .fin q) ∧
      ∀ q, x = .fin q → (band = none ∨ current = band → m[p]? = some (.fin (-q / maxTime))) ∧ (band ≠ none → current ≠ band → m[p]? = some (.fin 0)) := by
  unfold slewtime
  by_cases hb : current ≠ band ∧ band.isSome = true
  · rw [if_pos hb]
    refine ⟨_, rfl, by simp, ?_⟩
    intro p x hx
    rw [List.getElem?_map, hx]
    refine ⟨by cases x <;> simp [XReal.isFinite], ?_⟩
    rintro q rfl
    refine ⟨?_, fun _ _ => by simp [XReal.isFinite]⟩
    rintro (h | h)
    · rw [h] at hb; simp at hb
    · exact absurd h hb.1
  · rw [if_neg hb]
    refine ⟨_, rfl, by simp, ?_⟩
    intro p x hx
    rw [List.getElem?_map, hx]
    refine ⟨by cases x <;> simp [XReal.isFinite, minusOver, XReal.smul], ?_⟩
    rintro q rfl
    refine ⟨fun _ => ?_, ?_⟩
    · simp only [XReal.isFinite, minusOver, XReal.smul, Option.map_some, if_true]
      congr 2
      ring
    · intro h1 h2
      exact absurd ⟨h2, by cases band <;> simp_all⟩ hb

/-- C108: of two slews, the shorter is rewarded more, and no slew up to the maximum costs more than 1. -/
theorem C108_order (maxTime a b : ℚ) (hm : 0 < maxTime) : (a < b ↔ -b / maxTime < -a / maxTime) ∧ (0 ≤ a → a ≤ maxTime → -1 ≤ -a / maxTime ∧ -a / maxTime ≤ 0) := by
  refine ⟨?_, fun h1 h2 => ⟨?_, ?_⟩⟩
  · rw [div_lt_div_iff_of_pos_right hm]; constructor <;> intro h <;> linarith
  · rw [le_div_iff₀ hm]; linarith
  · exact div_nonpos_of_nonpos_of_nonneg (by linarith) hm.le

example : slewtime 100 (some "r") (some "r") (.map [.fin 50, .nan, .pinf]) = .map [.fin (-1 / 2), .nan, .nan] ∧
    slewtime 100 (some "r") (some "g") (.map [.fin 50, .nan, .pinf]) = .map [.fin 0, .nan, .nan] := by
  constructor <;> decide +kernel

end Verif
