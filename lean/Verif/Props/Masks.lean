import Verif.Model.Masks
import Verif.Lemmas.Clear
import Verif.Props.FeaturesCount
import Verif.Props.FeasibleHistory

/-!
Property C58: azimuth, hour-angle and pattern masks keep the documented part of the sky.
Property C92: masks of visit counts. Property C93: masks with a limit.
-/

namespace Verif

open Mask Feat

theorem zipWith_map_same {α β γ δ : Type} (op : β → γ → δ) (f : α → β) (g : α → γ) (xs : List α) :
    List.zipWith op (xs.map f) (xs.map g) = xs.map (fun x => op (f x) (g x)) := by
  induction xs with
  | nil => rfl
  | cons x xs ih => simp [ih]

theorem put_map {α β : Type} (f : α → Bool) (v : β) (g : α → β) (xs : List α) :
    put (xs.map f) v (xs.map g) = xs.map (fun x => if f x then v else g x) :=
  zipWith_map_same (fun (f : Bool) (b : β) => if f then v else b) f g xs

/-- The part of a circle from `lo` up to `hi`, ends included; with `lo` larger than `hi` it goes over zero. -/
def InArc (lo hi a : ℚ) : Prop := if lo ≤ hi then lo ≤ a ∧ a ≤ hi else lo ≤ a ∨ a ≤ hi

instance (lo hi a : ℚ) : Decidable (InArc lo hi a) := by unfold InArc; infer_instance

/-- Entry `k` of a pattern of length `n` is used on every night `q * n + k`. -/
theorem byNight_eq {α : Type} (pattern : List α) (q : ℤ) (k : ℕ) (hk : k < pattern.length) (night : ℤ)
    (hn : night = q * pattern.length + k) : byNight pattern night = some pattern[k] := by
  unfold byNight
  have : night % (pattern.length : ℤ) = k := by
    rw [hn, add_comm, Int.add_mul_emod_self_right]
    exact Int.emod_eq_of_lt (by omega) (by omega)
  rw [this, Int.toNat_natCast]
  exact List.getElem?_eq_getElem hk

/-! ### C58 -/

/-- C58, azimuth: on night `q * n + k` the pixels between the limits `k` keep the value 1 and all others
get the out-of-bounds value. Missing: a range over north, with the first limit larger than the
second (`C58_azimuth_violated`); azimuths within the tolerance of a limit. -/
theorem C58_azimuth_partial (rad : ℚ) (limits : List (ℚ × ℚ)) (oob : ℚ) (q : ℤ) (k : ℕ) (hk : k < limits.length)
    (night : ℤ) (hn : night = q * limits.length + k) (az : List ℚ) (lo hi : ℚ)
    (hlim : limits[k] = (lo, hi)) (hlt : lo * rad < hi * rad)
    (h1 : ClearOf (lo * rad) az) (h2 : ClearOf (hi * rad) az) :
    azModulo rad limits oob night az =
      some (az.map (fun a => if InArc (lo * rad) (hi * rad) a then 1 else oob)) := by
  unfold azModulo
  rw [byNight_eq limits q k hk night hn, hlim, Option.map_some]
  congr 1
  unfold azOut
  rw [ite_self, (cmp_clear az _ h1).1, (cmp_clear az _ h2).2.2.1, zipWith_map_same, put_map]
  apply List.map_congr_left
  intro a _
  unfold InArc
  simp only [if_pos hlt.le]
  by_cases c1 : lo * rad ≤ a
  · by_cases c2 : a ≤ hi * rad
    · simp [c1, c2, not_lt.2 c1, not_lt.2 c2]
    · simp [c1, c2, not_le.1 c2]
  · simp [c1, not_le.1 c1]

example : azModulo 1 azDefault (-1) 4 [10, 45, 90, 139, 141] = some [-1, 1, 1, 1, -1] := by decide +kernel

/-- A range over north hides the whole sky: whatever the azimuths (clear of the limits), none is kept. -/
theorem azOut_over_north (lo hi : ℚ) (oob : ℚ) (az : List ℚ) (hlt : hi < lo) (h1 : ClearOf lo az)
    (h2 : ClearOf hi az) (night : ℤ) : azModulo 1 [(lo, hi)] oob night az = some (az.map (fun _ => oob)) := by
  unfold azModulo
  rw [byNight_eq [(lo, hi)] night 0 (by simp) night (by simp)]
  simp only [List.getElem_cons_zero, Option.map_some, mul_one]
  congr 1
  unfold azOut
  rw [ite_self, (cmp_clear az _ h1).1, (cmp_clear az _ h2).2.2.1, zipWith_map_same, put_map]
  apply List.map_congr_left
  intro a _
  rw [if_pos]
  simp only [Bool.or_eq_true, decide_eq_true_eq]
  by_contra hc
  push Not at hc
  linarith [hc.1, hc.2]

/-- The default first range, from 310 to 50 degrees, hides all of the sky, azimuth zero in its middle
included. -/
theorem C58_azimuth_violated : azModulo 1 azDefault (-1) 0 [0, 10, 90, 180, 270, 350] = some [-1, -1, -1, -1, -1, -1] ∧
    InArc 310 50 0 ∧ azDefault[0]? = some (310, 50) := by decide +kernel

example : azModulo 1 [(310, 50)] (-1) 0 [0, 10, 90, 180, 270, 350] = some [-1, -1, -1, -1, -1, -1] := by decide +kernel

/-- C58, declination bands: 1 from the lower limit (included) to the upper (not included), 0 elsewhere. -/
theorem C58_declination (rad : ℚ) (limits : List (ℚ × ℚ)) (q : ℤ) (k : ℕ) (hk : k < limits.length) (night : ℤ)
    (hn : night = q * limits.length + k) (dec : List ℚ) :
    decModulo rad limits night dec =
      some (dec.map (fun d => if limits[k].1 * rad ≤ d ∧ d < limits[k].2 * rad then 1 else 0)) := by
  unfold decModulo
  rw [byNight_eq _ q k (by simpa using hk) night (by simpa using hn), List.getElem_map]

example : decModulo 1 [(-90, -32.8), (-32.8, -12)] 3 [-40, -32.8, -12] = some [0, 1, 0] := by decide +kernel

/-- C58, maps in turn: night `q * n + k` uses map `k`. -/
theorem C58_maps (maps : List (List ℚ)) (q : ℤ) (k : ℕ) (hk : k < maps.length) (night : ℤ)
    (hn : night = q * maps.length + k) : mapModulo maps night = some maps[k] :=
  byNight_eq maps q k hk night hn

example : mapModulo [[1], [2], [3]] 5 = some [3] := by decide +kernel

/-- C58, hour angles: for sidereal time from 0 to 24 hours and right ascensions from zero to a full turn, the
map of hour angles is from zero to a full turn, and differs from sidereal time minus right ascension by
whole turns. -/
theorem C58_hour_angle_range (T lmst ra : ℚ) (hT : 0 < T) (h0 : 0 ≤ lmst) (h1 : lmst < 24) (h2 : 0 ≤ ra) (h3 : ra < T) :
    0 ≤ hourAngle T lmst ra ∧ hourAngle T lmst ra < T ∧ ∃ k : ℤ, hourAngle T lmst ra = lmst * T / 24 - ra + T * k := by
  unfold hourAngle
  have hm : lmst * T / 24 < T := by nlinarith
  have hm0 : 0 ≤ lmst * T / 24 := by positivity
  simp only
  split_ifs with h
  · exact ⟨by linarith, by linarith, 1, by push_cast; ring⟩
  · exact ⟨by linarith, by linarith, 0, by push_cast; ring⟩

example : hourAngle 360 1 300 = 75 := by decide +kernel

/-- An hour angle is accepted: from the lower limit (in hours) up to the upper. -/
def hourKept (T : ℚ) (lo hi : Option ℚ) (h : ℚ) : Bool :=
  match lo, hi with
  | none, none => true
  | some a, none => decide (a * T / 24 ≤ h)
  | none, some b => decide (h ≤ b * T / 24)
  | some a, some b => decide (InArc (a * T / 24) (b * T / 24) h)

/-- C58, hour-angle mask: with limits in order (or only one) the pixels between them, ends included, are kept
and all others are hidden. Missing: a range over zero (`C58_hour_angle_violated`). -/
theorem C58_hour_angle_partial (T : ℚ) (lo hi : Option ℚ) (hT : 0 < T) (ho : ∀ a ∈ lo, ∀ b ∈ hi, a ≤ b) (ha : List ℚ) :
    haMask T lo hi ha =
      ha.map (fun h => if hourKept T lo hi h then some 0 else none) := by
  unfold haMask
  rw [put_map, put_map]
  apply List.map_congr_left
  intro h _
  rcases lo with _ | a <;> rcases hi with _ | b <;> simp only [below, above, hourKept, decide_eq_true_eq]
  · simp
  · by_cases hc : b * T / 24 < h
    · simp [hc, not_le.2 hc]
    · simp [hc, not_lt.1 hc]
  · by_cases hc : h < a * T / 24
    · simp [hc, not_le.2 hc]
    · simp [hc, not_lt.1 hc]
  · have hle : a * T / 24 ≤ b * T / 24 := by
      have : a * T ≤ b * T := mul_le_mul_of_nonneg_right (ho a rfl b rfl) hT.le
      linarith
    unfold InArc
    simp only [if_pos hle]
    by_cases hc : h < a * T / 24
    · simp [hc, not_le.2 hc]
    · by_cases hd : b * T / 24 < h
      · simp [hc, hd, not_le.2 hd]
      · simp [hc, hd, not_lt.1 hd, not_lt.1 hc]

example : haMask 24 (some 2) (some 5) [1, 2, 4, 5, 6] = [none, some 0, some 0, some 0, none] := by decide +kernel

/-- A range over zero hides the whole sky. -/
theorem haMask_over_zero (T : ℚ) (lo hi : ℚ) (hT : 0 < T) (h : hi < lo) (ha : List ℚ) :
    haMask T (some lo) (some hi) ha = ha.map (fun _ => none) := by
  unfold haMask
  rw [put_map, put_map]
  apply List.map_congr_left
  intro x _
  simp only [below, above, decide_eq_true_eq]
  by_cases hc : hi * T / 24 < x
  · rw [if_pos hc]
  · rw [if_neg hc, if_pos]
    have : hi * T < lo * T := mul_lt_mul_of_pos_right h hT
    linarith

/-- A range from 22 to 2 hours hides the whole sky. -/
theorem C58_hour_angle_violated : haMask 24 (some 22) (some 2) [0, 1, 12, 23] = [none, none, none, none] ∧
    hourKept 24 (some 22) (some 2) 0 = true := by decide +kernel

/-- C58, the reversed mask keeps exactly the pixels the other hides. -/
theorem C58_reverse (T : ℚ) (lo hi : Option ℚ) (ha : List ℚ) (i : ℕ) :
    (revHaMask T lo hi ha)[i]? = some (some 0) ↔ (haMask T lo hi ha)[i]? = some none := by
  unfold revHaMask haMask
  rw [put_map, put_map, put_map, put_map]
  simp only [List.getElem?_map]
  cases ha[i]? with
  | none => simp
  | some h =>
    simp only [Option.map_some, Option.some.injEq]
    split_ifs <;> simp

example : revHaMask 24 (some 2) (some 5) [1, 2, 4, 5, 6] = [some 0, none, none, none, some 0] := by decide +kernel

/-- C58, rising part of the sky: hour angles from half a turn on are rewarded in proportion, all others get
the penalty. -/
theorem C58_reward_rising (T slope : ℚ) (penalty : Option ℚ) (ha : List ℚ) (i : ℕ) (hi : i < ha.length) :
    (rewardRising T slope penalty ha)[i]? = some (if T / 2 ≤ ha[i] then some (slope * ha[i]) else penalty) := by
  unfold rewardRising
  rw [List.getElem?_map, List.getElem?_eq_getElem hi, Option.map_some]
  by_cases h : ha[i] < T / 2
  · rw [if_pos h, if_neg (not_le.2 h)]
  · rw [if_neg h, if_pos (not_lt.1 h)]

example : rewardRising 24 (1 / 10) none [3, 12, 20] = [none, some (6 / 5), some 2] := by decide +kernel

/-- C58, distance in azimuth: between 0 and 1, zero exactly when the azimuths are equal up to whole turns,
and the same for both directions. -/
theorem C58_azimuth_distance (T telAz : ℚ) (hT : 0 < T) (az : List ℚ) (i : ℕ) (hi : i < az.length) :
    ∃ d, (azimuth T telAz az)[i]? = some d ∧ 0 ≤ d ∧ d ≤ 1 ∧
      (∃ k : ℤ, |az[i] - telAz + T * k| = d * (T / 2)) ∧
      ∀ k : ℤ, d * (T / 2) ≤ |az[i] - telAz + T * k| := by
  unfold azimuth
  rw [List.getElem?_map, List.getElem?_eq_getElem hi, Option.map_some]
  generalize az[i] - telAz = x
  refine ⟨_, rfl, ?_⟩
  have e1 := Int.floor_le (x / T)
  have e2 := Int.lt_floor_add_one (x / T)
  rw [le_div_iff₀ hT] at e1
  rw [div_lt_iff₀ hT] at e2
  generalize ⌊x / T⌋ = f at e1 e2
  have hT2 : 0 < T / 2 := by linarith
  simp only
  generalize hd : (if T / 2 < x - T * f then T - (x - T * f) else x - T * f) = d
  have hd0 : 0 ≤ d ∧ d ≤ T / 2 ∧ ((d = x - T * f) ∨ (d = T - (x - T * f))) := by
    rw [← hd]
    split_ifs with h
    · exact ⟨by linarith, by linarith, Or.inr rfl⟩
    · exact ⟨by linarith, by linarith, Or.inl rfl⟩
  have hdd : d / (T / 2) * (T / 2) = d := by field_simp
  obtain ⟨g0, g1, g2⟩ := hd0
  refine ⟨by positivity, by rw [div_le_one hT2]; exact g1, ?_, ?_⟩
  · rw [hdd]
    rcases g2 with g2 | g2
    · exact ⟨-f, by rw [g2, show x + T * ((-f : ℤ) : ℚ) = x - T * f by push_cast; ring, abs_of_nonneg (by linarith)]⟩
    · exact ⟨-f - 1, by
        rw [g2, show x + T * ((-f - 1 : ℤ) : ℚ) = x - T * f - T by push_cast; ring, abs_of_nonpos (by linarith)]; ring⟩
  · intro k
    rw [hdd]
    by_contra hc
    push Not at hc
    rw [abs_lt] at hc
    obtain ⟨c1, c2⟩ := hc
    rcases lt_trichotomy (k + f) 0 with hk | hk | hk
    · have hk' : k + f ≤ -1 := by omega
      have : (k : ℚ) + f ≤ -1 := by exact_mod_cast hk'
      have hm : T * ((k : ℚ) + f) ≤ T * (-1) := mul_le_mul_of_nonneg_left this hT.le
      rcases g2 with g2 | g2 <;> nlinarith
    · have hk' : (k : ℚ) + f = 0 := by exact_mod_cast hk
      have : (k : ℚ) = -f := by linarith
      rw [this] at c1 c2
      rcases g2 with g2 | g2 <;> nlinarith
    · have hk' : 1 ≤ k + f := by omega
      have : (1 : ℚ) ≤ (k : ℚ) + f := by exact_mod_cast hk'
      have hm : T * 1 ≤ T * ((k : ℚ) + f) := mul_le_mul_of_nonneg_left this hT.le
      rcases g2 with g2 | g2 <;> nlinarith

example : azimuth 360 10 [350, 10, 190] = [1 / 9, 0, 1] := by decide +kernel

/-! ### C93 -/

/-- C93, limits compared exactly: wind, seeing. The value at the limit is kept. -/
theorem C93_exact (limit : ℚ) (n : ℕ) (xs : List ℚ) (i : ℕ) (hi : i < xs.length) :
    ((directWind limit n (some xs))[i]? = some none ↔ limit < xs[i]) ∧
    ((poorSeeing limit xs)[i]? = some none ↔ limit < xs[i]) ∧
    directWind limit n none = List.replicate n (some 0) := by
  unfold directWind poorSeeing
  simp only [List.getElem?_map, List.getElem?_eq_getElem hi, Option.map_some, Option.some.injEq, and_self,
    and_true]
  split_ifs with h <;> simp [h]

example : poorSeeing 1.3 [1, 1.3, 1.4] = [some 0, some 0, none] := by decide +kernel

/-- C93, limits compared with tolerance: solar elongation (greatest, or a range) and distance from the moon. The value
at the limit is kept. Missing: values within the tolerance of a limit. -/
theorem C93_tolerant_partial (rad lo hi : ℚ) (penalty : Option ℚ) (xs : List ℚ) (h1 : ClearOf (lo * rad) xs)
    (h2 : ClearOf (hi * rad) xs) :
    solarElong rad hi xs = xs.map (fun x => if hi * rad < x then none else some 0) ∧
    solarElongation rad lo hi penalty xs =
      xs.map (fun x => if lo * rad ≤ x ∧ x ≤ hi * rad then some 1 else penalty) ∧
    moonAvoid rad lo xs = xs.map (fun x => if x < lo * rad then none else some 1) := by
  unfold solarElong solarElongation moonAvoid
  rw [(cmp_clear xs _ h1).2.2.2, (cmp_clear xs _ h1).1, (cmp_clear xs _ h2).2.1, (cmp_clear xs _ h2).2.2.1,
    zipWith_map_same, put_map, put_map, put_map]
  simp only [decide_eq_true_eq, Bool.and_eq_true, and_self]

example : solarElongation 1 40 60 none [30, 45, 61] = [none, some 1, none] ∧ moonAvoid 1 30 [20, 35] = [none, some 1] := by
  decide +kernel

/-- C93, clouds: documented as hiding pixels with clouds greater than the maximum. Missing: clouds equal to the
maximum (`C93_cloud_violated`). -/
theorem C93_cloud_partial (maxCloud : List ℚ) (oob : Option ℚ) (cloud : ℚ) (hne : ∀ m ∈ maxCloud, cloud ≠ m) :
    bulkCloud maxCloud oob cloud = maxCloud.map (fun m => if m < cloud then oob else some 1) := by
  unfold bulkCloud
  apply List.map_congr_left
  intro m hm
  by_cases h : m ≤ cloud
  · rw [if_pos h, if_pos (lt_of_le_of_ne h (hne m hm).symm)]
  · rw [if_neg h, if_neg (fun h' => h h'.le)]

example : bulkCloud [0.7, 0.5] none 0.6 = [some 1, none] := by decide +kernel

/-- Clouds equal to the maximum are hidden here, and accepted by the feasibility function with the same limit. -/
theorem C93_cloud_violated : bulkCloud [0.7] none 0.7 = [none] ∧ Feas.cloudedOut 0.7 { cond0 with bulkCloud := 0.7 } = true := by
  decide +kernel

/-! ### C92 -/

/-- C92, after `n` visits: a pixel is hidden exactly when it has had `n` visits in the band. -/
theorem C92_after (npix n : ℕ) (band : Option String) (h : List Vis) (hl : Letters band h) (p : ℕ) (hp : p < npix) :
    (afterN npix n band h)[p]? =
      some (if n ≤ h.countP (fun v => decide (InBand band v) && decide (p ∈ v.pix)) then none else some 0) := by
  unfold afterN hideFrom
  rw [List.getElem?_map, List.getElem?_range hp, Option.map_some]
  rw [C70_per_pixel_partial ⟨band, none, none, 0⟩ h hl (by simp [SeeingClear]) (by simp) p]
  simp

/-- C92, in a night: a pixel is hidden exactly when it has had `n` visits in the band this night. Missing: the
start of a night, before its first visit (`C92_night_violated`). -/
theorem C92_night_partial (npix n : ℕ) (band : Option String) (h : List Vis) (hc : Chrono h) (hl : Letters band h)
    (hf : Footprints h) (night : ℤ) (hn : ∀ l, h.getLast? = some l → l.night = night) (p : ℕ) (hp : p < npix) :
    (nInNight npix n band h)[p]? =
      some (if n ≤ h.countP (fun v => v.night == night && decide (InBand band v) && decide (p ∈ v.pix))
        then none else some 0) := by
  unfold nInNight hideFrom
  rw [List.getElem?_map, List.getElem?_range hp, Option.map_some]
  rcases hlast : h.getLast? with _ | l
  · rw [List.getLast?_eq_none_iff] at hlast
    subst hlast
    simp [NObsNight.init]
  · rw [C70_night band h l hlast hc hl hf p, hn l hlast]

/-- A visit with pixels, for the examples. -/
def visOn (night : ℤ) (band : String) (pix : List ℕ) : Vis := ⟨0, night, night, band, "", "", none, 0, 0, 0, pix⟩

example : afterN 3 2 (some "r") [visOn 1 "r" [0, 1], visOn 1 "g" [0], visOn 2 "r" [1, 2]] = [some 0, none, some 0] ∧
    nInNight 3 1 none [visOn 1 "r" [0, 1], visOn 2 "r" [1, 2]] = [some 0, none, none] := by decide +kernel

/-- On a new night the pixels seen the night before stay hidden, until any visit is made. -/
theorem C92_night_violated : ∃ h : List Vis, (∀ v ∈ h, v.night = 6) ∧ nInNight 1 1 none h = [none] :=
  ⟨[visOn 6 "r" [0]], by decide +kernel⟩

theorem zeroTimes_zero (r x : Option ℚ) (hr : r = none ∨ r = some 0) :
    (zeroTimes r x = none ∨ zeroTimes r x = some 0) ∧ (zeroTimes r x = none ↔ r = none ∨ x = none) := by
  rcases hr with rfl | rfl
  · simp [zeroTimes]
  · cases x <;> simp [zeroTimes]

/-- C92, several masks: a pixel of the product is hidden exactly when one of the masks hides it, and zero
otherwise. -/
theorem C92_product (npix : ℕ) (maps : List (List (Option ℚ))) (hm : ∀ m ∈ maps, m.length = npix) (p : ℕ) (hp : p < npix) :
    (areaValue npix maps)[p]? = some (if ∃ m ∈ maps, m[p]? = some none then none else some 0) := by
  have key : ∀ (maps : List (List (Option ℚ))), (∀ m ∈ maps, m.length = npix) → ∀ (r : List (Option ℚ)) (x : Option ℚ),
      r[p]? = some x → (x = none ∨ x = some 0) →
      (maps.foldl (fun r m => List.zipWith zeroTimes r m) r)[p]? =
        some (if x = none ∨ ∃ m ∈ maps, m[p]? = some none then none else some 0) := by
    intro maps
    induction maps with
    | nil =>
      intro _ r x hr hx
      rw [List.foldl_nil, hr]
      rcases hx with rfl | rfl <;> simp
    | cons m maps ih =>
      intro hm r x hr hx
      rw [List.foldl_cons]
      have hml := hm m List.mem_cons_self
      have hmp : m[p]? = some m[p] := List.getElem?_eq_getElem (by omega)
      have hz : (List.zipWith zeroTimes r m)[p]? = some (zeroTimes x m[p]) := by
        rw [List.getElem?_zipWith, hr, hmp]
      obtain ⟨z1, z2⟩ := zeroTimes_zero x m[p] hx
      rw [ih (fun m' h => hm m' (List.mem_cons_of_mem _ h)) _ _ hz z1]
      congr 1
      apply if_congr _ rfl rfl
      rw [z2]
      constructor
      · rintro ((h | h) | ⟨m', h1, h2⟩)
        · exact Or.inl h
        · exact Or.inr ⟨m, List.mem_cons_self, by rw [hmp, h]⟩
        · exact Or.inr ⟨m', List.mem_cons_of_mem _ h1, h2⟩
      · rintro (h | ⟨m', h1, h2⟩)
        · exact Or.inl (Or.inl h)
        · rcases List.mem_cons.1 h1 with rfl | h1
          · rw [hmp] at h2
            exact Or.inl (Or.inr (Option.some.inj h2))
          · exact Or.inr ⟨m', h1, h2⟩
  have := key maps hm (List.replicate npix (some 0)) (some 0) (by simp [hp]) (Or.inr rfl)
  unfold areaValue
  rw [this]
  simp

theorem areaValue_length (npix : ℕ) (maps : List (List (Option ℚ))) (hm : ∀ m ∈ maps, m.length = npix) :
    (areaValue npix maps).length = npix := by
  have key : ∀ (maps : List (List (Option ℚ))), (∀ m ∈ maps, m.length = npix) → ∀ r : List (Option ℚ), r.length = npix →
      (maps.foldl (fun r m => List.zipWith zeroTimes r m) r).length = npix := by
    intro maps
    induction maps with
    | nil => intro _ r hr; exact hr
    | cons m maps ih =>
      intro hm r hr
      rw [List.foldl_cons]
      apply ih (fun m' h => hm m' (List.mem_cons_of_mem _ h))
      rw [List.length_zipWith, hr, hm m List.mem_cons_self, Nat.min_self]
  exact key maps hm _ (by simp)

/-- C92, area check: feasible exactly when each member is feasible and the pixels hidden by none of the masks cover
at least the minimum area. -/
theorem C92_area (npix : ℕ) (pixArea minArea : ℚ) (members : List (Bool × List (Option ℚ)))
    (hm : ∀ m ∈ members, m.2.length = npix) :
    areaFeasible npix pixArea minArea members = true ↔
      (∀ m ∈ members, m.1 = true) ∧
      minArea ≤ pixArea * (((List.range npix).countP (fun p => decide (∀ m ∈ members, m.2[p]? ≠ some none)) : ℕ) : ℚ) := by
  unfold areaFeasible
  have hm' : ∀ m ∈ members.map (·.2), m.length = npix := by
    intro m h
    obtain ⟨m', h1, rfl⟩ := List.mem_map.1 h
    exact hm m' h1
  have hcount : (areaValue npix (members.map (·.2))).countP (fun x => x == some 0) =
      (List.range npix).countP (fun p => decide (∀ m ∈ members, m.2[p]? ≠ some none)) := by
    have hl : areaValue npix (members.map (·.2)) =
        (List.range npix).map (fun p => if ∃ m ∈ members, m.2[p]? = some none then none else some 0) := by
      apply List.ext_getElem?
      intro p
      by_cases hp : p < npix
      · rw [C92_product npix _ hm' p hp, List.getElem?_map, List.getElem?_range hp, Option.map_some]
        congr 1
        apply if_congr _ rfl rfl
        constructor
        · rintro ⟨m, h1, h2⟩
          obtain ⟨m', h3, rfl⟩ := List.mem_map.1 h1
          exact ⟨m', h3, h2⟩
        · rintro ⟨m, h1, h2⟩
          exact ⟨m.2, List.mem_map.2 ⟨m, h1, rfl⟩, h2⟩
      · rw [List.getElem?_eq_none (by rw [areaValue_length npix _ hm']; omega), List.getElem?_eq_none (by simp; omega)]
    rw [hl, List.countP_map]
    apply List.countP_congr
    intro p _
    simp only [Function.comp, beq_iff_eq, decide_eq_true_eq]
    split_ifs with h
    · simp only [false_iff]
      push Not
      exact h
    · simp only [true_iff]
      push Not at h
      exact h
  rw [hcount]
  by_cases ha : members.all (·.1) = true
  · rw [if_pos ha]
    rw [List.all_eq_true] at ha
    simp only [Bool.not_eq_true', decide_eq_false_iff_not, not_lt]
    exact ⟨fun h => ⟨ha, h⟩, fun h => h.2⟩
  · rw [if_neg ha]
    rw [List.all_eq_true] at ha
    simp only [Bool.false_eq_true, false_iff, not_and]
    exact fun h => absurd h ha

example : areaFeasible 3 10 20 [(true, [none, some 0, some 1]), (true, [some 1, some 1, some 1])] = true ∧
    areaFeasible 3 10 20 [(true, [none, some 0, some 1]), (true, [some 1, none, some 1])] = false := by decide +kernel

/-- A mask of counts that is a member of an area check is not told of visits, and never hides a pixel. -/
theorem C92_member_violated (h : List Vis) (npix : ℕ) :
    areaAfter (NObsNight.one none) [NObsNight.init] h = [NObsNight.init] ∧
    hideFrom npix 1 NObsNight.init.count = List.replicate npix (some 0) := by
  refine ⟨rfl, ?_⟩
  unfold hideFrom NObsNight.init
  apply List.ext_getElem (by simp)
  intro i _ _
  simp

end Verif
