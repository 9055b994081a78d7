import Verif.Lemmas.Sphere
import Mathlib.Tactic.FieldSimp

/-! C117: horizontal coordinates; C118: back and forth; C119: sidereal time; C120: parallactic angle. -/

namespace Verif

open Sph Real

/-- C117: the altitude and azimuth answered are those at which the direction is seen, for any place
but the poles and any target not in the zenith or nadir. Altitudes are between -90 and 90 degrees, azimuths from 0 to a turn (less, but
for a target at the celestial pole). -/
theorem C117_seen (ra dec lat lst : ℝ) (hd : IsLat dec) (hlat : -(π / 2) < lat ∧ lat < π / 2)
    (hz : |dot (xyz ra dec) (upV lat (lst / 12 * π))| < 1) :
    SeenAt lat (lst / 12 * π) (xyz ra dec) (altAz ra dec lat lst).1 (altAz ra dec lat lst).2 ∧
    IsLat (altAz ra dec lat lst).1 ∧ 0 ≤ (altAz ra dec lat lst).2 ∧ (altAz ra dec lat lst).2 ≤ 2 * π ∧
    (0 < cos dec → (altAz ra dec lat lst).2 < 2 * π) := by
  set t := lst / 12 * π with ht
  have hcl : 0 < cos lat := Real.cos_pos_of_mem_Ioo ⟨hlat.1, hlat.2⟩
  have hcd := hd.cos_nonneg
  have hN := dot_north ra dec lat t
  have hE := dot_east ra dec t
  have hS := dot_up ra dec lat t
  have hfr := frame_dot lat t (xyz ra dec) (xyz ra dec)
  rw [xyz_unit] at hfr
  set S := dot (xyz ra dec) (upV lat t) with hSd
  set N := dot (xyz ra dec) (northV lat t) with hNd
  set E := dot (xyz ra dec) (eastV t) with hEd
  have hS1 := (abs_lt.1 hz).1
  have hS2 := (abs_lt.1 hz).2
  have hsa : sin (arcsin S) = S := Real.sin_arcsin hS1.le hS2.le
  have hpos : 0 < 1 - S ^ 2 := by nlinarith
  have hca : cos (arcsin S) = √(1 - S ^ 2) := Real.cos_arcsin S
  set c := √(1 - S ^ 2) with hc
  have hc0 : 0 < c := Real.sqrt_pos.2 hpos
  have hc2 : c ^ 2 = 1 - S ^ 2 := Real.sq_sqrt hpos.le
  have hNE : N ^ 2 + E ^ 2 = c ^ 2 := by rw [hc2]; linarith
  have halt : (altAz ra dec lat lst).1 = arcsin S := by
    unfold altAz
    dsimp only
    rw [← ht, ← hS, clip_of hS1.le hS2.le]
  have hcosaz : (sin dec - S * sin lat) / (c * cos lat) = N / c := by
    have : sin dec - S * sin lat = cos lat * N := by
      rw [hN, hS]
      have h1 : sin lat ^ 2 = 1 - cos lat ^ 2 := by linarith [Real.cos_sq_add_sin_sq lat]
      linear_combination (-sin dec) * h1
    rw [this, mul_comm c, mul_div_mul_left _ _ hcl.ne']
  have hq : (N / c) ^ 2 + (E / c) ^ 2 = 1 := by
    rw [div_pow, div_pow, ← add_div, hNE, div_self (by positivity)]
  have hq1 : -1 ≤ N / c := by nlinarith [sq_nonneg (E / c)]
  have hq2 : N / c ≤ 1 := by nlinarith [sq_nonneg (E / c)]
  have haz : (altAz ra dec lat lst).2 = if 0 < sin (t - ra) then 2 * π - arccos (N / c) else arccos (N / c) := by
    unfold altAz
    dsimp only
    rw [← ht, ← hS, clip_of hS1.le hS2.le, hsa, hca, hcosaz, clip_of hq1 hq2]
  have hsin : sin (arccos (N / c)) = |E| / c := by
    rw [Real.sin_arccos]
    have : 1 - (N / c) ^ 2 = (|E| / c) ^ 2 := by rw [div_pow |E|, sq_abs, ← div_pow]; linarith
    rw [this, Real.sqrt_sq (by positivity)]
  have hcos : cos (arccos (N / c)) = N / c := Real.cos_arccos hq1 hq2
  have hcc : ∀ u : ℝ, c * (u / c) = u := fun u => by rw [mul_div_assoc', mul_comm, mul_div_assoc, div_self hc0.ne', mul_one]
  rw [halt, haz]
  refine ⟨⟨hsa.symm, ?_, ?_⟩, isLat_arcsin S, ?_, ?_, ?_⟩
  · rw [hca]
    have : cos (if 0 < sin (t - ra) then 2 * π - arccos (N / c) else arccos (N / c)) = N / c := by
      split
      · rw [Real.cos_two_pi_sub, hcos]
      · exact hcos
    rw [this, hcc]
  · rw [hca]
    split
    · rename_i h
      have e : |E| = -E := abs_of_nonpos (by rw [hE]; linarith [mul_nonneg hcd h.le])
      rw [Real.sin_two_pi_sub, hsin, e, mul_neg, hcc, neg_neg]
    · rename_i h
      have e : |E| = E := abs_of_nonneg (by rw [hE]; nlinarith)
      rw [hsin, e, hcc]
  · split
    · linarith [Real.arccos_le_pi (N / c), Real.pi_pos]
    · exact Real.arccos_nonneg _
  · split
    · linarith [Real.arccos_nonneg (N / c)]
    · linarith [Real.arccos_le_pi (N / c), Real.pi_pos]
  · intro hcd'
    split
    · rename_i h
      have hne : 0 < arccos (N / c) := by
        rw [Real.arccos_pos]
        rcases lt_or_eq_of_le hq2 with h' | h'
        · exact h'
        · exfalso
          have hE0 : E = 0 := by
            have : (E / c) ^ 2 = 0 := by rw [h'] at hq; linarith
            have := pow_eq_zero_iff (two_ne_zero) |>.1 this
            rcases div_eq_zero_iff.1 this with h'' | h''
            · exact h''
            · exact absurd h'' hc0.ne'
          rw [hE] at hE0
          have := mul_pos hcd' h
          linarith
      linarith
    · linarith [Real.arccos_le_pi (N / c), Real.pi_pos]

/-- A direction is seen at one altitude and, but for the zenith and nadir, one azimuth. -/
theorem seen_unique {lat t alt az alt' az' : ℝ} {v : Vec} (h : SeenAt lat t v alt az) (h' : SeenAt lat t v alt' az')
    (ha : IsLat alt) (ha' : IsLat alt') : alt = alt' ∧ (0 < cos alt → SameTurn az az') := by
  have e : alt = alt' := ha.eq_of_sin ha' (h.1.symm.trans h'.1)
  subst e
  refine ⟨rfl, fun hc => sameTurn_of ?_ ?_⟩
  · exact mul_left_cancel₀ hc.ne' (h.2.1.symm.trans h'.2.1)
  · exact mul_left_cancel₀ hc.ne' (h.2.2.symm.trans h'.2.2)

/-- A direction has one declination and, but for the poles, one right ascension. -/
theorem xyz_unique {r d r' d' : ℝ} (h : xyz r d = xyz r' d') (hd : IsLat d) (hd' : IsLat d') :
    d = d' ∧ (0 < cos d → SameTurn r r') := by
  unfold xyz at h
  injection h with h1 h2 h3
  have e : d = d' := hd.eq_of_sin hd' h3
  subst e
  exact ⟨rfl, fun hc => sameTurn_of (mul_right_cancel₀ hc.ne' h1) (mul_right_cancel₀ hc.ne' h2)⟩

/-- Only one direction is seen at a given altitude and azimuth. -/
theorem seen_inj {lat t alt az : ℝ} {v w : Vec} (h : SeenAt lat t v alt az) (h' : SeenAt lat t w alt az) : v = w := by
  have hx : ∀ u : Vec, dot v u = dot w u := by
    intro u
    rw [← frame_dot lat t v u, ← frame_dot lat t w u, h.1, h.2.1, h.2.2, h'.1, h'.2.1, h'.2.2]
  have h1 := hx ⟨1, 0, 0⟩
  have h2 := hx ⟨0, 1, 0⟩
  have h3 := hx ⟨0, 0, 1⟩
  unfold dot at h1 h2 h3
  cases v; cases w
  simp at h1 h2 h3
  simp [h1, h2, h3]

theorem wrapRa_same (r : ℝ) : SameTurn (wrapRa r) r := by
  unfold wrapRa
  dsimp only
  split <;> split
  · exact ⟨0, by push_cast; ring⟩
  · exact ⟨1, by push_cast; ring⟩
  · exact ⟨-1, by push_cast; ring⟩
  · exact ⟨0, by push_cast; ring⟩

/-- C118: the right ascension and declination answered for a horizontal position are those of the direction seen there. -/
theorem C118_direction (alt az lat lst : ℝ) (ha : IsLat alt) :
    SeenAt lat (lst / 12 * π) (xyz (fromAltAz alt az lat lst).1 (fromAltAz alt az lat lst).2) alt az ∧
    IsLat (fromAltAz alt az lat lst).2 := by
  set t := lst / 12 * π with ht
  set S := sin lat * sin alt + cos lat * cos alt * cos az with hS
  set A := -cos az * sin lat * cos alt + sin alt * cos lat with hA
  set B := -sin az * cos alt with hB
  have l := Real.cos_sq_add_sin_sq lat
  have a := Real.cos_sq_add_sin_sq alt
  have z := Real.cos_sq_add_sin_sq az
  have hone : A ^ 2 + B ^ 2 = 1 - S ^ 2 := by
    rw [hS, hA, hB]
    linear_combination (sin alt ^ 2 + cos alt ^ 2 * cos az ^ 2) * l + a + cos alt ^ 2 * z
  have hS1 : -1 ≤ S := by nlinarith [sq_nonneg A, sq_nonneg B]
  have hS2 : S ≤ 1 := by nlinarith [sq_nonneg A, sq_nonneg B]
  have hdec : (fromAltAz alt az lat lst).2 = arcsin S := by
    unfold fromAltAz
    dsimp only
    rw [clip_of hS1 hS2]
  have hra : (fromAltAz alt az lat lst).1 = wrapRa (t - atan2 B A) := rfl
  rw [hdec, hra]
  refine ⟨?_, isLat_arcsin S⟩
  have hsd : sin (arcsin S) = S := Real.sin_arcsin hS1 hS2
  have hcd : cos (arcsin S) = √(A ^ 2 + B ^ 2) := by rw [Real.cos_arcsin, hone]
  obtain ⟨k, hk⟩ := wrapRa_same (t - atan2 B A)
  have hha : SameTurn (t - wrapRa (t - atan2 B A)) (atan2 B A) := ⟨-k, by rw [hk]; push_cast; ring⟩
  have e1 : cos (arcsin S) * cos (t - wrapRa (t - atan2 B A)) = A := by rw [hha.cos, hcd, atan2_cos]
  have e2 : cos (arcsin S) * sin (t - wrapRa (t - atan2 B A)) = B := by rw [hha.sin, hcd, atan2_sin]
  refine ⟨?_, ?_, ?_⟩
  · rw [dot_up, hsd]
    have : cos (arcsin S) * cos lat * cos (t - wrapRa (t - atan2 B A)) = cos lat * A := by linear_combination cos lat * e1
    rw [this, hS, hA]
    linear_combination sin alt * l
  · rw [dot_north, hsd]
    have : cos (arcsin S) * sin lat * cos (t - wrapRa (t - atan2 B A)) = sin lat * A := by linear_combination sin lat * e1
    rw [this, hS, hA]
    linear_combination (cos alt * cos az) * l
  · rw [dot_east, e2, hB]
    ring

/-- C118, range of the right ascension, for sidereal times of 0 to 36 hours. -/
theorem C118_range (alt az lat lst : ℝ) (h0 : 0 ≤ lst) (h1 : lst < 36) :
    0 ≤ (fromAltAz alt az lat lst).1 ∧ (fromAltAz alt az lat lst).1 ≤ 2 * π := by
  have hra : (fromAltAz alt az lat lst).1 = wrapRa (lst / 12 * π - hourAngle alt az lat) := rfl
  rw [hra]
  have hh : -π < hourAngle alt az lat ∧ hourAngle alt az lat ≤ π := atan2_range _ _
  have p := Real.pi_pos
  have b0 : 0 ≤ lst / 12 * π := by positivity
  have b1 : lst / 12 * π < 3 * π := by nlinarith
  unfold wrapRa
  dsimp only
  split <;> split <;> constructor <;> linarith [hh.1, hh.2]

/-- C118: from right ascension and declination to altitude and azimuth and back. -/
theorem C118_there_and_back (ra dec lat lst : ℝ) (hd : IsLat dec) (hlat : -(π / 2) < lat ∧ lat < π / 2)
    (hz : |dot (xyz ra dec) (upV lat (lst / 12 * π))| < 1) :
    let p := altAz ra dec lat lst
    (fromAltAz p.1 p.2 lat lst).2 = dec ∧ (0 < cos dec → SameTurn (fromAltAz p.1 p.2 lat lst).1 ra) := by
  intro p
  obtain ⟨h1, h2, _⟩ := C117_seen ra dec lat lst hd hlat hz
  obtain ⟨g1, g2⟩ := C118_direction p.1 p.2 lat lst h2
  obtain ⟨e1, e2⟩ := xyz_unique (seen_inj g1 h1) g2 hd
  exact ⟨e1, fun hc => e2 (by rw [e1]; exact hc)⟩

/-- C118: from altitude and azimuth to right ascension and declination and back. -/
theorem C118_back_and_there (alt az lat lst : ℝ) (ha : IsLat alt) (hc : 0 < cos alt) (hlat : -(π / 2) < lat ∧ lat < π / 2) :
    let p := fromAltAz alt az lat lst
    (altAz p.1 p.2 lat lst).1 = alt ∧ SameTurn (altAz p.1 p.2 lat lst).2 az := by
  intro p
  obtain ⟨g1, g2⟩ := C118_direction alt az lat lst ha
  have hz : |dot (xyz p.1 p.2) (upV lat (lst / 12 * π))| < 1 := by
    rw [g1.1, abs_lt]
    have := Real.cos_sq_add_sin_sq alt
    constructor <;> nlinarith
  obtain ⟨h1, h2, _⟩ := C117_seen p.1 p.2 lat lst g2 hlat hz
  obtain ⟨e1, e2⟩ := seen_unique h1 g1 h2 ha
  exact ⟨e1, e2 (by rw [e1]; exact hc)⟩

/-- The hypotheses hold for a target on the celestial equator seen from the equator an hour after it passed the meridian. -/
example : IsLat 0 ∧ (-(π / 2) < (0 : ℝ) ∧ (0 : ℝ) < π / 2) ∧ |dot (xyz 0 0) (upV 0 ((1 : ℝ) / 12 * π))| < 1 ∧ 0 < cos (0 : ℝ) := by
  have p := Real.pi_pos
  refine ⟨⟨by linarith, by linarith⟩, ⟨by linarith, by linarith⟩, ?_, by simp⟩
  rw [dot_up]
  simp only [Real.sin_zero, Real.cos_zero, mul_one, one_mul, zero_mul, zero_add, sub_zero]
  rw [abs_lt]
  have h0 : 0 < cos (1 / 12 * π) := Real.cos_pos_of_mem_Ioo ⟨by linarith, by linarith⟩
  refine ⟨by linarith, ?_⟩
  calc cos (1 / 12 * π) < cos 0 := Real.cos_lt_cos_of_nonneg_of_le_pi (le_refl _) (by linarith) (by linarith)
    _ = 1 := Real.cos_zero

/-! ### Sidereal time -/

theorem fmod_range (x : ℝ) {m : ℝ} (hm : 0 < m) : 0 ≤ fmod x m ∧ fmod x m < m := by
  unfold fmod
  have h1 := Int.floor_le (x / m)
  have h2 := Int.lt_floor_add_one (x / m)
  rw [le_div_iff₀ hm] at h1
  rw [div_lt_iff₀ hm] at h2
  constructor <;> nlinarith

/-- C119: the local sidereal time is the one of Greenwich and the longitude at 15 degrees an hour, up to days. -/
theorem C119_lmst (mjd lon : ℝ) : ∃ k : ℤ, lmst mjd lon = gmst mjd + lon / (2 * π) * 24 + k * 24 := by
  have p := Real.pi_pos
  have e : lon * (180 / π) / 15 = lon / (2 * π) * 24 := by field_simp; ring
  unfold lmst fmod
  dsimp only
  rw [e]
  split
  · exact ⟨-⌊gmst mjd / 24⌋ + 1, by push_cast; ring⟩
  · exact ⟨-⌊gmst mjd / 24⌋, by push_cast; ring⟩

/-- C119, in part: it is between 0 and 24 hours for western longitudes. Missing: eastern ones, see below. -/
theorem C119_range_partial (mjd lon : ℝ) (h0 : -(2 * π) ≤ lon) (h1 : lon ≤ 0) : 0 ≤ lmst mjd lon ∧ lmst mjd lon < 24 := by
  have p := Real.pi_pos
  have e : lon * (180 / π) / 15 = lon / (2 * π) * 24 := by field_simp; ring
  have g := fmod_range (gmst mjd) (show (0 : ℝ) < 24 by norm_num)
  have l0 : -1 ≤ lon / (2 * π) := by rw [le_div_iff₀ (by linarith)]; linarith
  have l1 : lon / (2 * π) ≤ 0 := div_nonpos_of_nonpos_of_nonneg h1 (by linarith)
  unfold lmst
  dsimp only
  rw [e]
  split <;> constructor <;> linarith [g.1, g.2]

/-- C119: for any longitude within half a turn it is from 0 to less than 36 hours. -/
theorem C119_range_any (mjd lon : ℝ) (h0 : -π ≤ lon) (h1 : lon ≤ π) : 0 ≤ lmst mjd lon ∧ lmst mjd lon < 36 := by
  have p := Real.pi_pos
  have e : lon * (180 / π) / 15 = lon / (2 * π) * 24 := by field_simp; ring
  have g := fmod_range (gmst mjd) (show (0 : ℝ) < 24 by norm_num)
  have l0 : -(1 / 2) ≤ lon / (2 * π) := by rw [le_div_iff₀ (by linarith)]; linarith
  have l1 : lon / (2 * π) ≤ 1 / 2 := by rw [div_le_iff₀ (by linarith)]; linarith
  unfold lmst
  dsimp only
  rw [e]
  split <;> constructor <;> linarith [g.1, g.2]

/-- C119 is violated east of Greenwich: sidereal times over 24 hours occur. -/
theorem C119_east_violated : ∃ mjd lon : ℝ, 0 < lon ∧ lon ≤ π ∧ 24 ≤ lmst mjd lon := by
  have p := Real.pi_pos
  refine ⟨515445 / 10 + (23 - 1869711679816973 / 100000000000000) / (24065709854011313 / 1000000000000000), π / 2, by linarith, by linarith, ?_⟩
  have hg : gmst (515445 / 10 + (23 - 1869711679816973 / 100000000000000) / (24065709854011313 / 1000000000000000)) = 23 := by
    unfold gmst
    norm_num
  have e : π / 2 * (180 / π) / 15 = 6 := by field_simp; norm_num
  unfold lmst fmod
  dsimp only
  rw [hg, e]
  have : ⌊(23 : ℝ) / 24⌋ = 0 := by
    rw [Int.floor_eq_zero_iff]
    constructor <;> norm_num
  rw [this]
  norm_num

/-- C119: a sidereal day, 24 hours over the rate, later, the sidereal time is the same. -/
theorem C119_day (mjd lon : ℝ) : lmst (mjd + 24 / (24065709854011313 / 1000000000000000)) lon = lmst mjd lon := by
  have hg : gmst (mjd + 24 / (24065709854011313 / 1000000000000000)) = gmst mjd + 24 := by
    unfold gmst
    ring
  have hf : fmod (gmst mjd + 24) 24 = fmod (gmst mjd) 24 := by
    unfold fmod
    rw [add_div, div_self (by norm_num), Int.floor_add_one]
    push_cast
    ring
  unfold lmst
  rw [hg, hf]

/-- C119: at noon of 1 January 2000 the sidereal time at Greenwich is 18.697 hours (18h 41m 50.5s). -/
theorem C119_epoch : |lmst 51544.5 0 - (18 + 41 / 60 + 50.5 / 3600)| < 1 / 3600 := by
  have hg : gmst 51544.5 = 1869711679816973 / 100000000000000 := by unfold gmst; norm_num
  have hf : ⌊(1869711679816973 / 100000000000000 : ℝ) / 24⌋ = 0 := by rw [Int.floor_eq_iff]; norm_num
  have h : lmst 51544.5 0 = 1869711679816973 / 100000000000000 := by
    unfold lmst fmod
    dsimp only
    rw [hg, hf]
    norm_num
  rw [h]
  norm_num [abs_lt]

/-! ### Parallactic angle -/

/-- The directions north and east on the sky at a target. -/
noncomputable def northAt (ra dec : ℝ) : Vec := ⟨-sin dec * cos ra, -sin dec * sin ra, cos dec⟩
noncomputable def eastAt (ra : ℝ) : Vec := ⟨-sin ra, cos ra, 0⟩

theorem fmod_same (a : ℝ) : SameTurn (fmod a (2 * π)) a := ⟨-⌊a / (2 * π)⌋, by unfold fmod; push_cast; ring⟩

/-- The numbers of which the parallactic angle is the argument. -/
theorem pa_parts {ra dec lat t alt az : ℝ} (h : SeenAt lat t (xyz ra dec) alt az) :
    cos alt * (sin (-az) * cos lat) = cos dec * dot (upV lat t) (eastAt ra) ∧
    cos alt * (cos alt * sin lat - sin alt * cos lat * cos (-az)) = cos dec * dot (upV lat t) (northAt ra dec) := by
  have hu : dot (upV lat t) (eastAt ra) = cos lat * sin (t - ra) := by
    unfold dot upV eastAt; rw [Real.sin_sub]; ring
  have hn : dot (upV lat t) (northAt ra dec) = sin lat * cos dec - cos lat * sin dec * cos (t - ra) := by
    unfold dot upV northAt; rw [Real.cos_sub]; ring
  obtain ⟨h1, h2, h3⟩ := h
  rw [dot_up] at h1
  rw [dot_north] at h2
  rw [dot_east] at h3
  rw [hu, hn, Real.sin_neg, Real.cos_neg]
  constructor
  · linear_combination cos lat * h3
  · have l := Real.cos_sq_add_sin_sq lat
    have a := Real.cos_sq_add_sin_sq alt
    have d := Real.cos_sq_add_sin_sq dec
    have : cos alt * (cos alt * sin lat - sin alt * cos lat * cos az) = sin lat * (1 - sin alt ^ 2) - sin alt * cos lat * (cos alt * cos az) := by
      linear_combination sin lat * a
    rw [this, ← h2, ← h1]
    linear_combination (sin dec ^ 2 * sin lat + cos dec * sin dec * cos lat * cos (t - ra)) * (-l) - sin lat * d

/-- C120: the parallactic angle of a target seen at an altitude and azimuth is the angle, from north through east on the sky,
at which the zenith lies from the target; it is from 0 to less than a turn. (Not for targets at a celestial pole, where there is no north.) -/
theorem C120_zenith {ra dec lat t alt az : ℝ} (h : SeenAt lat t (xyz ra dec) alt az) (hd : 0 < cos dec) :
    dot (upV lat t) (northAt ra dec) = cos alt * cos (paOf alt az lat) ∧
    dot (upV lat t) (eastAt ra) = cos alt * sin (paOf alt az lat) ∧ 0 ≤ paOf alt az lat ∧ paOf alt az lat < 2 * π := by
  obtain ⟨p1, p2⟩ := pa_parts h
  obtain ⟨h1, h2, h3⟩ := h
  set y := sin (-az) * cos lat with hy
  set x := cos alt * sin lat - sin alt * cos lat * cos (-az) with hx
  have hpa : paOf alt az lat = fmod (atan2 y x) (2 * π) := rfl
  have hc : cos (paOf alt az lat) = cos (atan2 y x) := by rw [hpa]; exact (fmod_same _).cos
  have hs : sin (paOf alt az lat) = sin (atan2 y x) := by rw [hpa]; exact (fmod_same _).sin
  have hxy : x ^ 2 + y ^ 2 = cos dec ^ 2 := by
    rw [dot_up] at h1
    rw [dot_north] at h2
    have l := Real.cos_sq_add_sin_sq lat
    have a := Real.cos_sq_add_sin_sq alt
    have z := Real.cos_sq_add_sin_sq az
    have d := Real.cos_sq_add_sin_sq dec
    have hsd : sin dec = sin lat * sin alt + cos lat * (cos alt * cos az) := by
      rw [← h1, ← h2]
      linear_combination (-sin dec) * l
    have : cos dec ^ 2 = 1 - (sin lat * sin alt + cos lat * (cos alt * cos az)) ^ 2 := by rw [← hsd]; linarith
    rw [this, hx, hy, Real.sin_neg, Real.cos_neg]
    linear_combination (sin lat ^ 2 + cos lat ^ 2 * cos az ^ 2) * a + cos lat ^ 2 * z + l
  have hr : √(x ^ 2 + y ^ 2) = cos dec := by rw [hxy, Real.sqrt_sq hd.le]
  have q1 := atan2_cos y x
  have q2 := atan2_sin y x
  rw [hr] at q1 q2
  refine ⟨?_, ?_, ?_, ?_⟩
  · apply mul_left_cancel₀ hd.ne'
    rw [hc]
    linear_combination -p2 - cos alt * q1
  · apply mul_left_cancel₀ hd.ne'
    rw [hs]
    linear_combination -p1 - cos alt * q2
  · rw [hpa]; exact (fmod_range _ (by linarith [Real.pi_pos])).1
  · rw [hpa]; exact (fmod_range _ (by linarith [Real.pi_pos])).2

/-- C120: it agrees with the formula from the hour angle. -/
theorem C120_formulas {ra dec lat t alt az : ℝ} (h : SeenAt lat t (xyz ra dec) alt az) (hd : 0 < cos dec) (ha : 0 < cos alt)
    (hl : 0 < cos lat) : SameTurn (paOf alt az lat) (paFromHa (t - ra) dec lat) := by
  obtain ⟨p1, p2⟩ := pa_parts h
  refine (fmod_same _).trans ?_
  unfold paFromHa
  have hu : dot (upV lat t) (eastAt ra) = cos lat * sin (t - ra) := by
    unfold dot upV eastAt; rw [Real.sin_sub]; ring
  have hn : dot (upV lat t) (northAt ra dec) = cos lat * (cos dec * tan lat - sin dec * cos (t - ra)) := by
    rw [Real.tan_eq_sin_div_cos]
    have : cos lat * (cos dec * (sin lat / cos lat) - sin dec * cos (t - ra)) = sin lat * cos dec - cos lat * sin dec * cos (t - ra) := by
      field_simp
    rw [this]
    unfold dot upV northAt; rw [Real.cos_sub]; ring
  rw [← atan2_scale ha, p1, p2, hu, hn, atan2_scale hd, atan2_scale hl]
  exact ⟨0, by push_cast; ring⟩

end Verif
