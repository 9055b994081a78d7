import Verif.Model.Gains
import Verif.Props.Depth
import Verif.Props.SkyVisits
import Verif.Props.Fov

/-!
# Basis functions of depth, wind and planets (C156-C159)
-/

namespace Verif

open Real Depth Sph Gain Sky

/-! ### C156 -/

theorem airmassMin_eq {dec lat : ℝ} (h : |dec - lat| < π / 2) : airmassMin dec lat = some (1 / cos (dec - lat)) ∧ 1 ≤ 1 / cos (dec - lat) ∧ 0 < cos (dec - lat) := by
  have hp : 0 < cos (dec - lat) := by
    rw [abs_lt] at h
    exact cos_pos_of_mem_Ioo ⟨by linarith, by linarith⟩
  refine ⟨?_, ?_, hp⟩
  · unfold airmassMin
    dsimp only
    rw [cos_abs, if_neg]
    have := one_div_pos.2 hp
    linarith
  · rw [le_div_iff₀ hp, one_mul]
    exact cos_le_one _

theorem fwhm_pos {sys raw w z x : ℝ} (hs : 0 < sys) (hx : 1 ≤ x) : 0 < fwhmEff sys raw w z x := by
  unfold fwhmEff
  dsimp only
  have h1 : 0 < x ^ (0.6 : ℝ) := Real.rpow_pos_of_pos (by linarith) _
  have h2 : 0 < (sys * x ^ (0.6 : ℝ)) ^ 2 + 1.04 * (z * (raw / w) ^ (0.3 : ℝ) * x ^ (0.6 : ℝ)) ^ 2 := by positivity
  have := Real.sqrt_pos.2 h2
  positivity

/-- C156. Where a place on the sky rises above the horizon, no depth is ever beyond the dark sky depth there, at any time, with a seeing no better than the one assumed, a sky no darker
than the dark one, no longer an exposure than thirty seconds, and any clouds: the basis function is at most zero. It is zero at culmination in just those conditions. -/
theorem C156_best (b : Band) (hb : 0 < b.baseExptime) (hd : 0 ≤ b.dCmInfinity) (hk : 0 ≤ b.kAtm) (s : Seeing) (hs : 0 < s.sys) (hr : 0 ≤ s.raw) (hw : 0 < s.wavelen)
    (ra dec lat lst : ℝ) (hdec : IsLat dec) (hlat : IsLat lat) (hup : |dec - lat| < π / 2) (limit : ℝ) (hl : 0 ≤ limit)
    (dark sky fiducial seeing exptime : ℝ) (hsky : sky ≤ dark) (hf : 0 ≤ fiducial) (hsee : fiducial ≤ seeing) (he : 0 < exptime) (he' : exptime ≤ 30)
    (cloud : Option ℝ) (hc : ∀ c ∈ cloud, 0 ≤ c) :
    (∀ r, m5Diff (depthNow b s sky limit (altAz ra dec lat lst).1 seeing exptime) (darkM5 b s dark dec lat fiducial 30 1) cloud = some r → r ≤ 0) ∧
    (limit < (altAz ra dec lat lst).1 → ∃ r, m5Diff (depthNow b s sky limit (altAz ra dec lat lst).1 seeing exptime) (darkM5 b s dark dec lat fiducial 30 1) cloud = some r) ∧
    (lst / 12 * π = ra → limit < (altAz ra dec lat lst).1 → m5Diff (depthNow b s dark limit (altAz ra dec lat lst).1 fiducial 30) (darkM5 b s dark dec lat fiducial 30 1) none = some 0) := by
  obtain ⟨hx, hx1, hxp⟩ := airmassMin_eq hup
  obtain ⟨hhigh, hcul⟩ := C141_highest dec lat hdec hlat
  have hdark : darkM5 b s dark dec lat fiducial 30 1 = some (m5 b dark (fwhmEff s.sys s.raw s.wavelen fiducial (1 / cos (dec - lat))) 30 (1 / cos (dec - lat)) 1 0) := by
    unfold darkM5
    rw [hx]
    rfl
  have hcos : ∀ alt, cos (π / 2 - alt) = sin alt := fun alt => cos_pi_div_two_sub alt
  have hnow : ∀ sky seeing exptime, limit < (altAz ra dec lat lst).1 → depthNow b s sky limit (altAz ra dec lat lst).1 seeing exptime =
      some (m5 b sky (fwhmEff s.sys s.raw s.wavelen seeing (1 / sin (altAz ra dec lat lst).1)) exptime (1 / sin (altAz ra dec lat lst).1) 1 0) := by
    intro sky seeing exptime h
    unfold depthNow airmass
    rw [if_pos h, hcos]
    rfl
  have hmax : elevMax dec lat = π / 2 - |dec - lat| := rfl
  have hsinmax : sin (elevMax dec lat) = cos (dec - lat) := by rw [hmax, sin_pi_div_two_sub, cos_abs]
  refine ⟨?_, ?_, ?_⟩
  · intro r hr'
    by_cases h : limit < (altAz ra dec lat lst).1
    · rw [hnow _ _ _ h, hdark] at hr'
      unfold m5Diff at hr'
      dsimp only at hr'
      rw [Option.some.injEq] at hr'
      have ha0 : 0 < (altAz ra dec lat lst).1 := lt_of_le_of_lt hl h
      have hale := hhigh ra lst
      have hapi : elevMax dec lat ≤ π / 2 := by
        rw [hmax]
        have := abs_nonneg (dec - lat)
        linarith
      have hsin0 : 0 < sin (altAz ra dec lat lst).1 := sin_pos_of_pos_of_lt_pi ha0 (by linarith [pi_pos])
      have hsin : sin (altAz ra dec lat lst).1 ≤ cos (dec - lat) := by
        rw [← hsinmax]
        exact sin_le_sin_of_le_of_le_pi_div_two (by linarith [pi_pos]) hapi hale
      have hair : 1 / cos (dec - lat) ≤ 1 / sin (altAz ra dec lat lst).1 := one_div_le_one_div_of_le hsin0 hsin
      have hfw : fwhmEff s.sys s.raw s.wavelen fiducial (1 / cos (dec - lat)) ≤ fwhmEff s.sys s.raw s.wavelen seeing (1 / sin (altAz ra dec lat lst).1) :=
        fwhmEff_mono hs.le hr hw le_rfl hf hsee (by linarith) hair
      have := C88_monotone b hb hd hk hsky (fwhm_pos hs hx1) hfw he he' hair (le_refl 0) (le_refl 1) (le_refl 1)
      have hcc : 0 ≤ cloud.getD 0 := by
        cases hcl : cloud with
        | none => exact le_refl _
        | some c => exact hc c hcl
      linarith
    · unfold depthNow airmass at hr'
      rw [if_neg h] at hr'
      cases hr'
  · intro h
    rw [hnow _ _ _ h, hdark]
    exact ⟨_, rfl⟩
  · intro hra h
    rw [hnow _ _ _ h, hdark, hcul ra lst hra, hsinmax]
    unfold m5Diff
    simp

/-- C156. Where a place never rises, there is no value. -/
theorem C156_never (b : Band) (s : Seeing) (dec lat : ℝ) (hdec : IsLat dec) (hlat : IsLat lat) (h : π / 2 < |dec - lat|) (dark fiducial exptime : ℝ) (nexp : ℕ) (depth cloud : Option ℝ) :
    m5Diff depth (darkM5 b s dark dec lat fiducial exptime nexp) cloud = none := by
  have hc : cos |dec - lat| < 0 := by
    apply cos_neg_of_pi_div_two_lt_of_lt h
    have : |dec - lat| ≤ π := abs_le.2 ⟨by linarith [hdec.1, hlat.2], by linarith [hdec.2, hlat.1]⟩
    linarith [pi_pos]
  unfold darkM5 airmassMin
  dsimp only
  rw [if_pos (one_div_neg.2 hc)]
  unfold m5Diff
  cases depth <;> rfl

example : IsLat (0 : ℝ) ∧ |(0 : ℝ) - 0| < π / 2 := ⟨⟨by linarith [pi_pos], by linarith [pi_pos]⟩, by simpa using pi_pos⟩

/-! ### C157 -/

/-- C157. With the wind known, the mask covers exactly the directions whose part of the wind is beyond the limit, and elsewhere the reward falls with the square of that part; nothing is
masked while the wind is no faster than the limit, or unknown. -/
theorem C157_mask (maxSpeed speed dir az : ℝ) :
    (avoidWind maxSpeed (some speed, some dir) az = none ↔ maxSpeed < speed * cos (az - dir)) ∧
    (speed * cos (az - dir) ≤ maxSpeed → avoidWind maxSpeed (some speed, some dir) az = some (-(speed * cos (az - dir)) ^ 2)) ∧
    (0 ≤ speed → speed ≤ maxSpeed → avoidWind maxSpeed (some speed, some dir) az ≠ none) ∧
    (∀ w : Wind, w.1 = none ∨ w.2 = none → avoidWind maxSpeed w az = some 0) := by
  unfold avoidWind
  dsimp only
  refine ⟨?_, ?_, ?_, ?_⟩
  · split_ifs with h <;> simp [h]
  · intro h
    rw [if_neg (not_lt.2 h), zero_sub]
  · intro h0 h
    rw [if_neg]
    · simp
    · have := mul_le_mul_of_nonneg_left (cos_le_one (az - dir)) h0
      linarith
  · rintro ⟨w1, w2⟩ h
    rcases h with h | h
    · cases h
      rfl
    · cases h
      cases w1 <;> rfl

/-- C157. The softer form: no reward or penalty below the least speed, otherwise a penalty that is greatest into the wind, in between nothing across it, and that depends on the direction
to the wind alone. -/
theorem C157_pressure_partial (maxSpeed minSpeed speed dir az : ℝ) :
    (speed < minSpeed → windPressure maxSpeed minSpeed (some speed, some dir) az = some 0) ∧
    (minSpeed ≤ speed → windPressure maxSpeed minSpeed (some speed, some dir) az = some (-(speed * cos (az - dir)) ^ 2)) ∧
    (minSpeed ≤ speed → windPressure maxSpeed minSpeed (some speed, some dir) dir = some (-speed ^ 2)) ∧
    (minSpeed ≤ speed → windPressure maxSpeed minSpeed (some speed, some dir) (dir + π / 2) = some 0) ∧
    (∀ r, windPressure maxSpeed minSpeed (some speed, some dir) az = some r → -speed ^ 2 ≤ r ∧ r ≤ 0) := by
  unfold windPressure
  dsimp only
  refine ⟨fun h => if_pos h, fun h => by rw [if_neg (not_lt.2 h), zero_sub], fun h => by rw [if_neg (not_lt.2 h), zero_sub, sub_self, cos_zero, mul_one], ?_, ?_⟩
  · intro h
    rw [if_neg (not_lt.2 h), add_sub_cancel_left, cos_pi_div_two, mul_zero]
    simp
  · intro r h
    have hsq := sq_nonneg speed
    split_ifs at h
    · cases h
      exact ⟨by linarith, le_refl _⟩
    · cases h
      have h1 : (speed * cos (az - dir)) ^ 2 ≤ speed ^ 2 := by
        rw [mul_pow]
        have : cos (az - dir) ^ 2 ≤ 1 := cos_sq_le_one _
        nlinarith
      have h2 := sq_nonneg (speed * cos (az - dir))
      constructor <;> linarith

/-- C157 does not hold for the softer form as documented: no direction is ever masked, however much the wind exceeds the greatest speed, and the lee side has the same penalty as the side
into the wind. -/
theorem C157_unmasked_violated (maxSpeed minSpeed speed dir az : ℝ) :
    windPressure maxSpeed minSpeed (some speed, some dir) az ≠ none ∧
      windPressure maxSpeed minSpeed (some speed, some dir) (az + π) = windPressure maxSpeed minSpeed (some speed, some dir) az := by
  unfold windPressure
  dsimp only
  constructor
  · split_ifs <;> simp
  · rw [show az + π - dir = az - dir + π by ring, cos_add_pi, mul_neg, neg_sq]

/-- C157. The difference of two azimuths is at most half a turn and is one of the two ways around. -/
theorem C157_azimuth (az point : ℝ) :
    0 ≤ azRel az point ∧ azRel az point ≤ π ∧ cos (azRel az point) = cos (az - point) := by
  obtain ⟨h1, h2⟩ := fmod_range (az - point) (show (0 : ℝ) < 2 * π by linarith [pi_pos])
  have hc : cos (fmod (az - point) (2 * π)) = cos (az - point) := by
    unfold fmod
    rw [show az - point - 2 * π * ⌊(az - point) / (2 * π)⌋ = az - point - ⌊(az - point) / (2 * π)⌋ * (2 * π) by ring, cos_sub_int_mul_two_pi]
  unfold azRel
  dsimp only
  split_ifs with h
  · refine ⟨by linarith, by linarith, ?_⟩
    rw [cos_two_pi_sub, hc]
  · exact ⟨h1, not_lt.1 h, hc⟩

/-- Straight into a wind of 12 m/s with a limit of 10 the sky is masked, across the wind and to the lee it is not. -/
example : avoidWind 10 (some 12, some 0) 0 = none ∧ avoidWind 10 (some 12, some 0) (π / 2) ≠ none ∧ avoidWind 10 (some 12, some 0) π ≠ none := by
  refine ⟨(C157_mask 10 12 0 0).1.2 (by norm_num), fun h => ?_, fun h => ?_⟩
  · have := (C157_mask 10 12 0 (π / 2)).1.1 h
    norm_num at this
  · have := (C157_mask 10 12 0 π).1.1 h
    norm_num at this

example : azRel (3 * π / 2) 0 = π / 2 := by
  have h : fmod (3 * π / 2 - 0) (2 * π) = 3 * π / 2 := by
    unfold fmod
    have : ⌊(3 * π / 2 - 0) / (2 * π)⌋ = 0 := by
      rw [Int.floor_eq_zero_iff]
      have := pi_pos
      constructor
      · rw [sub_zero]
        positivity
      · rw [div_lt_one (by positivity)]
        linarith
    rw [this]
    simp
  unfold azRel
  dsimp only
  rw [h, if_pos (by linarith [pi_pos])]
  ring

/-! ### C158 -/

theorem foldl_none (l : List ℕ) (m : List (Option ℝ)) (i : ℕ) :
    (l.foldl (fun m i => m.set i none) m).length = m.length ∧ ((l.foldl (fun m i => m.set i none) m)[i]? = if i ∈ l ∧ i < m.length then some none else m[i]?) := by
  induction l generalizing m with
  | nil => simp
  | cons j l ih =>
    rw [List.foldl_cons]
    obtain ⟨h1, h2⟩ := ih (m.set j none)
    refine ⟨by rw [h1, List.length_set], ?_⟩
    rw [h2, List.length_set, List.getElem?_set]
    by_cases hij : i = j
    · subst hij
      by_cases hl : i < m.length
      · simp [hl]
      · simp [hl]
    · have : j ≠ i := fun h => hij h.symm
      simp [hij, this]

theorem planetMask_get (f : Fov.Lsst) (npix : ℕ) (planets : List (ℝ × ℝ)) (i : ℕ) (hi : i < npix) :
    (planetMask f npix planets)[i]? = if ∃ p ∈ planets, i ∈ f.one p.1 p.2 then some none else some (some 0) := by
  classical
  have key : ∀ m : List (Option ℝ), m.length = npix →
      (planets.foldl (fun m p => (f.one p.1 p.2).foldl (fun m i => m.set i none) m) m)[i]? = if ∃ p ∈ planets, i ∈ f.one p.1 p.2 then some none else m[i]? := by
    induction planets with
    | nil => simp
    | cons p ps ih =>
      intro m hm
      rw [List.foldl_cons, ih _ (by rw [(foldl_none _ m i).1, hm]), (foldl_none _ m i).2]
      by_cases h1 : ∃ p ∈ ps, i ∈ f.one p.1 p.2
      · rw [if_pos h1, if_pos]
        obtain ⟨q, hq, h⟩ := h1
        exact ⟨q, List.mem_cons_of_mem _ hq, h⟩
      · rw [if_neg h1]
        by_cases h2 : i ∈ f.one p.1 p.2
        · rw [if_pos ⟨h2, by omega⟩, if_pos ⟨p, List.mem_cons_self, h2⟩]
        · rw [if_neg (fun h => h2 h.1), if_neg]
          rintro ⟨q, hq, h⟩
          rcases List.mem_cons.1 hq with rfl | hq
          · exact h2 h
          · exact h1 ⟨q, hq, h⟩
  unfold planetMask
  rw [key _ (List.length_replicate), List.getElem?_replicate, if_pos hi]

/-- C158. Pixels are masked that are near a planet of the list, and no others, up to the size of the grid on which positions are rounded. -/
theorem C158_planets (centres : List (ℝ × ℝ)) (r s : ℝ) (f : Fov.Lsst) (h : Fov.Lsst.make centres r s = some f) (hs : 0 < s) (hr : 3 / s ≤ r) (hr' : r + 3 / s ≤ π / 3)
    (planets : List (ℝ × ℝ)) (i : ℕ) (c : ℝ × ℝ) (hi : centres[i]? = some c) :
    ((∃ p ∈ planets, sep c.1 c.2 p.1 p.2 ≤ r - 3 / s) → (planetMask f centres.length planets)[i]? = some none) ∧
      ((∀ p ∈ planets, r + 3 / s < sep c.1 c.2 p.1 p.2) → (planetMask f centres.length planets)[i]? = some (some 0)) := by
  classical
  have hlt : i < centres.length := (List.getElem?_eq_some_iff.1 hi).1
  rw [planetMask_get f _ planets i hlt]
  constructor
  · rintro ⟨p, hp, hsep⟩
    rw [if_pos ⟨p, hp, (((C142_fov centres r s f h hs hr hr' p.1 p.2).2.2 i c hi).1 hsep)⟩]
  · intro hfar
    rw [if_neg]
    rintro ⟨p, hp, hin⟩
    have := ((C142_fov centres r s f h hs hr hr' p.1 p.2).2.2 i c hi).2 hin
    have := hfar p hp
    linarith

/-- A grid of two pixels and a radius of one degree meet the hypotheses. -/
example : ∃ f, Fov.Lsst.make [(0, 0), (1, 0)] (1 * (π / 180)) 100000 = some f ∧ (3 : ℝ) / 100000 ≤ 1 * (π / 180) ∧ 1 * (π / 180) + (3 : ℝ) / 100000 ≤ π / 3 := by
  have h := Real.two_le_pi
  unfold Fov.Lsst.make Fov.buildTree
  rw [if_neg]
  · exact ⟨_, rfl, by linarith, by linarith⟩
  · rintro (⟨c, hc, hl⟩ | ⟨c, hc, hl⟩)
    all_goals
      simp only [List.mem_cons, List.not_mem_nil, or_false] at hc
      rcases hc with rfl | rfl <;> norm_num at hl <;> linarith

/-! ### C159 -/

/-- C159. North of the site, the altitude used for the dark sky at a declination is that at which it culminates. -/
theorem C159_altitude_partial (lat dec : ℝ) (h : lat ≤ dec) : targetAlt lat dec = 90 - |dec - lat| := by
  unfold targetAlt
  dsimp only
  rw [if_neg (by linarith), abs_of_nonneg (by linarith)]
  ring

/-- C159 does not hold south of the site: there the distance from the zenith is used for the altitude. -/
theorem C159_south_violated (lat dec : ℝ) (h : dec < lat) : targetAlt lat dec = |dec - lat| ∧ (lat - dec ≠ 45 → targetAlt lat dec ≠ 90 - |dec - lat|) := by
  have h1 : targetAlt lat dec = |dec - lat| := by
    unfold targetAlt
    dsimp only
    rw [if_pos (by linarith), abs_of_neg (by linarith)]
    ring
  refine ⟨h1, fun hne he => hne ?_⟩
  rw [h1, abs_of_neg (by linarith)] at he
  linarith

example : targetAlt (-30) 0 = 60 ∧ targetAlt (-30) (-40) = 10 := by
  unfold targetAlt
  norm_num

end Verif
