import Verif.Model.Spots
import Verif.Props.AltAz

/-!
# Samples on the sphere, rising and setting, rotation matrices (C166-C168)
-/

namespace Verif

open Real Sph Spot

/-! ### C166 -/

/-- C166. A sample of the patch is made where the patch stays off the poles; its declination is within the patch, its right ascension is up to full turns and not negative; and, the area of a
band of the sphere going by the sine of the declination, the part of all random numbers that give samples north of a declination is the part of the patch that lies north of it. -/
theorem C166_patch_partial (phi theta delta u v : ℝ) (hphi : 0 ≤ phi) (hd : 0 < delta) (hlo : -(π / 2) ≤ theta - delta) (hhi : theta + delta ≤ π / 2)
    (hu : 0 ≤ u) (hu' : u ≤ 1) (hv : 0 ≤ v) (hv' : v ≤ 1) :
    ∃ ra dec, samplePatch phi theta delta u v = some (ra, dec) ∧ theta - delta ≤ dec ∧ dec ≤ theta + delta ∧ 0 ≤ ra ∧
      (∃ x, SameTurn ra x ∧ phi - delta ≤ x ∧ x ≤ phi + delta ∧ x = phi - delta + u * (2 * delta)) ∧
      (∀ d, theta - delta ≤ d → d ≤ theta + delta → (d ≤ dec ↔ v * (sin (theta + delta) - sin (theta - delta)) ≤ sin (theta + delta) - sin d)) := by
  have hpos : ¬ (π < π / 2 - theta + delta ∨ π / 2 - theta - delta < 0) := by
    rintro (h | h) <;> linarith
  have hmin : cos (π / 2 - theta - delta) = sin (theta + delta) := by rw [show π / 2 - theta - delta = π / 2 - (theta + delta) by ring, cos_pi_div_two_sub]
  have hmax : cos (π / 2 - theta + delta) = sin (theta - delta) := by rw [show π / 2 - theta + delta = π / 2 - (theta - delta) by ring, cos_pi_div_two_sub]
  have hle : sin (theta - delta) ≤ sin (theta + delta) := sin_le_sin_of_le_of_le_pi_div_two hlo hhi (by linarith)
  set S := sin (theta + delta) with hS
  set s := sin (theta - delta) with hs
  have hdec : π / 2 - arccos (-v * (S - s) + S) = arcsin (S - v * (S - s)) := by
    rw [arccos_eq_pi_div_two_sub_arcsin, show -v * (S - s) + S = S - v * (S - s) by ring]
    ring
  have hlow : s ≤ S - v * (S - s) := by nlinarith
  have hup : S - v * (S - s) ≤ S := by nlinarith
  have hS1 : arcsin S = theta + delta := arcsin_sin (by linarith) hhi
  have hs1 : arcsin s = theta - delta := arcsin_sin hlo (by linarith)
  have hb1 : -1 ≤ S - v * (S - s) := le_trans (neg_one_le_sin _) hlow
  have hb2 : S - v * (S - s) ≤ 1 := le_trans hup (sin_le_one _)
  have hx1 : phi - delta ≤ 2 * delta * u + (phi - delta) := by nlinarith
  have hx2 : 2 * delta * u + (phi - delta) ≤ phi + delta := by nlinarith
  have hres : samplePatch phi theta delta u v = some (if 0 ≤ 2 * delta * u + (phi - delta) then 2 * delta * u + (phi - delta) else 2 * delta * u + (phi - delta) + 2 * π,
      arcsin (S - v * (S - s))) := by
    unfold samplePatch
    dsimp only
    rw [if_neg hpos, hmin, hmax, hdec]
  refine ⟨_, _, hres, ?_, ?_, ?_, ?_, ?_⟩
  · rw [← hs1]
    exact monotone_arcsin hlow
  · rw [← hS1]
    exact monotone_arcsin hup
  · split_ifs with h
    · exact h
    · linarith
  · refine ⟨2 * delta * u + (phi - delta), ?_, hx1, hx2, by ring⟩
    split_ifs
    · exact ⟨0, by simp⟩
    · exact ⟨1, by simp⟩
  · intro d hd1 hd2
    rw [le_arcsin_iff_sin_le ⟨by linarith, by linarith⟩ ⟨hb1, hb2⟩]
    constructor <;> intro h <;> linarith

/-- C166 does not hold for patches across the meridian of right ascension zero from the other side: right ascensions above a full turn are given. -/
theorem C166_turn_violated : ∃ ra dec, samplePatch (2 * π - 1 / 100) 0 (1 / 10) 1 0 = some (ra, dec) ∧ 2 * π < ra := by
  unfold samplePatch
  dsimp only
  have h := Real.two_le_pi
  rw [if_neg (by rintro (h' | h') <;> linarith), if_pos (by linarith)]
  exact ⟨_, _, rfl, by linarith⟩

/-- C166. Samples of the sphere lie on it, and the part of all random numbers that give samples north of a declination is the part of the sphere north of it. -/
theorem C166_sphere (u v : ℝ) (hu : 0 ≤ u) (hu' : u < 1) (hv : 0 ≤ v) (hv' : v ≤ 1) :
    0 ≤ (uniformSphere u v).1 ∧ (uniformSphere u v).1 < 2 * π ∧ IsLat (uniformSphere u v).2 ∧ (uniformSphere u v).1 = u * (2 * π) ∧
      ∀ d, IsLat d → (d ≤ (uniformSphere u v).2 ↔ v * 2 ≤ 1 - sin d) := by
  have hp := pi_pos
  have hdec : (uniformSphere u v).2 = arcsin (1 - 2 * v) := by
    unfold uniformSphere
    dsimp only
    rw [arccos_eq_pi_div_two_sub_arcsin, show 2 * v - 1 = -(1 - 2 * v) by ring, arcsin_neg]
    ring
  have hra : (uniformSphere u v).1 = 2 * π * u := rfl
  rw [hdec, hra]
  refine ⟨by positivity, by nlinarith, ⟨neg_pi_div_two_le_arcsin _, arcsin_le_pi_div_two _⟩, by ring, fun d hd => ?_⟩
  rw [le_arcsin_iff_sin_le ⟨hd.1, hd.2⟩ ⟨by linarith, by linarith⟩]
  constructor <;> intro h <;> linarith

example : (0 : ℝ) ≤ 1 ∧ (0 : ℝ) < 1 / 10 ∧ -(π / 2) ≤ 0 - (1 / 10 : ℝ) ∧ 0 + (1 / 10 : ℝ) ≤ π / 2 := by
  have := Real.two_le_pi
  refine ⟨?_, ?_, ?_, ?_⟩ <;> linarith

/-! ### C167 -/

theorem wrapAt_range (w x : ℝ) : w - 2 * π ≤ wrapAt w x ∧ wrapAt w x < w ∧ SameTurn (wrapAt w x) x := by
  obtain ⟨h1, h2⟩ := fmod_range (x - (w - 2 * π)) (show (0 : ℝ) < 2 * π by linarith [pi_pos])
  obtain ⟨k, hk⟩ := fmod_same (x - (w - 2 * π))
  unfold wrapAt
  refine ⟨by linarith, by linarith, k, ?_⟩
  rw [hk]
  ring

/-- Sidereal time, as it goes on at a steady rate from a time where it is known. -/
noncomputable def siderealAt (mjd lst t : ℝ) : ℝ := lst + 2 * π * ((t - mjd) / sidereal)

theorem sidereal_pos : 0 < sidereal := by
  unfold sidereal
  norm_num

theorem guess_turn (which : String) (wrap alt mjd lst ra dec lat : ℝ) :
    siderealAt mjd lst (guess which wrap alt mjd lst ra dec lat) - ra = wrapAt wrap (eventHa which alt dec lat - (lst - ra)) + (lst - ra) ∧
      SameTurn (siderealAt mjd lst (guess which wrap alt mjd lst ra dec lat) - ra) (eventHa which alt dec lat) := by
  have hs := sidereal_pos.ne'
  have h1 : siderealAt mjd lst (guess which wrap alt mjd lst ra dec lat) - ra = wrapAt wrap (eventHa which alt dec lat - (lst - ra)) + (lst - ra) := by
    unfold siderealAt guess
    have := pi_pos.ne'
    field_simp
    ring
  refine ⟨h1, ?_⟩
  rw [h1]
  obtain ⟨k, hk⟩ := (wrapAt_range wrap (eventHa which alt dec lat - (lst - ra))).2.2
  exact ⟨k, by rw [hk]; ring⟩

/-- C167. For a body at a fixed place among the stars that reaches the altitude, the first guess is the time when it is there: sinking in the west for "down", climbing in the east
otherwise; and it is the only such time of its (sidereal) day, which ends at the time asked about, has it in the middle, or begins with it. -/
theorem C167_guess_partial (which : String) (wrap alt mjd lst ra dec lat : ℝ) (hc : 0 < cos dec) (hl : 0 < cos lat)
    (hreach : |sin alt - sin dec * sin lat| < cos dec * cos lat) :
    let up : ℝ → Prop := fun t => dot (xyz ra dec) (upV lat (siderealAt mjd lst t)) = sin alt ∧
      (if which = "down" then dot (xyz ra dec) (eastV (siderealAt mjd lst t)) < 0 else 0 < dot (xyz ra dec) (eastV (siderealAt mjd lst t)))
    let window : ℝ → Prop := fun t => mjd + (wrap / (2 * π) - 1) * sidereal ≤ t ∧ t < mjd + wrap / (2 * π) * sidereal
    up (guess which wrap alt mjd lst ra dec lat) ∧ window (guess which wrap alt mjd lst ra dec lat) ∧
      ∀ t, up t → window t → t = guess which wrap alt mjd lst ra dec lat := by
  intro up window
  have hp := pi_pos
  have hsid := sidereal_pos
  have hcc : 0 < cos dec * cos lat := mul_pos hc hl
  set q := (sin alt - sin dec * sin lat) / (cos dec * cos lat) with hq
  have hqabs : |q| < 1 := by
    rw [hq, abs_div, abs_of_pos hcc, div_lt_one hcc]
    exact hreach
  obtain ⟨hq1, hq2⟩ := abs_lt.1 hqabs
  have hcosq : cos (arccos q) = q := cos_arccos hq1.le hq2.le
  have harc0 : 0 < arccos q := arccos_pos.2 hq2
  have harcpi : arccos q < π := by
    rcases lt_or_eq_of_le (arccos_le_pi q) with h | h
    · exact h
    · rw [h, cos_pi] at hcosq
      linarith
  have hsinq : 0 < sin (arccos q) := sin_pos_of_pos_of_lt_pi harc0 harcpi
  obtain ⟨hturn, hsame⟩ := guess_turn which wrap alt mjd lst ra dec lat
  set g := guess which wrap alt mjd lst ra dec lat with hg
  have hcosE : cos (eventHa which alt dec lat) = q := by
    unfold eventHa direction
    split_ifs
    · rw [one_mul, hcosq]
    · rw [neg_one_mul, cos_neg, hcosq]
  have hsinE : sin (eventHa which alt dec lat) = if which = "down" then sin (arccos q) else -sin (arccos q) := by
    unfold eventHa direction
    split_ifs
    · rw [one_mul]
    · rw [neg_one_mul, sin_neg]
  have hval : cos dec * cos lat * q = sin alt - sin dec * sin lat := by
    rw [hq]
    field_simp
  have hupg : up g := by
    constructor
    · rw [dot_up, hsame.cos, hcosE]
      linarith
    · rw [dot_east, hsame.sin, hsinE]
      have := mul_pos hc hsinq
      split_ifs
      · linarith
      · linarith
  obtain ⟨hw1, hw2, _⟩ := wrapAt_range wrap (eventHa which alt dec lat - (lst - ra))
  have hgeq : g = mjd + wrapAt wrap (eventHa which alt dec lat - (lst - ra)) * (sidereal / (2 * π)) := rfl
  have hk : 0 < sidereal / (2 * π) := by positivity
  have hwin : window g := by
    constructor
    · rw [hgeq, show (wrap / (2 * π) - 1) * sidereal = (wrap - 2 * π) * (sidereal / (2 * π)) by field_simp]
      have := mul_le_mul_of_nonneg_right hw1 hk.le
      linarith
    · rw [hgeq, show wrap / (2 * π) * sidereal = wrap * (sidereal / (2 * π)) by ring]
      have := mul_lt_mul_of_pos_right hw2 hk
      linarith
  refine ⟨hupg, hwin, ?_⟩
  rintro t ⟨ht1, ht2⟩ ⟨ht3, ht4⟩
  set H := siderealAt mjd lst t - ra with hH
  rw [dot_up] at ht1
  rw [dot_east] at ht2
  have hcosH : cos H = cos (arccos q) := by
    rw [hcosq]
    have : cos dec * cos lat * cos H = cos dec * cos lat * q := by linarith
    exact mul_left_cancel₀ hcc.ne' this
  have hsH : SameTurn H (siderealAt mjd lst g - ra) := by
    refine SameTurn.trans ?_ hsame.symm
    have hsq : sin H ^ 2 = sin (arccos q) ^ 2 := by
      rw [sin_sq, sin_sq, hcosH]
    refine sameTurn_of (by rw [hcosH, hcosq, hcosE]) ?_
    rw [hsinE]
    by_cases hd : which = "down"
    · rw [if_pos hd] at ht2 ⊢
      have hpos : 0 < sin H := by
        by_contra hcon
        nlinarith
      exact (pow_left_inj₀ hpos.le hsinq.le two_ne_zero).1 hsq
    · rw [if_neg hd] at ht2 ⊢
      have hneg : sin H < 0 := by
        by_contra hcon
        nlinarith
      have : -sin H = sin (arccos q) := (pow_left_inj₀ (by linarith) hsinq.le two_ne_zero).1 (by rw [neg_sq, hsq])
      linarith
  obtain ⟨k, hk⟩ := hsH
  have hdiff : t - g = k * sidereal := by
    rw [hH] at hk
    unfold siderealAt at hk
    have h2 : 2 * π * ((t - mjd) / sidereal) = 2 * π * ((g - mjd) / sidereal) + 2 * π * k := by linarith
    have h3 : (t - mjd) / sidereal = (g - mjd) / sidereal + k := by
      have : 2 * π * ((t - mjd) / sidereal) = 2 * π * ((g - mjd) / sidereal + k) := by linarith
      exact mul_left_cancel₀ (by positivity) this
    have h4 : t - mjd = (g - mjd) + k * sidereal := by
      rw [div_eq_iff hsid.ne', add_mul, div_mul_cancel₀ _ hsid.ne'] at h3
      exact h3
    linarith
  obtain ⟨hg3, hg4⟩ := hwin
  have hk1 : (k : ℝ) < 1 := by
    by_contra hcon
    have := mul_le_mul_of_nonneg_right (not_lt.1 hcon) hsid.le
    linarith
  have hk2 : (-1 : ℝ) < k := by
    by_contra hcon
    have := mul_le_mul_of_nonneg_right (not_lt.1 hcon) hsid.le
    linarith
  have hk0 : k = 0 := by
    have a : k < 1 := by exact_mod_cast hk1
    have b : -1 < k := by exact_mod_cast hk2
    omega
  rw [hk0] at hdiff
  simp at hdiff
  linarith

/-- The three choices of the day. -/
example : nightWrap "previous" = some 0 ∧ nightWrap "nearest" = some π ∧ nightWrap "next" = some (2 * π) := by
  unfold nightWrap
  simp

/-- A star of the equator seen from the equator reaches every altitude below the zenith. -/
example : (0 : ℝ) < cos 0 ∧ |sin (1 : ℝ) - sin 0 * sin 0| < cos 0 * cos 0 := by
  have h1 : sin (1 : ℝ) < 1 := by
    have h := sin_sq_add_cos_sq (1 : ℝ)
    have hc : 0 < cos (1 : ℝ) := cos_one_pos
    by_contra hcon
    nlinarith
  have h2 : 0 < sin (1 : ℝ) := sin_pos_of_pos_of_lt_pi (by norm_num) (by linarith [Real.two_le_pi])
  rw [cos_zero, sin_zero]
  constructor
  · norm_num
  · rw [abs_of_pos (by linarith)]
    linarith

/-- C167 does not hold for the documented choices of evening and morning: both are those for rising. -/
theorem C167_evening_violated (wrap alt mjd lst ra dec lat : ℝ) :
    guess "evening" wrap alt mjd lst ra dec lat = guess "up" wrap alt mjd lst ra dec lat ∧ guess "morning" wrap alt mjd lst ra dec lat = guess "up" wrap alt mjd lst ra dec lat := by
  have h : ∀ w, w ≠ "down" → direction w = -1 := fun w hw => if_neg hw
  unfold guess eventHa
  rw [h "evening" (by decide), h "morning" (by decide), h "up" (by decide)]
  exact ⟨rfl, rfl⟩

/-- C167. While the sine of the altitude changes evenly with time, one correction is enough: the loop ends before its last turn. -/
theorem C167_linear (b : Body) (T : Set ℝ) {A B : ℝ} (hB : B ≠ 0) (hsin : ∀ t ∈ T, sin (b.alt t) = A + B * t) (hrate : ∀ t ∈ T, b.rate t = B)
    {target tol : ℝ} (hreach : ∃ t ∈ T, b.alt t = target) (htol : 0 < tol) (n : ℕ) (last ts : List ℝ) (hts : ∀ t ∈ ts, t ∈ T) :
    (Spot.refine b target tol (n + 2) last ts).2 = none := by
  obtain ⟨z, hz, hzt⟩ := hreach
  by_cases h1 : close b target tol ts
  · unfold Spot.refine
    rw [if_pos h1]
  · unfold Spot.refine
    rw [if_neg h1]
    unfold Spot.refine
    rw [if_pos]
    intro t' ht'
    obtain ⟨t, ht, rfl⟩ := List.mem_map.1 ht'
    have h2 : t - (sin (b.alt t) - sin target) / b.rate t = z := by
      rw [hsin t (hts t ht), hrate t (hts t ht), ← hzt, hsin z hz]
      field_simp
      ring
    rw [h2, hzt, sub_self, abs_zero]
    exact htol

/-- A body whose sine of the altitude is the time itself, from the horizon to the zenith. -/
example : ∃ (b : Body) (T : Set ℝ), (∀ t ∈ T, sin (b.alt t) = 0 + 1 * t) ∧ (∃ t ∈ T, b.alt t = π / 6) ∧ (0 : ℝ) ∈ T :=
  ⟨⟨arcsin, fun _ => 1⟩, Set.Icc 0 1, fun t ht => by rw [sin_arcsin (by linarith [ht.1]) ht.2]; ring,
    ⟨1 / 2, ⟨by norm_num, by norm_num⟩, by
      show arcsin (1 / 2) = π / 6
      rw [← sin_pi_div_six, arcsin_sin] <;> linarith [pi_pos]⟩, ⟨le_refl _, by norm_num⟩⟩

/-- C167. When the refinement ends before its greatest number of steps, every time is one where the altitude is within the tolerance. -/
theorem C167_refined (b : Body) (target tol : ℝ) (n : ℕ) (last ts rs : List ℝ) (h : refine b target tol n last ts = (rs, none)) :
    (∀ t ∈ rs, |b.alt t - target| < tol) ∧ rs.length = ts.length := by
  induction n generalizing last ts with
  | zero => cases h
  | succ n ih =>
    unfold refine at h
    by_cases hcl : close b target tol ts
    · rw [if_pos hcl] at h
      cases h
      exact ⟨hcl, rfl⟩
    · rw [if_neg hcl] at h
      have := ih _ _ h
      rwa [List.length_map] at this

/-- C167 does not hold for the warning: with no time refined to the tolerance there is none. -/
theorem C167_warning_violated (b : Body) (target tol : ℝ) (t : ℝ) (h : tol ≤ |b.alt t - target|) :
    (refine b target tol 1 [] [t]).2 = some [t] ∧ ¬ warned b target tol (refine b target tol 1 [] [t]).2 := by
  have hr : (refine b target tol 1 [] [t]).2 = some [t] := by
    unfold refine
    rw [if_neg]
    · rfl
    · intro hcl
      have := hcl t List.mem_cons_self
      linarith
  refine ⟨hr, ?_⟩
  rw [hr]
  rintro ⟨u, hu, hlt⟩
  rw [List.mem_singleton] at hu
  subst hu
  linarith

/-! ### C168 -/

theorem inner_eq (a b : Vec) : Spot.inner a b = dot a b := rfl

theorem vec_eq {a b : Vec} (hx : a.x = b.x) (hy : a.y = b.y) (hz : a.z = b.z) : a = b := by
  cases a
  cases b
  simp_all

/-- The square of the length of the cross product. -/
theorem cross_sq (a b : Vec) : dot (Spot.cross a b) (Spot.cross a b) = dot a a * dot b b - dot a b ^ 2 := by
  unfold dot Spot.cross
  ring

theorem axisAngle_mul (k : Vec) (s c : ℝ) (a : Vec) :
    (axisAngle k s c).mul a = ⟨c * a.x + s * (Spot.cross k a).x + (1 - c) * dot k a * k.x, c * a.y + s * (Spot.cross k a).y + (1 - c) * dot k a * k.y,
      c * a.z + s * (Spot.cross k a).z + (1 - c) * dot k a * k.z⟩ := by
  unfold axisAngle Mat.mul Spot.inner Spot.cross dot
  apply vec_eq <;> dsimp only <;> ring

theorem axisAngle_dot (k : Vec) (s c : ℝ) (hk : dot k k = 1) (hsc : s ^ 2 + c ^ 2 = 1) (a b : Vec) :
    dot ((axisAngle k s c).mul a) ((axisAngle k s c).mul b) = dot a b := by
  have e : dot ((axisAngle k s c).mul a) ((axisAngle k s c).mul b) =
      c ^ 2 * dot a b + s ^ 2 * (dot k k * dot a b - dot k a * dot k b) + (1 - c) ^ 2 * dot k a * dot k b * dot k k + 2 * c * (1 - c) * dot k a * dot k b := by
    rw [axisAngle_mul, axisAngle_mul]
    unfold dot Spot.cross
    ring
  rw [e]
  linear_combination (s ^ 2 * dot a b + (1 - c) ^ 2 * dot k a * dot k b) * hk + (dot a b - dot k a * dot k b) * hsc

theorem axisAngle_det (k : Vec) (s c : ℝ) (hk : dot k k = 1) (hsc : s ^ 2 + c ^ 2 = 1) :
    dot (axisAngle k s c).r1 (Spot.cross (axisAngle k s c).r2 (axisAngle k s c).r3) = 1 := by
  have e : dot (axisAngle k s c).r1 (Spot.cross (axisAngle k s c).r2 (axisAngle k s c).r3) = (c + (1 - c) * dot k k) * (c ^ 2 + s ^ 2 * dot k k) := by
    unfold axisAngle Spot.cross dot
    ring
  rw [e, hk]
  linear_combination hsc

/-- C168. For two directions given by unit vectors, neither the same nor opposite, the matrix is a rotation (lengths, angles and handedness stay) that turns the first into the second and
leaves alone what is at right angles to both. -/
theorem C168_rotation_partial (v1 v2 : Vec) (h1 : dot v1 v1 = 1) (h2 : dot v2 v2 = 1) (hne : |dot v1 v2| < 1) :
    ∃ m, rotation v1 v2 = .mat m ∧ m.mul v1 = v2 ∧ (∀ a b, dot (m.mul a) (m.mul b) = dot a b) ∧ dot m.r1 (Spot.cross m.r2 m.r3) = 1 ∧
      ∀ a, dot a v1 = 0 → dot a v2 = 0 → m.mul a = a := by
  obtain ⟨g1, g2⟩ := abs_lt.1 hne
  set c := dot v1 v2 with hc
  have hpos : 0 < 1 - c ^ 2 := by nlinarith
  have hcross : dot (Spot.cross v1 v2) (Spot.cross v1 v2) = 1 - c ^ 2 := by rw [cross_sq, h1, h2, hc, one_mul]
  set l := √(1 - c ^ 2) with hl
  have hl0 : 0 < l := Real.sqrt_pos.2 hpos
  have hl2 : l ^ 2 = 1 - c ^ 2 := Real.sq_sqrt hpos.le
  have hsin : sin (arccos c) = l := by rw [sin_arccos]
  have hcos : cos (arccos c) = c := cos_arccos g1.le g2.le
  set w := Spot.cross v1 v2 with hw
  set k : Vec := ⟨w.x / l, w.y / l, w.z / l⟩ with hk
  have hm : rotation v1 v2 = .mat (axisAngle k l c) := by
    unfold rotation
    rw [inner_eq, inner_eq, h1, h2, Real.sqrt_one, if_neg (by norm_num)]
    dsimp only
    rw [inner_eq, ← hw, hcross, ← hl, if_neg hl0.ne', inner_eq, ← hc, hsin, hcos]
  have hkk : dot k k = 1 := by
    have : dot k k = dot w w / l ^ 2 := by
      unfold dot
      dsimp only [k]
      field_simp
    rw [this, hcross, hl2, div_self hpos.ne']
  have hsc : l ^ 2 + c ^ 2 = 1 := by linarith
  have hkv : ∀ a, dot k a = dot w a / l := by
    intro a
    unfold dot
    dsimp only [k]
    ring
  have hwv : dot w v1 = 0 := by
    rw [hw]
    unfold dot Spot.cross
    ring
  have hkx : ∀ a : Vec, (Spot.cross k a).x = (v2.x * dot v1 a - v1.x * dot v2 a) / l ∧ (Spot.cross k a).y = (v2.y * dot v1 a - v1.y * dot v2 a) / l ∧
      (Spot.cross k a).z = (v2.z * dot v1 a - v1.z * dot v2 a) / l := by
    intro a
    unfold dot
    dsimp only [k, w, Spot.cross]
    refine ⟨?_, ?_, ?_⟩ <;> ring
  have hcomm : ∀ a b : Vec, dot a b = dot b a := by
    intro a b
    unfold dot
    ring
  refine ⟨_, hm, ?_, axisAngle_dot k l c hkk hsc, axisAngle_det k l c hkk hsc, ?_⟩
  · rw [axisAngle_mul, hkv, hwv, zero_div]
    obtain ⟨e1, e2, e3⟩ := hkx v1
    rw [e1, e2, e3, h1, hcomm v2 v1, ← hc]
    apply vec_eq <;> dsimp only <;> field_simp <;> ring
  · intro a ha1 ha2
    obtain ⟨e1, e2, e3⟩ := hkx a
    rw [hcomm v1 a, hcomm v2 a, ha1, ha2] at e1 e2 e3
    simp only [mul_zero, sub_zero, zero_div] at e1 e2 e3
    rw [axisAngle_mul, e1, e2, e3]
    unfold Spot.cross at e1 e2 e3
    dsimp only at e1 e2 e3
    have f1 : dot k a * k.x = a.x := by
      unfold dot at hkk ⊢
      linear_combination k.y * e3 - k.z * e2 + a.x * hkk
    have f2 : dot k a * k.y = a.y := by
      unfold dot at hkk ⊢
      linear_combination k.z * e1 - k.x * e3 + a.y * hkk
    have f3 : dot k a * k.z = a.z := by
      unfold dot at hkk ⊢
      linear_combination k.x * e2 - k.y * e1 + a.z * hkk
    apply vec_eq
    · dsimp only
      linear_combination (1 - c) * f1
    · dsimp only
      linear_combination (1 - c) * f2
    · dsimp only
      linear_combination (1 - c) * f3

/-- C168 does not hold for the same or opposite directions, which give no matrix. -/
theorem C168_parallel_violated (v : Vec) (h : dot v v = 1) : rotation v v = .nan ∧ rotation v ⟨-v.x, -v.y, -v.z⟩ = .nan := by
  have hn : dot (⟨-v.x, -v.y, -v.z⟩ : Vec) ⟨-v.x, -v.y, -v.z⟩ = 1 := by
    rw [← h]
    unfold dot
    ring
  have hc : dot v ⟨-v.x, -v.y, -v.z⟩ = -1 := by
    rw [← h]
    unfold dot
    ring
  constructor
  · unfold rotation
    rw [inner_eq, h, Real.sqrt_one, if_neg (by norm_num)]
    dsimp only
    rw [inner_eq, cross_sq, h, if_pos (by norm_num)]
  · unfold rotation
    rw [inner_eq, inner_eq, h, hn, Real.sqrt_one, if_neg (by norm_num)]
    dsimp only
    rw [inner_eq, cross_sq, h, hn, hc, if_pos (by norm_num)]

example : dot (⟨1, 0, 0⟩ : Vec) ⟨1, 0, 0⟩ = 1 ∧ dot (⟨0, 1, 0⟩ : Vec) ⟨0, 1, 0⟩ = 1 ∧ |dot (⟨1, 0, 0⟩ : Vec) ⟨0, 1, 0⟩| < 1 := by
  unfold dot
  norm_num

end Verif
