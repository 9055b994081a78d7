import Verif.Model.AltAzField
import Verif.Props.AltAz
import Verif.Props.Sphere
import Verif.Props.Field
import Verif.Props.Reward

/-! C196: field surveys in horizontal coordinates. -/

namespace Verif

open Azf Real
open Sph (xyz sep lmst)

/-- The angle by which the sky at a place has turned at a time. -/
noncomputable def turned (p : Place) (mjd : ℝ) : ℝ := lmst mjd p.lon / 12 * π

/-- A visit points, at a sidereal angle, to an altitude and azimuth. -/
def PointsTo (p : Place) (t : ℝ) (v : AVisit) (alt az : ℝ) : Prop :=
  ∃ ra dec, v.sky = some (ra, dec) ∧ IsLat dec ∧ Verif.SeenAt p.lat t (xyz ra dec) alt az

theorem handOut_mem {p : Place} {f : Bool} {mjd : ℚ} {mounted : List String} {read change pad : ℚ} {alt az : ℝ} {l : List Fld.Item}
    {v : AVisit} (h : v ∈ handOut true p f mjd mounted read change pad alt az l) :
    v.alt = alt ∧ v.az = az ∧ v.sky = some (skyAt p mjd alt az) := by
  unfold handOut at h
  rw [if_pos rfl] at h
  obtain ⟨w, hw, rfl⟩ := List.mem_map.1 h
  obtain ⟨i, _, rfl⟩ := List.mem_map.1 hw
  exact ⟨rfl, rfl, rfl⟩

/-- C196: every visit handed out points, at that time, to the altitude and azimuth of the survey. -/
theorem C196_seen {p : Place} {f : Bool} {mjd : ℚ} {mounted : List String} {read change pad : ℚ} {alt az : ℝ} {l : List Fld.Item}
    (ha : IsLat alt) : ∀ v ∈ handOut true p f mjd mounted read change pad alt az l, PointsTo p (turned p mjd) v alt az := by
  intro v hv
  obtain ⟨h1, h2⟩ := C118_direction alt az p.lat (lmst mjd p.lon) ha
  exact ⟨_, _, (handOut_mem hv).2.2, h2, h1⟩

/-- C196: the visits handed out are those of the survey in mounted bands, in order; nothing when the survey is not feasible. -/
theorem C196_visits (p : Place) (f : Bool) (mjd : ℚ) (mounted : List String) (read change pad : ℚ) (alt az : ℝ) {nv : String → Option ℕ}
    {ex : String → Option ℚ} {ne : String → Option ℕ} {sequence : List String} {note : String} {l : List Fld.Item}
    (h : Fld.fieldItems 0 0 note nv ex ne sequence = some l) :
    (handOut true p f mjd mounted read change pad alt az l).map (fun v => v.item.band) =
      (if f then (wanted sequence (fun b => (nv b).getD 0)).filter (fun b => decide (b ∈ mounted)) else []) ∧
    ∀ v ∈ handOut true p f mjd mounted read change pad alt az l,
      v.item.note = note ∧ some v.item.exptime = ex v.item.band ∧ some v.item.nexp = ne v.item.band := by
  obtain ⟨h1, h2⟩ := C100_field_sequence _ _ _ _ _ _ _ _ h
  unfold handOut
  rw [if_pos rfl]
  unfold Fld.fieldRough
  rcases f with _ | _
  · simp
  · constructor
    · rw [if_pos rfl, if_pos rfl, ← h1, List.map_map, List.map_map]
      unfold Fld.available
      rw [List.filter_map, List.map_map, List.filter_map]
      rfl
    · intro v hv
      rw [if_pos rfl] at hv
      obtain ⟨w, hw, rfl⟩ := List.mem_map.1 hv
      obtain ⟨i, hi, rfl⟩ := List.mem_map.1 hw
      unfold Fld.available at hi
      obtain ⟨j, hj, rfl⟩ := List.mem_map.1 (List.mem_filter.1 hi).1
      exact (h2 j hj).2.2

/-- As the sky turns by an angle, a direction is seen where the direction behind it by the angle was seen. -/
theorem seen_turn {lat t d ra dec alt az : ℝ} (h : Verif.SeenAt lat (t + d) (xyz ra dec) alt az) :
    Verif.SeenAt lat t (xyz (ra - d) dec) alt az := by
  obtain ⟨h1, h2, h3⟩ := h
  refine ⟨?_, ?_, ?_⟩
  · rw [← h1]
    unfold dot xyz upV
    rw [Real.cos_add, Real.sin_add, Real.cos_sub, Real.sin_sub]
    ring
  · rw [← h2, dot_north, dot_north]
    congr 3
    ring
  · rw [← h3, dot_east, dot_east]
    congr 3
    ring

/-- C196: a visit made after the sky has turned by an angle is off the altitude and azimuth of the survey by that angle at the equator
of the sky and by less elsewhere, never by more. -/
theorem C196_drift {p : Place} {f : Bool} {mjd : ℚ} {mounted : List String} {read change pad : ℚ} {alt az : ℝ} {l : List Fld.Item}
    (ha : IsLat alt) {v : AVisit} (hv : v ∈ handOut true p f mjd mounted read change pad alt az l) {d alt' az' : ℝ} (h0 : 0 ≤ d)
    (h1 : d ≤ π) (h : PointsTo p (turned p mjd + d) v alt' az') :
    sep az alt az' alt' ≤ d ∧ (∀ ra, v.sky = some (ra, 0) → sep az alt az' alt' = d) := by
  obtain ⟨ra, dec, e, _, s1⟩ := C196_seen ha v hv
  obtain ⟨ra', dec', e', _, s2⟩ := h
  rw [e] at e'
  obtain ⟨rfl, rfl⟩ := Prod.mk.inj (Option.some.inj e')
  have hs := C117_separation s1 (seen_turn s2)
  obtain ⟨a1, a2, a3⟩ := C121_angle ra dec (ra - d) dec
  rw [dot_xyz, show ra - (ra - d) = d by ring] at a1
  have hc := Real.cos_le_one d
  have hq := Real.cos_sq_add_sin_sq dec
  rw [hs]
  constructor
  · by_contra hn
    have := Real.cos_lt_cos_of_nonneg_of_le_pi h0 a3 (not_le.1 hn)
    rw [a1] at this
    nlinarith [sq_nonneg (sin dec), sq_nonneg (cos dec)]
  · intro r hr
    rw [e] at hr
    obtain ⟨_, rfl⟩ := Prod.mk.inj (Option.some.inj hr)
    refine eq_of_cos ⟨a2, a3⟩ ⟨h0, h1⟩ ?_
    rw [a1]
    simp

/-- C196: the reward is the mean of the values of the basis functions at the pixel of the direction that is, at the current time, at the
altitude and azimuth of the survey, as long as these values are ordinary numbers. -/
theorem C196_reward (hpid : ℝ → ℝ → ℕ) (p : Place) (mjd alt az : ℝ) (ha : IsLat alt) (raws : List Rew.Basis) :
    ∃ ra dec, Verif.SeenAt p.lat (turned p mjd) (xyz ra dec) alt az ∧ IsLat dec ∧
      ∀ (q : Rew.Basis → ℚ) (v : Rew.Val), (∀ b ∈ raws, b.feasible = true) → (∀ b ∈ raws, valueAt (hpid ra dec) b.raw = .fin (q b)) →
        reward hpid p mjd alt az (raws.map (fun b => (b, 1 / (raws.length : ℚ)))) = some v →
        v = .scalar (.fin ((raws.map q).sum / raws.length)) := by
  obtain ⟨h1, h2⟩ := C118_direction alt az p.lat (lmst mjd p.lon) ha
  exact ⟨_, _, h1, h2, fun q v hf hq h => C96_field_mean raws _ q v hf hq h⟩

/-- C196 fails later: a visit to a field on the meridian, at 60 degrees for an observer at 30 degrees south, is kept in the queue for
more than five days; a quarter of a turn later it points to the horizon. -/
theorem C196_later_violated (lon : ℝ) : ∃ l : List Fld.Item, ∃ v ∈ handOut true ⟨-(π / 6), lon⟩ true 60000 ["r"] (12/5) 120 30 (π / 3) 0 l,
    60005 < v.item.flush ∧ PointsTo ⟨-(π / 6), lon⟩ (turned ⟨-(π / 6), lon⟩ (60000 : ℚ)) v (π / 3) 0 ∧
      ∃ az', PointsTo ⟨-(π / 6), lon⟩ (turned ⟨-(π / 6), lon⟩ (60000 : ℚ) + π / 2) v 0 az' := by
  have hp := Real.pi_pos
  have ha : IsLat (π / 3) := ⟨by linarith, by linarith⟩
  have hne : (Fld.fieldRough true 60000 ["r"] (12/5) 120 30 twentyR) ≠ [] := by decide +kernel
  obtain ⟨i, hi⟩ := List.exists_mem_of_ne_nil _ hne
  have hv : convert ⟨-(π / 6), lon⟩ (60000 : ℚ) (horizontal (π / 3) 0 i) ∈
      handOut true ⟨-(π / 6), lon⟩ true 60000 ["r"] (12/5) 120 30 (π / 3) 0 twentyR := by
    unfold handOut
    rw [if_pos rfl]
    exact List.mem_map_of_mem (List.mem_map_of_mem hi)
  refine ⟨twentyR, _, hv, C100_field_flush_violated.2.1 i hi, C196_seen ha _ hv, π * (3 / 2), ?_⟩
  obtain ⟨ra, dec, e, hd, s1, s2, s3⟩ := C196_seen ha _ hv
  have el : (⟨-(π / 6), lon⟩ : Place).lat = -(π / 6) := rfl
  rw [el] at s1 s2
  have c1 : dot (xyz ra dec) (upV (-(π / 6)) (turned ⟨-(π / 6), lon⟩ (60000 : ℚ))) =
      sin dec * sin (-(π / 6)) + cos dec * cos (-(π / 6)) * cos (turned ⟨-(π / 6), lon⟩ (60000 : ℚ) - ra) := by
    unfold dot xyz upV
    rw [Real.cos_sub]
    ring
  rw [c1] at s1
  rw [dot_north] at s2
  rw [dot_east] at s3
  simp only [Real.sin_neg, Real.cos_neg, Real.sin_pi_div_six, Real.cos_pi_div_six, Real.sin_pi_div_three, Real.cos_pi_div_three,
    Real.cos_zero, Real.sin_zero, mul_one, mul_zero, neg_eq_zero] at s1 s2 s3
  have q3 : √3 * √3 = (3 : ℝ) := Real.mul_self_sqrt (by norm_num)
  have hsd : sin dec = 0 := by linear_combination (-(1 / 2)) * s1 + (√3 / 2) * s2 - (sin dec / 4) * q3
  have hcc : cos dec * cos (turned ⟨-(π / 6), lon⟩ (60000 : ℚ) - ra) = 1 := by
    linear_combination (√3 / 2) * s1 + (1 / 2) * s2 - ((cos dec * cos (turned ⟨-(π / 6), lon⟩ (60000 : ℚ) - ra) - 1) / 4) * q3
  have e1 : cos (turned ⟨-(π / 6), lon⟩ (60000 : ℚ) + π / 2 - ra) = -sin (turned ⟨-(π / 6), lon⟩ (60000 : ℚ) - ra) := by
    rw [show turned ⟨-(π / 6), lon⟩ (60000 : ℚ) + π / 2 - ra = turned ⟨-(π / 6), lon⟩ (60000 : ℚ) - ra + π / 2 by ring, Real.cos_add_pi_div_two]
  have e2 : sin (turned ⟨-(π / 6), lon⟩ (60000 : ℚ) + π / 2 - ra) = cos (turned ⟨-(π / 6), lon⟩ (60000 : ℚ) - ra) := by
    rw [show turned ⟨-(π / 6), lon⟩ (60000 : ℚ) + π / 2 - ra = turned ⟨-(π / 6), lon⟩ (60000 : ℚ) - ra + π / 2 by ring, Real.sin_add_pi_div_two]
  have w1 : cos (π * (3 / 2)) = 0 := by
    rw [show π * (3 / 2) = π / 2 + π by ring, Real.cos_add_pi, Real.cos_pi_div_two, neg_zero]
  have w2 : sin (π * (3 / 2)) = -1 := by
    rw [show π * (3 / 2) = π / 2 + π by ring, Real.sin_add_pi, Real.sin_pi_div_two]
  refine ⟨ra, dec, e, hd, ?_, ?_, ?_⟩
  · have : dot (xyz ra dec) (upV (-(π / 6)) (turned ⟨-(π / 6), lon⟩ (60000 : ℚ) + π / 2)) =
        sin dec * sin (-(π / 6)) + cos dec * cos (-(π / 6)) * cos (turned ⟨-(π / 6), lon⟩ (60000 : ℚ) + π / 2 - ra) := by
      unfold dot xyz upV
      rw [Real.cos_sub]
      ring
    rw [this, e1, hsd, Real.sin_zero]
    linear_combination -(cos (-(π / 6))) * s3
  · rw [dot_north, e1, hsd, w1, mul_zero]
    linear_combination sin (⟨-(π / 6), lon⟩ : Place).lat * s3
  · rw [dot_east, e2, w2, Real.cos_zero, hcc, one_mul]

/-- C196 fails for a survey given detailers without the conversion: it is not refused, and its visits have no position. -/
theorem C196_detailer_violated (p : Place) (alt az : ℝ) : ∃ (l : List Fld.Item), handOut false p true 60000 ["r"] (12/5) 120 30 alt az l ≠ [] ∧
    ∀ v ∈ handOut false p true 60000 ["r"] (12/5) 120 30 alt az l, v.sky = none := by
  refine ⟨twentyR, ?_, ?_⟩
  · have hne : (Fld.fieldRough true 60000 ["r"] (12/5) 120 30 twentyR) ≠ [] := by decide +kernel
    unfold handOut
    rw [if_neg (by decide)]
    simpa using hne
  · intro v hv
    unfold handOut at hv
    rw [if_neg (by decide)] at hv
    obtain ⟨i, _, rfl⟩ := List.mem_map.1 hv
    rfl

/-- The hypotheses can be met: a survey at 45 degrees with twenty visits. -/
example : ∃ v, v ∈ handOut true ⟨-(1 / 2), 1⟩ true 60000 ["r"] (12/5) 120 30 (π / 4) 0 twentyR ∧ IsLat (π / 4) := by
  have hp := Real.pi_pos
  have hne : (Fld.fieldRough true 60000 ["r"] (12/5) 120 30 twentyR) ≠ [] := by decide +kernel
  obtain ⟨i, hi⟩ := List.exists_mem_of_ne_nil _ hne
  refine ⟨convert ⟨-(1 / 2), 1⟩ (60000 : ℚ) (horizontal (π / 4) 0 i), ?_, by linarith, by linarith⟩
  unfold handOut
  rw [if_pos rfl]
  exact List.mem_map_of_mem (List.mem_map_of_mem hi)

end Verif
