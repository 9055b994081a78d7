import Verif.Model.Spin
import Verif.Spec.Spin
import Verif.Props.Sphere
import Verif.Props.AltAz
import Mathlib.Tactic.LinearCombination
import Mathlib.Data.List.Induction

/-!
# The turning of the tessellation (C147)
-/

namespace Verif

open Sph Dith Spin Real

/-- The turn as a map of directions. -/
noncomputable def turnVec (t : Turn) (u : Vec) : Vec :=
  let v := rotZ t.lon u
  rotZ t.lon2 ⟨-v.x, -(v.y * cos t.lat - v.z * sin t.lat), v.y * sin t.lat + v.z * cos t.lat⟩

theorem spin_xyz (t : Turn) (p : ℝ × ℝ) : xyz (spin t p).1 (spin t p).2 = turnVec t (xyz p.1 p.2) := by
  have s1 : sin (p.2 + π / 2) = cos p.2 := Real.sin_add_pi_div_two _
  have s2 : cos (p.2 + π / 2) = -sin p.2 := Real.cos_add_pi_div_two _
  have f1 := (fmod_same (p.1 + t.lon)).cos
  have f2 := (fmod_same (p.1 + t.lon)).sin
  set w := rotx t.lat (thetaphi2xyz (fmod (p.1 + t.lon) (2 * π)) (p.2 + π / 2)) with hw
  have hx : w.x = cos p.2 * cos (p.1 + t.lon) := by simp only [hw, rotx, thetaphi2xyz, s1, f1]
  have hy : w.y = cos p.2 * sin (p.1 + t.lon) * cos t.lat + -sin p.2 * sin t.lat := by simp only [hw, rotx, thetaphi2xyz, s1, s2, f2]
  have hz : w.z = -(cos p.2 * sin (p.1 + t.lon)) * sin t.lat + -sin p.2 * cos t.lat := by simp only [hw, rotx, thetaphi2xyz, s1, s2, f2]
  have hu : w.x ^ 2 + w.y ^ 2 + w.z ^ 2 = 1 := by
    rw [hx, hy, hz]
    linear_combination (cos p.2 ^ 2 * sin (p.1 + t.lon) ^ 2 + sin p.2 ^ 2) * Real.sin_sq_add_cos_sq t.lat + cos p.2 ^ 2 * Real.sin_sq_add_cos_sq (p.1 + t.lon) + Real.sin_sq_add_cos_sq p.2
  have hz1 : -1 ≤ w.z := by nlinarith [sq_nonneg w.x, sq_nonneg w.y]
  have hz2 : w.z ≤ 1 := by nlinarith [sq_nonneg w.x, sq_nonneg w.y]
  have c1 : cos (arccos w.z) = w.z := Real.cos_arccos hz1 hz2
  have c2 : sin (arccos w.z) = √(w.x ^ 2 + w.y ^ 2) := by
    rw [Real.sin_arccos]
    congr 1
    linarith
  have a1 := atan2_cos w.y w.x
  have a2 := atan2_sin w.y w.x
  have e : spin t p = (fmod (atan2 w.y w.x + π + t.lon2) (2 * π), arccos w.z - π / 2) := rfl
  have g1 := (fmod_same (atan2 w.y w.x + π + t.lon2)).cos
  have g2 := (fmod_same (atan2 w.y w.x + π + t.lon2)).sin
  rw [e]
  unfold xyz turnVec
  simp only [rotZ, g1, g2, Real.cos_sub_pi_div_two, Real.sin_sub_pi_div_two, c1, c2]
  have k1 : cos (atan2 w.y w.x + π + t.lon2) = -(cos (atan2 w.y w.x) * cos t.lon2 - sin (atan2 w.y w.x) * sin t.lon2) := by
    rw [show atan2 w.y w.x + π + t.lon2 = atan2 w.y w.x + t.lon2 + π by ring, Real.cos_add_pi, Real.cos_add]
  have k2 : sin (atan2 w.y w.x + π + t.lon2) = -(sin (atan2 w.y w.x) * cos t.lon2 + cos (atan2 w.y w.x) * sin t.lon2) := by
    rw [show atan2 w.y w.x + π + t.lon2 = atan2 w.y w.x + t.lon2 + π by ring, Real.sin_add_pi, Real.sin_add]
  rw [k1, k2]
  have x1 := Real.cos_add p.1 t.lon
  have x2 := Real.sin_add p.1 t.lon
  refine Vec.mk.injEq .. |>.mpr ⟨?_, ?_, ?_⟩
  · have : -(cos (atan2 w.y w.x) * cos t.lon2 - sin (atan2 w.y w.x) * sin t.lon2) * √(w.x ^ 2 + w.y ^ 2) = -(w.x * cos t.lon2 - w.y * sin t.lon2) := by
      linear_combination -cos t.lon2 * a1 + sin t.lon2 * a2
    rw [this, hx, hy, x1, x2]
    ring
  · have : -(sin (atan2 w.y w.x) * cos t.lon2 + cos (atan2 w.y w.x) * sin t.lon2) * √(w.x ^ 2 + w.y ^ 2) = -(w.y * cos t.lon2 + w.x * sin t.lon2) := by
      linear_combination -cos t.lon2 * a2 - sin t.lon2 * a1
    rw [this, hx, hy, x1, x2]
    ring
  · rw [hz, x2]
    ring

theorem turnVec_dot (t : Turn) (a b : Vec) : dot (turnVec t a) (turnVec t b) = dot a b := by
  unfold turnVec dot rotZ
  dsimp only
  have h1 := Real.sin_sq_add_cos_sq t.lon
  have h2 := Real.sin_sq_add_cos_sq t.lat
  have h3 := Real.sin_sq_add_cos_sq t.lon2
  generalize sin t.lon = s1 at *
  generalize cos t.lon = c1 at *
  generalize sin t.lat = s2 at *
  generalize cos t.lat = c2 at *
  generalize sin t.lon2 = s3 at *
  generalize cos t.lon2 = c3 at *
  linear_combination ((c1 * a.x - s1 * a.y) * (c1 * b.x - s1 * b.y) + ((s1 * a.x + c1 * a.y) * c2 - a.z * s2) * ((s1 * b.x + c1 * b.y) * c2 - b.z * s2)) * h3 +
    ((s1 * a.x + c1 * a.y) * (s1 * b.x + c1 * b.y) + a.z * b.z) * h2 + (a.x * b.x + a.y * b.y) * h1

theorem turnVec_volume (t : Turn) (a b c : Vec) : volume3 (turnVec t a) (turnVec t b) (turnVec t c) = volume3 a b c := by
  have h2 := Real.sin_sq_add_cos_sq t.lat
  have r : ∀ (s : ℝ) (a b c : Vec), volume3 (rotZ s a) (rotZ s b) (rotZ s c) = volume3 a b c := by
    intro s a b c
    unfold volume3 rotZ
    dsimp only
    linear_combination (a.x * (b.y * c.z - b.z * c.y) + a.y * (b.z * c.x - b.x * c.z) + a.z * (b.x * c.y - b.y * c.x)) * Real.sin_sq_add_cos_sq s
  have q : ∀ a b c : Vec, volume3 ⟨-a.x, -(a.y * cos t.lat - a.z * sin t.lat), a.y * sin t.lat + a.z * cos t.lat⟩
      ⟨-b.x, -(b.y * cos t.lat - b.z * sin t.lat), b.y * sin t.lat + b.z * cos t.lat⟩
      ⟨-c.x, -(c.y * cos t.lat - c.z * sin t.lat), c.y * sin t.lat + c.z * cos t.lat⟩ = volume3 a b c := by
    intro a b c
    unfold volume3
    dsimp only
    linear_combination (a.x * (b.y * c.z - b.z * c.y) + a.y * (b.z * c.x - b.x * c.z) + a.z * (b.x * c.y - b.y * c.x)) * h2
  unfold turnVec
  dsimp only
  rw [r, q, r]

/-- C147. The turning of the tessellation moves it as a whole: all separations of two fields and the handedness of three stay; the new positions are in range. -/
theorem C147_rigid (t : Turn) (p q r : ℝ × ℝ) :
    sep (spin t p).1 (spin t p).2 (spin t q).1 (spin t q).2 = sep p.1 p.2 q.1 q.2 ∧
      volume3 (xyz (spin t p).1 (spin t p).2) (xyz (spin t q).1 (spin t q).2) (xyz (spin t r).1 (spin t r).2) =
        volume3 (xyz p.1 p.2) (xyz q.1 q.2) (xyz r.1 r.2) ∧
      0 ≤ (spin t p).1 ∧ (spin t p).1 < 2 * π ∧ IsLat (spin t p).2 := by
  have hp := Real.pi_pos
  refine ⟨?_, ?_, ?_, ?_, ?_⟩
  · obtain ⟨a1, a2, a3⟩ := C121_angle (spin t p).1 (spin t p).2 (spin t q).1 (spin t q).2
    obtain ⟨b1, b2, b3⟩ := C121_angle p.1 p.2 q.1 q.2
    apply Real.injOn_cos ⟨a2, a3⟩ ⟨b2, b3⟩
    rw [a1, b1, spin_xyz, spin_xyz, turnVec_dot]
  · rw [spin_xyz, spin_xyz, spin_xyz, turnVec_volume]
  · exact (fmod_range _ (by linarith)).1
  · exact (fmod_range _ (by linarith)).2
  · have h1 := Real.arccos_nonneg (rotx t.lat (thetaphi2xyz (fmod (p.1 + t.lon) (2 * π)) (p.2 + π / 2))).z
    have h2 := Real.arccos_le_pi (rotx t.lat (thetaphi2xyz (fmod (p.1 + t.lon) (2 * π)) (p.2 + π / 2))).z
    constructor
    · show -(π / 2) ≤ arccos _ - π / 2
      linarith
    · show arccos _ - π / 2 ≤ π / 2
      linarith

theorem chord_sep (r1 d1 r2 d2 : ℝ) : chord (xyz r1 d1) (xyz r2 d2) = √(2 - 2 * cos (sep r1 d1 r2 d2)) := by
  unfold chord
  rw [← (unit_dot _ _ (xyz_unit r1 d1) (xyz_unit r2 d2)).1, (C121_angle r1 d1 r2 d2).1]

/-- C147. A pixel belongs to a field that no other field is nearer to; there is one unless there are no fields. -/
theorem C147_nearest (fields : List (ℝ × ℝ)) (pix : ℝ × ℝ) :
    (fields ≠ [] → (nearestField fields pix).isSome) ∧
      ∀ i, nearestField fields pix = some i → ∃ f, fields[i]? = some f ∧ ∀ g ∈ fields, sep pix.1 pix.2 f.1 f.2 ≤ sep pix.1 pix.2 g.1 g.2 := by
  unfold nearestField
  constructor
  · intro h
    rw [Option.isSome_iff_ne_none, ne_eq, List.argmin_eq_none]
    intro h'
    apply h
    rw [← List.length_eq_zero_iff]
    simpa using congrArg List.length h'
  · intro i hi
    have hm := List.argmin_mem (Option.mem_def.2 hi)
    have hil := List.mem_range.1 hm
    refine ⟨fields[i], List.getElem?_eq_getElem hil, ?_⟩
    intro g hg
    obtain ⟨j, hj, rfl⟩ := List.getElem_of_mem hg
    have hle := List.le_of_mem_argmin (List.mem_range.2 hj) (Option.mem_def.2 hi)
    rw [List.getD_eq_getElem?_getD, List.getD_eq_getElem?_getD, List.getElem?_eq_getElem hil, List.getElem?_eq_getElem hj, Option.getD_some, Option.getD_some, chord_sep, chord_sep] at hle
    obtain ⟨a1, a2, a3⟩ := C121_angle pix.1 pix.2 fields[i].1 fields[i].2
    obtain ⟨b1, b2, b3⟩ := C121_angle pix.1 pix.2 fields[j].1 fields[j].2
    have hb : 0 ≤ 2 - 2 * cos (sep pix.1 pix.2 fields[j].1 fields[j].2) := by linarith [Real.cos_le_one (sep pix.1 pix.2 fields[j].1 fields[j].2)]
    rw [Real.sqrt_le_sqrt_iff hb] at hle
    by_contra hlt
    have := Real.strictAntiOn_cos ⟨b2, b3⟩ ⟨a2, a3⟩ (not_le.1 hlt)
    linarith

/-! ### When it is turned -/

theorem index_nat {n k : ℕ} (h : k < n) : index n (k : ℤ) = some k := by
  unfold index
  rw [if_pos (by omega), if_pos (by omega)]
  simp

theorem run_append (c : Spin.Cfg) (s : Spin.State) (a b : List ℤ) : run c s (a ++ b) = (run c s a).bind fun s => run c s b := by
  induction a generalizing s with
  | nil => rfl
  | cons n a ih =>
    simp only [List.cons_append, run]
    cases step c s n with
    | none => rfl
    | some s' => exact ih s'

/-- C147. With a turn per night, the fields of a night are the first ones turned by the turn of that night, whatever nights came before. -/
theorem C147_night_partial (c : Spin.Cfg) (hd : c.dither = .night) (ns : List ℕ) (n : ℕ) (h : ∀ k ∈ ns ++ [n], k < c.n) :
    ∃ s, run c (Spin.start c) ((ns ++ [n]).map Int.ofNat) = some s ∧ s.fields = c.init.map (spin (c.turn n 0)) := by
  have key : ∀ (ns : List ℕ), (∀ k ∈ ns, k < c.n) → ∃ s, run c (Spin.start c) (ns.map Int.ofNat) = some s ∧
      (ns = [] ∧ s.night = -1 ∨ ∃ k, ns.getLast? = some k ∧ s.night = k ∧ s.fields = turned c k 0) := by
    intro ns
    induction ns using List.reverseRecOn with
    | nil => intro _; exact ⟨_, rfl, Or.inl ⟨rfl, rfl⟩⟩
    | append_singleton ns n ih =>
      intro h
      obtain ⟨s, hs, hinv⟩ := ih (fun k hk => h k (List.mem_append_left _ hk))
      have hn : n < c.n := h n (List.mem_append_right _ (List.mem_singleton.2 rfl))
      rw [List.map_append, run_append, hs]
      simp only [Option.bind_some, List.map_cons, List.map_nil, run, step, hd]
      by_cases he : (Int.ofNat n) = s.night
      · refine ⟨s, by unfold byNight; rw [if_pos he]; rfl, Or.inr ⟨n, by simp, he.symm, ?_⟩⟩
        rcases hinv with ⟨_, h1⟩ | ⟨k, h1, h2, h3⟩
        · rw [h1] at he
          exact absurd he (by simp)
        · rw [h2] at he
          have : n = k := by simpa using he
          rw [h3, this]
      · refine ⟨_, by unfold byNight; rw [if_neg he, show Int.ofNat n = (n : ℤ) from rfl, index_nat hn]; rfl, Or.inr ⟨n, by simp, rfl, rfl⟩⟩
  obtain ⟨s, hs, h1 | ⟨k, h1, h2, h3⟩⟩ := key _ h
  · exact absurd h1.1 (by simp)
  · have : n = k := by simpa using h1
    exact ⟨s, hs, by rw [h3, this]; rfl⟩

theorem le_getLast {l : List ℕ} (h : l.Pairwise (· ≤ ·)) {m : ℕ} (hm : l.getLast? = some m) : ∀ k ∈ l, k ≤ m := by
  obtain ⟨ys, rfl⟩ := List.getLast?_eq_some_iff.1 hm
  intro k hk
  rcases List.mem_append.1 hk with hk | hk
  · exact (List.pairwise_append.1 h).2.2 k hk m (List.mem_singleton.2 rfl)
  · rw [List.mem_singleton.1 hk]

/-- C147. With a turn per call, the fields are turned by the turn of the night and of the number of calls before on that night. Nights do not go back. -/
theorem C147_call_partial (c : Spin.Cfg) (hd : c.dither = .call) (ns : List ℕ) (n : ℕ) (h : ∀ k ∈ ns ++ [n], k < c.n) (hs : (ns ++ [n]).Pairwise (· ≤ ·))
    (hc : ∀ k, (ns ++ [n]).count k ≤ c.n) :
    ∃ s, run c (Spin.start c) ((ns ++ [n]).map Int.ofNat) = some s ∧ s.fields = c.init.map (spin (c.turn n (ns.count n))) := by
  have key : ∀ (ns : List ℕ), (∀ k ∈ ns, k < c.n) → ns.Pairwise (· ≤ ·) → (∀ k, ns.count k ≤ c.n) → ∃ s, run c (Spin.start c) (ns.map Int.ofNat) = some s ∧
      (ns = [] ∧ s.callNum = 0 ∨ ∃ m, ns.getLast? = some m ∧ s.currentNight = m ∧ s.callNum = ns.count m ∧ s.fields = turned c m (ns.dropLast.count m)) := by
    intro ns
    induction ns using List.reverseRecOn with
    | nil => intro _ _ _; exact ⟨_, rfl, Or.inl ⟨rfl, rfl⟩⟩
    | append_singleton ns n ih =>
      intro h hs hc
      rw [List.pairwise_append] at hs
      obtain ⟨s, hr, hinv⟩ := ih (fun k hk => h k (List.mem_append_left _ hk)) hs.1 (fun k => le_trans (by rw [List.count_append]; omega) (hc k))
      have hn : n < c.n := h n (List.mem_append_right _ (List.mem_singleton.2 rfl))
      rw [List.map_append, run_append, hr]
      simp only [Option.bind_some, List.map_cons, List.map_nil, run, step, hd]
      have hk : (if (Int.ofNat n) = s.currentNight then s.callNum else 0) = ns.count n := by
        rcases hinv with ⟨rfl, h0⟩ | ⟨m, h1, h2, h3, _⟩
        · rw [h0]
          simp
        · split_ifs with he
          · rw [h2] at he
            have : n = m := by simpa using he
            rw [h3, this]
          · symm
            rw [List.count_eq_zero]
            intro hmem
            have l1 := le_getLast hs.1 h1 n hmem
            have l2 := hs.2.2 m (List.mem_of_getLast? h1) n (List.mem_singleton.2 rfl)
            rw [h2] at he
            exact he (by rw [show n = m by omega]; rfl)
      have hcount : ns.count n < c.n := by
        have := hc n
        rw [List.count_append, List.count_singleton_self] at this
        omega
      refine ⟨_, by unfold byCall; simp only [hk]; rw [show Int.ofNat n = (n : ℤ) from rfl, index_nat hn, index_nat hcount]; rfl, Or.inr ⟨n, by simp, rfl, ?_, ?_⟩⟩
      · rw [List.count_append, List.count_singleton_self]
      · rw [List.dropLast_concat]
  obtain ⟨s, hs, h1 | ⟨k, h1, h2, h3, h4⟩⟩ := key _ h hs hc
  · exact absurd h1.1 (by simp)
  · have : n = k := by simpa using h1
    exact ⟨s, hs, by rw [h4, ← this, List.dropLast_concat]; rfl⟩

/-- C147. Without turns the fields stay, and the fields of a target of opportunity are turned by the next turn each time. -/
theorem C147_never (c : Spin.Cfg) (hd : c.dither = .never) (ns : List ℤ) (k : ℕ) :
    (run c (Spin.start c) ns).map Spin.State.fields = some c.init ∧ (k < c.n → tooFields c (k + 1) = some (c.init.map (spin (c.turn k 0)))) := by
  constructor
  · have : ∀ s, run c s ns = some s := by
      intro s
      induction ns with
      | nil => rfl
      | cons n ns ih =>
        simp only [run, step, hd, Option.bind_some]
        exact ih
    rw [this]
    rfl
  · intro h
    exact if_pos h

/-- C147 does not hold in full: from the night after the last prepared turn on (the 7305th by default) no visits are proposed but an exception is raised; on the night with
number -1 the fields are turned or not depending on earlier nights; after the last turn a new target of opportunity raises an exception. -/
theorem C147_end_violated (c : Spin.Cfg) (hd : c.dither = .night) (hn : 0 < c.n) :
    run c (Spin.start c) [(c.n : ℤ)] = none ∧ (run c (Spin.start c) [-1]).map Spin.State.fields = some c.init ∧
      (run c (Spin.start c) [0, -1]).map Spin.State.fields = some (c.init.map (spin (c.turn (c.n - 1) 0))) ∧ tooFields c (c.n + 1) = none := by
  refine ⟨?_, ?_, ?_, ?_⟩
  · simp only [run, step, hd]
    unfold byNight index Spin.start
    rw [if_neg (by dsimp only; omega), if_pos (by omega), if_neg (by omega)]
    rfl
  · simp only [run, step, hd]
    unfold byNight Spin.start
    rw [if_pos rfl]
    rfl
  · simp only [run, step, hd]
    unfold byNight index Spin.start
    rw [if_neg (by dsimp only; omega), if_pos (by omega), if_pos (by omega)]
    simp only [Option.map_some, Option.bind_some]
    rw [if_neg (by decide), if_neg (by omega), if_pos (by omega)]
    simp only [Option.map_some, Option.bind_some, turned]
    rw [show (-1 + (c.n : ℤ)).toNat = c.n - 1 by omega]
  · exact if_neg (lt_irrefl _)

/-- The hypotheses can be met: seven thousand positions, three nights, two calls on the last. -/
example : ∃ c : Spin.Cfg, c.dither = .call ∧ (∀ k ∈ [1, 2, 3] ++ [3], k < c.n) ∧ ([1, 2, 3] ++ [3]).Pairwise (· ≤ ·) ∧ ∀ k, ([1, 2, 3] ++ [3]).count k ≤ c.n :=
  ⟨⟨[(0, 0), (1, 0)], .call, 7305, fun i j => ⟨i, j, 0⟩⟩, rfl, by decide, by decide, fun k => le_trans List.count_le_length (by decide)⟩

end Verif
