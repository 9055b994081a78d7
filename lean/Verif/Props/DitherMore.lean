import Verif.Props.Dither
import Verif.Lemmas.Angles
import Verif.Props.DetailersFill
import Verif.Props.AltAz

/-! C127: the dithers of the Euclid fields. C128: dithers by given shifts. C129: the grid of ComCam. -/

namespace Verif

open Sph Real Dith

/-! ### C128 -/

/-- Bringing a position into range does not change the direction. -/
theorem wrapRaDec_lat (ra : ℝ) {dec : ℝ} (h : IsLat dec) :
    (Ang.wrapRaDec (2 * π) ra dec).2 = dec ∧ xyz (Ang.wrapRaDec (2 * π) ra dec).1 (Ang.wrapRaDec (2 * π) ra dec).2 = xyz ra dec ∧
    0 ≤ (Ang.wrapRaDec (2 * π) ra dec).1 ∧ (Ang.wrapRaDec (2 * π) ra dec).1 < 2 * π := by
  have p := Real.pi_pos
  have e : Ang.wrapRaDec (2 * π) ra dec = (Ang.md (2 * π) ra, dec) := by
    unfold Ang.wrapRaDec
    have h1 : ¬ dec < -(2 * π / 2) / 2 := by have := h.1; intro h; linarith
    have h2 : ¬ 2 * π / 2 / 2 < dec := by have := h.2; intro h; linarith
    dsimp only
    rw [if_neg h1]
    dsimp only
    rw [if_neg h2]
  have hs : SameTurn (Ang.md (2 * π) ra) ra := ⟨-⌊ra / (2 * π)⌋, by unfold Ang.md; push_cast; ring⟩
  rw [e]
  refine ⟨rfl, ?_, Ang.md_nonneg (by linarith) ra, Ang.md_lt (by linarith) ra⟩
  unfold xyz
  dsimp only
  rw [hs.cos, hs.sin]

/-- C128: the new position lies, seen from the old one, as the shifts say: the direction that has the shift in right ascension as longitude and
the shift in declination as latitude when the old position is put on the equator at longitude zero, north up. It is in range. -/
theorem C128_frame (dra ddec ra dec : ℝ) :
    let p := shifted dra ddec ra dec
    dot (xyz p.1 p.2) (xyz ra dec) = (xyz dra ddec).x ∧ dot (xyz p.1 p.2) (eastAt ra) = (xyz dra ddec).y ∧
    dot (xyz p.1 p.2) (northAt ra dec) = (xyz dra ddec).z ∧ 0 ≤ p.1 ∧ p.1 < 2 * π ∧ IsLat p.2 := by
  intro p
  have s1 : sin (ddec + π / 2) = cos ddec := Real.sin_add_pi_div_two _
  have s2 : cos (ddec + π / 2) = -sin ddec := Real.cos_add_pi_div_two _
  have s3 : sin (dra + π / 2) = cos dra := Real.sin_add_pi_div_two _
  have s4 : cos (dra + π / 2) = -sin dra := Real.cos_add_pi_div_two _
  set X := cos ddec * -sin dra with hX
  set Y := cos ddec * cos dra * cos dec - sin ddec * sin dec with hY
  set Z := cos ddec * cos dra * sin dec + sin ddec * cos dec with hZ
  have d1 := Real.cos_sq_add_sin_sq ddec
  have d2 := Real.cos_sq_add_sin_sq dra
  have d3 := Real.cos_sq_add_sin_sq dec
  have hone : X ^ 2 + Y ^ 2 = 1 - Z ^ 2 := by
    rw [hX, hY, hZ]
    linear_combination (cos ddec ^ 2 * cos dra ^ 2 + sin ddec ^ 2) * d3 + cos ddec ^ 2 * d2 + d1
  have z1 : -1 ≤ Z := by nlinarith [sq_nonneg X, sq_nonneg Y]
  have z2 : Z ≤ 1 := by nlinarith [sq_nonneg X, sq_nonneg Y]
  have hphi : arccos (-Z) - π / 2 = arcsin Z := by
    rw [Real.arccos_neg, Real.arccos_eq_pi_div_two_sub_arcsin]; ring
  have hp : p = Ang.wrapRaDec (2 * π) (atan2 Y X - π / 2 + ra) (arcsin Z) := by
    show shifted dra ddec ra dec = _
    unfold shifted thetaphi2xyz rotx xyz2thetaphi
    dsimp only
    rw [s1, s2, s3, s4, ← hphi]
    have a : cos ddec * cos dra * cos dec + -sin ddec * sin dec = Y := by rw [hY]; ring
    have b : -(cos ddec * cos dra) * sin dec + -sin ddec * cos dec = -Z := by rw [hZ]; ring
    rw [a, b]
  obtain ⟨w1, w2, w3, w4⟩ := wrapRaDec_lat (atan2 Y X - π / 2 + ra) (isLat_arcsin Z)
  rw [← hp] at w1 w2 w3 w4
  refine ⟨?_, ?_, ?_, w3, w4, by rw [w1]; exact isLat_arcsin Z⟩
  all_goals rw [w2]
  all_goals
    have hsin : sin (arcsin Z) = Z := Real.sin_arcsin z1 z2
    have hcos : cos (arcsin Z) = √(X ^ 2 + Y ^ 2) := by rw [Real.cos_arcsin, hone]
    have q1 := atan2_cos Y X
    have q2 := atan2_sin Y X
    rw [← hcos] at q1 q2
    obtain ⟨g1, g2, g3⟩ := sky_dots (atan2 Y X - π / 2 + ra) (arcsin Z) ra dec
    rw [show atan2 Y X - π / 2 + ra - ra = atan2 Y X - π / 2 by ring] at g1 g2 g3
    rw [Real.cos_sub_pi_div_two] at g1 g3
    rw [Real.sin_sub_pi_div_two] at g2
  · rw [g1, hsin]
    show _ = cos dra * cos ddec
    linear_combination cos dec * q2 + cos dec * hY + sin dec * hZ + cos ddec * cos dra * d3
  · rw [g2]
    show _ = sin dra * cos ddec
    linear_combination (-1) * q1 - hX
  · rw [g3, hsin]
    show _ = sin ddec
    linear_combination (-sin dec) * q2 - sin dec * hY + cos dec * hZ + sin ddec * d3

/-- C128: every visit is taken at every shift, visit by visit and in the order of the shifts; nothing but position and wanted sky angle is changed, and the
sky angle by the shift given. -/
theorem C128_expand (deltas : List (ℝ × ℝ)) (rots : Option (List ℝ)) (os r : List Dith.Visit) (h : deltaCall deltas rots os = some r) :
    r.length = os.length * deltas.length ∧
    ∀ i j o d, os[i]? = some o → deltas[j]? = some d → ∃ o', r[i * deltas.length + j]? = some o' ∧
      (o'.ra, o'.dec) = shifted d.1 d.2 o.ra o.dec ∧
      (rots = none → o'.rotSkyDesired = o.rotSkyDesired) ∧
      (∀ l x, rots = some l → l[j]? = some x → o'.rotSkyDesired = o.rotSkyDesired + x) ∧
      o' = { o with ra := o'.ra, dec := o'.dec, rotSkyDesired := o'.rotSkyDesired } := by
  unfold deltaCall at h
  split at h
  · cases h
  cases h
  clear * -
  induction os with
  | nil => simp
  | cons o os ih =>
    rw [List.flatMap_cons]
    constructor
    · rw [List.length_append, List.length_map, List.length_zipIdx, ih.1, List.length_cons]; ring
    · intro i j o1 d hi hj
      have hjl : j < deltas.length := (List.getElem?_eq_some_iff.1 hj).1
      cases i with
      | zero =>
        simp only [List.getElem?_cons_zero, Option.some.injEq] at hi
        subst hi
        rw [Nat.zero_mul, Nat.zero_add, List.getElem?_append_left (by simpa using hjl), List.getElem?_map, List.getElem?_zipIdx, hj]
        refine ⟨_, rfl, rfl, fun hr => by rw [hr], fun l x hl hx => ?_, rfl⟩
        subst hl
        dsimp only
        rw [List.getD_eq_getElem?_getD, Nat.zero_add, hx]
        rfl
      | succ i =>
        rw [List.getElem?_cons_succ] at hi
        obtain ⟨o', h1, h2⟩ := ih.2 i j o1 d hi hj
        refine ⟨o', ?_, h2⟩
        rw [List.getElem?_append_right (by rw [List.length_map, List.length_zipIdx]; nlinarith), List.length_map, List.length_zipIdx]
        rw [← h1]
        congr 1
        have : (i + 1) * deltas.length = i * deltas.length + deltas.length := by ring
        omega

/-- C128 is violated for an empty list of visits: the call raises. -/
theorem C128_empty_violated (deltas : List (ℝ × ℝ)) (rots : Option (List ℝ)) : deltaCall deltas rots [] = none := rfl

/-- Ten degrees north of the equator: a visit there is moved by exactly that. -/
example : let p := shifted 0 (π / 18) 0 0
    dot (xyz p.1 p.2) (xyz 0 0) = cos (π / 18) ∧ dot (xyz p.1 p.2) (northAt 0 0) = sin (π / 18) := by
  intro p
  obtain ⟨h1, _, h3, _⟩ := C128_frame 0 (π / 18) 0 0
  exact ⟨h1.trans (by simp [xyz]), h3⟩

/-! ### C127 -/

/-- What can happen to the dither of the Euclid fields. -/
inductive EucEv where
  | ask (os : List Dith.Visit) (night : ℤ)
  | told (v : Feat.Vis)
  | toldAll (vs : List Feat.Vis)

noncomputable def eucStep (c : Euclid) (s : EState) : EucEv → EState
  | .ask os night => (euclidCall c s os night).1
  | .told v => { s with count := s.count.one ⟨none, none, true⟩ v }
  | .toldAll vs => { s with count := s.count.bulk ⟨none, none, true⟩ vs }

noncomputable def eucRun (c : Euclid) (es : List EucEv) : EState := es.foldl (eucStep c) EState.init

theorem euclid_state (c : Euclid) (s : EState) (os : List Dith.Visit) (night : ℤ) :
    (euclidCall c s os night).1 = s ∨ (euclidCall c s os night).1 = (euclidGenerate c s os.length night).1 := by
  unfold euclidCall
  split
  · exact Or.inl rfl
  · dsimp only
    split
    · exact Or.inr rfl
    · split
      · split <;> exact Or.inr rfl
      · split <;> exact Or.inr rfl

theorem eucRun_inv (c : Euclid) (es : List EucEv) : ∀ n, (eucRun c es).night = some n → (eucRun c es).mags = euclidDraws c n := by
  induction es using List.reverseRecOn with
  | nil => intro n h; cases h
  | append_singleton es e ih =>
    unfold eucRun at ih ⊢
    rw [List.foldl_append]
    cases e with
    | ask os night =>
      simp only [List.foldl_cons, List.foldl_nil, eucStep]
      rcases euclid_state c (List.foldl (eucStep c) EState.init es) os night with h | h
      · rw [h]; exact ih
      · rw [h]
        unfold euclidGenerate
        dsimp only
        split
        · exact ih
        · intro n hn; cases hn; rfl
    | told v => exact ih
    | toldAll vs => exact ih

theorem euclidGenerate_mags (c : Euclid) (es : List EucEv) (n : ℕ) (night : ℤ) :
    (euclidGenerate c (eucRun c es) n night).2 =
      (List.zipWith (movedField c.raA c.decA (bearing c.raA c.decA c.raB c.decB))
        (pick c (eucRun c es).count.count n (euclidDraws c night).dir1) (pick c (eucRun c es).count.count n (euclidDraws c night).perp1),
       List.zipWith (movedField c.raB c.decB (bearing c.raB c.decB c.raA c.decA))
        (pick c (eucRun c es).count.count n (euclidDraws c night).dir2) (pick c (eucRun c es).count.count n (euclidDraws c night).perp2)) := by
  unfold euclidGenerate
  dsimp only
  by_cases h : (eucRun c es).night = some night
  · rw [if_pos h, eucRun_inv c es night h]
  · rw [if_neg h]

/-- A number between two bounds is no larger than the larger of them. -/
theorem between_abs {lo hi x : ℝ} (h1 : lo ≤ x) (h2 : x ≤ hi) : |x| ≤ max |lo| |hi| := by
  rw [abs_le]
  constructor
  · have := neg_abs_le lo; have := le_max_left |lo| |hi|; linarith
  · have := le_abs_self hi; have := le_max_right |lo| |hi|; linarith

theorem uniform_mem {u : ℕ → ℝ} (hu : ∀ k, 0 ≤ u k ∧ u k ≤ 1) {lo hi : ℝ} (hl : lo ≤ hi) {k n : ℕ} {x : ℝ} (h : x ∈ uniform u lo hi k n) :
    lo ≤ x ∧ x ≤ hi := by
  unfold uniform at h
  rw [List.mem_map] at h
  obtain ⟨i, _, rfl⟩ := h
  obtain ⟨h0, h1⟩ := hu (k + i)
  constructor <;> nlinarith

theorem pick_mem {c : Euclid} {k n : ℕ} {l : List ℝ} {x : ℝ} (h : x ∈ pick c k n l) : x ∈ l := by
  unfold pick at h
  split at h
  · exact h
  · exact List.mem_of_mem_drop (List.mem_of_mem_take h)

/-- The settings make sense: shifts in order and no more than half a turn, fields on the sky, numbers from 0 to 1. -/
structure EuclidOk (c : Euclid) : Prop where
  dir : c.dirLo ≤ c.dirHi
  perp : c.perpLo ≤ c.perpHi
  small1 : max |c.dirLo| |c.dirHi| ≤ π
  small2 : max |c.perpLo| |c.perpHi| ≤ π
  latA : IsLat c.decA
  latB : IsLat c.decB
  unit : Uni01 c.rng

theorem movedField_near {ra dec bear d p : ℝ} (h : IsLat dec) (hd : |d| ≤ π) (hp : |p| ≤ π) :
    sep ra dec (movedField ra dec bear d p).1 (movedField ra dec bear d p).2 ≤ |d| + |p| ∧ IsLat (movedField ra dec bear d p).2 := by
  obtain ⟨a1, a2⟩ := C123_far_as_asked d bear dec ra h.cos_nonneg hd
  obtain ⟨b1, b2⟩ := C123_far_as_asked p (bear + π / 2) (dest d bear dec ra).1 (dest d bear dec ra).2 a2.cos_nonneg hp
  have t := C121_triangle ra dec (dest d bear dec ra).2 (dest d bear dec ra).1
    (movedField ra dec bear d p).1 (movedField ra dec bear d p).2
  rw [a1] at t
  change _ ≤ _ + sep _ _ (dest p (bear + π / 2) (dest d bear dec ra).1 (dest d bear dec ra).2).2 _ at t
  refine ⟨?_, b2⟩
  calc _ ≤ _ := t
    _ = |d| + |p| := by rw [← b1]; rfl

theorem zipWith_mem {α β γ : Type} {f : α → β → γ} {l : List α} {m : List β} {x : γ} (h : x ∈ List.zipWith f l m) :
    ∃ a ∈ l, ∃ b ∈ m, x = f a b := by
  rw [List.mem_iff_getElem?] at h
  obtain ⟨i, hi⟩ := h
  rw [List.getElem?_zipWith] at hi
  cases ha : l[i]? with
  | none => rw [ha] at hi; cases hi
  | some a =>
    cases hb : m[i]? with
    | none => rw [ha, hb] at hi; cases hi
    | some b =>
      rw [ha, hb] at hi
      cases hi
      exact ⟨a, List.mem_of_getElem? ha, b, List.mem_of_getElem? hb, rfl⟩

/-- C127: visits of the two fields are placed no further from their field than the largest shifts along and across, whatever happened before; only
their positions are changed. -/
theorem C127_within (c : Euclid) (hc : EuclidOk c) (es : List EucEv) (os r : List Dith.Visit) (night : ℤ)
    (h : (euclidCall c (eucRun c es) os night).2 = some r) :
    List.Forall₂ (fun o o' =>
      (Feat.isIn "EDFS_b" o.note = true →
        sep c.raB c.decB o'.ra o'.dec ≤ max |c.dirLo| |c.dirHi| + max |c.perpLo| |c.perpHi|) ∧
      (Feat.isIn "EDFS_a" o.note = true → Feat.isIn "EDFS_b" o.note = false →
        sep c.raA c.decA o'.ra o'.dec ≤ max |c.dirLo| |c.dirHi| + max |c.perpLo| |c.perpHi|) ∧
      (Feat.isIn "EDFS_a" o.note = true ∨ Feat.isIn "EDFS_b" o.note = true) ∧
      o' = { o with ra := o'.ra, dec := o'.dec }) os r := by
  have hg := euclidGenerate_mags c es os.length night
  have hA : ∀ a ∈ (euclidGenerate c (eucRun c es) os.length night).2.1,
      sep c.raA c.decA a.1 a.2 ≤ max |c.dirLo| |c.dirHi| + max |c.perpLo| |c.perpHi| := by
    intro a ha
    rw [hg] at ha
    obtain ⟨d, hd, p, hp, rfl⟩ := zipWith_mem ha
    obtain ⟨d1, d2⟩ := uniform_mem (hc.unit _) hc.dir (pick_mem hd)
    obtain ⟨p1, p2⟩ := uniform_mem (hc.unit _) hc.perp (pick_mem hp)
    have := (movedField_near (ra := c.raA) (bear := bearing c.raA c.decA c.raB c.decB) hc.latA
      (le_trans (between_abs d1 d2) hc.small1) (le_trans (between_abs p1 p2) hc.small2)).1
    exact le_trans this (add_le_add (between_abs d1 d2) (between_abs p1 p2))
  have hB : ∀ a ∈ (euclidGenerate c (eucRun c es) os.length night).2.2,
      sep c.raB c.decB a.1 a.2 ≤ max |c.dirLo| |c.dirHi| + max |c.perpLo| |c.perpHi| := by
    intro a ha
    rw [hg] at ha
    obtain ⟨d, hd, p, hp, rfl⟩ := zipWith_mem ha
    obtain ⟨d1, d2⟩ := uniform_mem (hc.unit _) hc.dir (pick_mem hd)
    obtain ⟨p1, p2⟩ := uniform_mem (hc.unit _) hc.perp (pick_mem hp)
    have := (movedField_near (ra := c.raB) (bear := bearing c.raB c.decB c.raA c.decA) hc.latB
      (le_trans (between_abs d1 d2) hc.small1) (le_trans (between_abs p1 p2) hc.small2)).1
    exact le_trans this (add_le_add (between_abs d1 d2) (between_abs p1 p2))
  -- one visit
  have key : ∀ o a b, (Feat.isIn "EDFS_a" o.note = true ∨ Feat.isIn "EDFS_b" o.note = true) →
      sep c.raA c.decA a.1 a.2 ≤ max |c.dirLo| |c.dirHi| + max |c.perpLo| |c.perpHi| →
      sep c.raB c.decB b.1 b.2 ≤ max |c.dirLo| |c.dirHi| + max |c.perpLo| |c.perpHi| →
      (Feat.isIn "EDFS_b" o.note = true →
        sep c.raB c.decB (placed o a b).ra (placed o a b).dec ≤ max |c.dirLo| |c.dirHi| + max |c.perpLo| |c.perpHi|) ∧
      (Feat.isIn "EDFS_a" o.note = true → Feat.isIn "EDFS_b" o.note = false →
        sep c.raA c.decA (placed o a b).ra (placed o a b).dec ≤ max |c.dirLo| |c.dirHi| + max |c.perpLo| |c.perpHi|) ∧
      (Feat.isIn "EDFS_a" o.note = true ∨ Feat.isIn "EDFS_b" o.note = true) ∧
      placed o a b = { o with ra := (placed o a b).ra, dec := (placed o a b).dec } := by
    intro o a b ho ha hb
    unfold placed
    refine ⟨fun h1 => ?_, fun h1 h2 => ?_, ho, ?_⟩
    · rw [if_pos h1]; exact hb
    · rw [if_neg (by rw [h2]; simp), if_pos h1]; exact ha
    · split
      · rfl
      · split <;> rfl
  unfold euclidCall at h
  split at h
  · rename_i he
    rw [List.isEmpty_iff] at he
    cases h
    rw [he]
    exact List.Forall₂.nil
  · dsimp only at h
    split at h
    · cases h
    · rename_i hany
      have hall : ∀ o ∈ os, Feat.isIn "EDFS_a" o.note = true ∨ Feat.isIn "EDFS_b" o.note = true := by
        intro o ho
        rw [List.any_eq_true] at hany
        push Not at hany
        have := hany o ho
        revert this
        cases Feat.isIn "EDFS_a" o.note <;> cases Feat.isIn "EDFS_b" o.note <;> simp
      generalize euclidGenerate c (eucRun c es) os.length night = gen at *
      obtain ⟨s', as, bs⟩ := gen
      dsimp only at *
      split at h
      · split at h
        · cases h
          rename_i a b
          rw [List.forall₂_map_right_iff]
          exact List.forall₂_same.2 (fun o ho => key o _ _ (hall o ho) (hA _ (by simp)) (hB _ (by simp)))
        · cases h
      · split at h
        · rename_i hl
          cases h
          refine forall₂_zipWith (by rw [List.length_zip, hl.1, hl.2, min_self]) (fun o ho ab hab => ?_)
          have := List.of_mem_zip (a := ab.1) (b := ab.2) hab
          exact key o _ _ (hall o ho) (hA _ this.1) (hB _ this.2)
        · cases h

/-- C127: with one shift per night, every visit to a field is at the same place all night, whatever happened before. -/
theorem C127_one_per_night (c : Euclid) (hp : c.perNight = true) :
    ∃ a b : ℤ → ℝ × ℝ, ∀ es os night,
      (∀ o ∈ os, Feat.isIn "EDFS_a" o.note = true ∨ Feat.isIn "EDFS_b" o.note = true) →
      ∃ r, (euclidCall c (eucRun c es) os night).2 = some r ∧ List.Forall₂ (fun o o' =>
        (Feat.isIn "EDFS_b" o.note = true → (o'.ra, o'.dec) = b night) ∧
        (Feat.isIn "EDFS_a" o.note = true → Feat.isIn "EDFS_b" o.note = false → (o'.ra, o'.dec) = a night)) os r := by
  refine ⟨fun night => movedField c.raA c.decA (bearing c.raA c.decA c.raB c.decB)
      (c.dirLo + (c.dirHi - c.dirLo) * c.rng night.natAbs 0) (c.perpLo + (c.perpHi - c.perpLo) * c.rng night.natAbs 1),
    fun night => movedField c.raB c.decB (bearing c.raB c.decB c.raA c.decA)
      (c.dirLo + (c.dirHi - c.dirLo) * c.rng night.natAbs 2) (c.perpLo + (c.perpHi - c.perpLo) * c.rng night.natAbs 3),
    fun es os night hall => ?_⟩
  have hg := euclidGenerate_mags c es os.length night
  simp only [pick, hp, if_true, euclidDraws, uniform, List.range_one, List.map_cons, List.map_nil, List.zipWith_cons_cons,
    List.zipWith_nil_right, Nat.zero_add, Nat.add_zero, Nat.mul_one] at hg
  unfold euclidCall
  split
  · rename_i he
    rw [List.isEmpty_iff] at he
    rw [he]
    exact ⟨[], rfl, List.Forall₂.nil⟩
  · have hany : os.any (fun o => !(Feat.isIn "EDFS_a" o.note) && !(Feat.isIn "EDFS_b" o.note)) = false := by
      rw [List.any_eq_false]
      intro o ho
      rcases hall o ho with h | h <;> simp [h]
    generalize euclidGenerate c (eucRun c es) os.length night = gen at *
    obtain ⟨s', as, bs⟩ := gen
    dsimp only at *
    obtain ⟨rfl, rfl⟩ := Prod.mk.inj hg
    rw [hany, if_neg (by simp)]
    refine ⟨_, rfl, ?_⟩
    rw [List.forall₂_map_right_iff]
    refine List.forall₂_same.2 (fun o _ => ⟨fun h1 => ?_, fun h1 h2 => ?_⟩)
    · unfold placed; rw [if_pos h1]
    · unfold placed; rw [if_neg (by rw [h2]; simp), if_pos h1]

/-- C127: a visit to neither field raises. -/
theorem C127_foreign (c : Euclid) (s : EState) (os : List Dith.Visit) (night : ℤ) {o : Dith.Visit} (ho : o ∈ os)
    (ha : Feat.isIn "EDFS_a" o.note = false) (hb : Feat.isIn "EDFS_b" o.note = false) : (euclidCall c s os night).2 = none := by
  unfold euclidCall
  have he : os.isEmpty = false := by cases os <;> simp_all
  have hany : os.any (fun o => !(Feat.isIn "EDFS_a" o.note) && !(Feat.isIn "EDFS_b" o.note)) = true := by
    rw [List.any_eq_true]
    exact ⟨o, ho, by simp [ha, hb]⟩
  rw [he, if_neg (by simp)]
  dsimp only
  rw [hany, if_pos rfl]

/-- C127 is violated for the first call of a night with a shift per visit, as C126 is: the counter is that of the night before. -/
theorem C127_new_night_violated (u : ℕ → ℕ → ℝ) (o : Dith.Visit) (ho : o.note = "DD:EDFS_a") :
    let c : Euclid := ⟨0, 1, 0, 1, false, 3, 0, 0, 1, 0, u⟩
    let told := [EucEv.told (vis 1 0 1 "r" "" []), .told (vis 2 0 1 "r" "" []), .told (vis 3 0 1 "r" "" [])]
    (euclidCall c (eucRun c told) [o, o] 2).2 = none ∧ (euclidCall c (eucRun c []) [o, o] 2).2 ≠ none := by
  have h1 : Feat.isIn "EDFS_a" "DD:EDFS_a" = true := by decide +kernel
  constructor
  · simp [euclidCall, eucRun, eucStep, euclidGenerate, euclidDraws, uniform, pick, slice, EState.init, Feat.NObsCount.one,
      Feat.NObsCount.init, vis, Feat.NObsCount.bandOne, Feat.NObsCount.noteOk, List.range_succ, ho, h1]
  · simp [euclidCall, eucRun, euclidGenerate, euclidDraws, uniform, pick, slice, EState.init, Feat.NObsCount.init,
      List.range_succ, ho, h1]

/-- Settings like the default ones. -/
example : EuclidOk ⟨-(1 / 100), 1 / 50, -(1 / 100), 1 / 100, true, 1200, 1, -(1 / 2), 1.1, -(1 / 2), fun _ _ => 1 / 2⟩ ∧
    Feat.isIn "EDFS_b" "DD:EDFS_b" = true := by
  have p2 : (2 : ℝ) ≤ π := Real.two_le_pi
  refine ⟨⟨by norm_num, by norm_num, ?_, ?_, ?_, ?_, fun _ _ => ⟨by norm_num, by norm_num⟩⟩, by decide +kernel⟩
  · rw [max_le_iff]; constructor <;> norm_num [abs_of_pos] <;> linarith
  · rw [max_le_iff]; constructor <;> norm_num [abs_of_pos] <;> linarith
  · constructor <;> dsimp only <;> linarith
  · constructor <;> dsimp only <;> linarith

/-! ### C129 -/

/-- The visit `i` is the `k`-th (from 0) of a run of visits in the same band. -/
def NthOfRun (bands : List String) (i k : ℕ) : Prop :=
  k ≤ i ∧ (∀ j, i - k ≤ j → j ≤ i → bands[j]? = bands[i]?) ∧ (k < i → bands[i - k - 1]? ≠ bands[i]?)

theorem mem_changes (bands : List String) {i : ℕ} (hi : i < bands.length) :
    i ∈ Det.changes bands ↔ i = 0 ∨ bands[i - 1]? ≠ bands[i]? := by
  unfold Det.changes
  rw [List.mem_cons, List.mem_map]
  constructor
  · rintro (h | ⟨a, ha, rfl⟩)
    · exact Or.inl h
    · rw [List.mem_filter, List.mem_range, decide_eq_true_eq] at ha
      right
      intro e
      apply ha.2
      rw [List.getD_eq_getElem?_getD, List.getD_eq_getElem?_getD]
      rw [Nat.add_sub_cancel] at e
      rw [e]
  · rintro (h | h)
    · exact Or.inl h
    · cases i with
      | zero => exact Or.inl rfl
      | succ i =>
        right
        refine ⟨i, ?_, rfl⟩
        rw [List.mem_filter, List.mem_range, decide_eq_true_eq]
        refine ⟨by omega, fun e => h ?_⟩
        have h1 : i < bands.length := by omega
        rw [Nat.add_sub_cancel, List.getElem?_eq_getElem hi, List.getElem?_eq_getElem h1]
        rw [List.getD_eq_getElem?_getD, List.getD_eq_getElem?_getD, List.getElem?_eq_getElem hi, List.getElem?_eq_getElem h1] at e
        exact congrArg some e

theorem nthOfRun_next {bands : List String} {i k : ℕ} (h : NthOfRun bands i k) (he : bands[i]? = bands[i + 1]?) :
    NthOfRun bands (i + 1) (k + 1) := by
  obtain ⟨h1, h2, h3⟩ := h
  refine ⟨by omega, fun j j1 j2 => ?_, fun hk => ?_⟩
  · rcases Nat.lt_or_ge i j with hj | hj
    · rw [show j = i + 1 by omega]
    · rw [h2 j (by omega) hj, he]
  · rw [← he, show i + 1 - (k + 1) - 1 = i - k - 1 by omega]
    exact h3 (by omega)

theorem nthOfRun_zero {bands : List String} {i : ℕ} (h : i = 0 ∨ bands[i - 1]? ≠ bands[i]?) : NthOfRun bands i 0 := by
  refine ⟨Nat.zero_le _, fun j j1 j2 => by rw [show j = i by omega], fun hk => ?_⟩
  rcases h with h | h
  · omega
  · exact h

/-- The counter of the detailer is the place in the run. -/
theorem sinceChange_spec (bands : List String) :
    (sinceChange bands).length = bands.length ∧ ∀ i k, (sinceChange bands)[i]? = some k → NthOfRun bands i k := by
  have key : ∀ n, n ≤ bands.length →
      let a := (List.range n).foldl (fun (a : List ℕ × ℕ) ii =>
        let k := if ii ∈ Det.changes bands then 0 else a.2
        (a.1 ++ [k], k + 1)) ([], 0)
      a.1.length = n ∧ (∀ i k, a.1[i]? = some k → NthOfRun bands i k) ∧ (0 < n → ∃ k, a.1[n - 1]? = some k ∧ a.2 = k + 1) := by
    intro n
    induction n with
    | zero => intro _; exact ⟨rfl, fun i k h => by simp at h, fun h => absurd h (lt_irrefl _)⟩
    | succ n ih =>
      intro hn a
      have ha : a = (List.range (n + 1)).foldl (fun (a : List ℕ × ℕ) ii =>
        let k := if ii ∈ Det.changes bands then 0 else a.2
        (a.1 ++ [k], k + 1)) ([], 0) := rfl
      rw [List.range_succ, List.foldl_append] at ha
      obtain ⟨h1, h2, h3⟩ := ih (by omega)
      generalize (List.range n).foldl (fun (a : List ℕ × ℕ) ii =>
        let k := if ii ∈ Det.changes bands then 0 else a.2
        (a.1 ++ [k], k + 1)) ([], 0) = b at *
      simp only [List.foldl_cons, List.foldl_nil] at ha
      set k0 := (if n ∈ Det.changes bands then 0 else b.2) with hk0
      have hrun : NthOfRun bands n k0 := by
        by_cases hc : n ∈ Det.changes bands
        · rw [hk0, if_pos hc]
          exact nthOfRun_zero ((mem_changes bands (by omega)).1 hc)
        · rw [hk0, if_neg hc]
          rw [mem_changes bands (by omega)] at hc
          push Not at hc
          obtain ⟨k, e1, e2⟩ := h3 (by omega)
          have := nthOfRun_next (h2 _ _ e1) (by rw [show n - 1 + 1 = n by omega]; exact hc.2)
          rw [show n - 1 + 1 = n by omega, ← e2] at this
          exact this
      rw [ha]
      refine ⟨by simp [h1], fun i k hi => ?_, fun _ => ⟨k0, ?_, rfl⟩⟩
      · rcases Nat.lt_or_ge i n with hlt | hge
        · rw [List.getElem?_append_left (by omega)] at hi
          exact h2 i k hi
        · rw [List.getElem?_append_right (by omega)] at hi
          have : i - b.1.length = 0 := by
            by_contra hne
            rw [List.getElem?_eq_none (by simp; omega)] at hi
            cases hi
          rw [this] at hi
          cases hi
          rw [show i = n by omega]
          exact hrun
      · dsimp only
        rw [show n + 1 - 1 = n by omega, List.getElem?_append_right (by omega), h1, Nat.sub_self]
        rfl
  obtain ⟨h1, h2, _⟩ := key bands.length (le_refl _)
  exact ⟨h1, h2⟩

/-- C129: the parallactic angle that is used is the angle, from north through east on the sky, at which the zenith lies from the position. (Not at the poles and the
zenith, where there is none.) -/
theorem C129_parallactic (ra dec lat lst : ℝ) (hd : -(π / 2) < dec ∧ dec < π / 2) (hlat : -(π / 2) < lat ∧ lat < π / 2)
    (hz : |dot (xyz ra dec) (upV lat (lst / 12 * π))| < 1) :
    ∃ r, 0 < r ∧ dot (upV lat (lst / 12 * π)) (northAt ra dec) = r * cos (paAt lat lst ra dec) ∧
      dot (upV lat (lst / 12 * π)) (eastAt ra) = r * sin (paAt lat lst ra dec) := by
  obtain ⟨h1, h2, -⟩ := C117_seen ra dec lat lst ⟨hd.1.le, hd.2.le⟩ hlat hz
  have hcd : 0 < cos dec := Real.cos_pos_of_mem_Ioo hd
  obtain ⟨k1, k2, -⟩ := C120_zenith h1 hcd
  refine ⟨cos (altAz ra dec lat lst).1, ?_, k1, k2⟩
  have hs := h1.1
  have hq := Real.cos_sq_add_sin_sq (altAz ra dec lat lst).1
  rw [hs] at hz
  have h3 : sin (altAz ra dec lat lst).1 ^ 2 < 1 := (sq_lt_one_iff_abs_lt_one _).2 hz
  have h4 : 0 ≤ cos (altAz ra dec lat lst).1 := Real.cos_nonneg_of_mem_Icc h2
  rcases h4.lt_or_eq with h | h
  · exact h
  · rw [← h] at hq
    linarith

/-- From a place on the equator at sidereal time 0, a target at right ascension 1 on the equator. -/
example : |dot (xyz 1 0) (upV 0 (0 / 12 * π))| < 1 := by
  have h : dot (xyz 1 0) (upV 0 (0 / 12 * π)) = cos 1 := by
    unfold dot xyz upV; simp
  rw [h, abs_lt]
  have h0 : 0 < cos (1 : ℝ) := Real.cos_one_pos
  refine ⟨by linarith, ?_⟩
  have := Real.cos_lt_cos_of_nonneg_of_le_pi (x := 0) (y := 1) le_rfl (by linarith [Real.two_le_pi]) one_pos
  rwa [Real.cos_zero] at this

/-- C129: all visits get the sky angle that puts the rotator of the first at the wanted angle; each is moved, in axes turned with the camera, by the
corner of the grid and the step of the pattern that belong to its place in the run of visits in its band; it is on the sky and the rotator angle is the
one that gives the sky angle there. -/
theorem C129_grid (c : ComCam) (lst : ℝ) (os : List Dith.Visit) :
    (comcamCall c lst os).length = os.length ∧
    ∀ i o, os[i]? = some o → ∃ o' k o0, (comcamCall c lst os)[i]? = some o' ∧ NthOfRun (os.map Dith.Visit.band) i k ∧
      os[0]? = some o0 ∧
      o'.rotSky = Ang.tel2sky (2 * π) .comcam c.rotTelDesired (paAt c.lat lst o0.ra o0.dec) ∧
      rotate (toXY o'.ra o'.dec o.ra o.dec).1 (toXY o'.ra o'.dec o.ra o.dec).2 o'.rotSky =
        ((grid c (k % 4)).1 + (pattern c (k / 4 % 5)).1, (grid c (k % 4)).2 + (pattern c (k / 4 % 5)).2) ∧
      0 ≤ o'.ra ∧ o'.ra < 2 * π ∧ IsLat o'.dec ∧
      Ang.tel2sky (2 * π) .comcam o'.rotTel (paAt c.lat lst o'.ra o'.dec) = o'.rotSky ∧
      o' = { o with ra := o'.ra, dec := o'.dec, rotSky := o'.rotSky, rotTel := o'.rotTel } := by
  have p := Real.pi_pos
  cases os with
  | nil => exact ⟨rfl, fun i o h => by simp at h⟩
  | cons o0 os =>
    obtain ⟨l1, l2⟩ := sinceChange_spec ((o0 :: os).map Dith.Visit.band)
    rw [List.length_map] at l1
    unfold comcamCall
    dsimp only
    set sky := Ang.tel2sky (2 * π) .comcam c.rotTelDesired (paAt c.lat lst o0.ra o0.dec) with hsky
    refine ⟨by rw [List.length_zipWith, l1, min_self], fun i o ho => ?_⟩
    have hi : i < (o0 :: os).length := (List.getElem?_eq_some_iff.1 ho).1
    obtain ⟨k, hk⟩ : ∃ k, (sinceChange ((o0 :: os).map Dith.Visit.band))[i]? = some k :=
      ⟨_, List.getElem?_eq_getElem (by rw [l1]; exact hi)⟩
    rw [List.getElem?_zipWith, ho, hk]
    refine ⟨_, k, o0, rfl, l2 i k hk, rfl, rfl, ?_, ?_, ?_, ?_, ?_, rfl⟩
    all_goals dsimp only
    all_goals
      obtain ⟨g1, g2⟩ := C124_sky (gridOffset c sky k).1 (gridOffset c sky k).2 o.ra o.dec
      obtain ⟨w1, w2, w3, w4⟩ := wrapRaDec_lat (toSky (gridOffset c sky k).1 (gridOffset c sky k).2 o.ra o.dec).1 g2
    · have hxy : ∀ v w : ℝ × ℝ, xyz v.1 v.2 = xyz w.1 w.2 → toXY v.1 v.2 o.ra o.dec = toXY w.1 w.2 o.ra o.dec := by
        intro v w e
        obtain ⟨a1, a2, a3⟩ := sky_dots v.1 v.2 o.ra o.dec
        obtain ⟨b1, b2, b3⟩ := sky_dots w.1 w.2 o.ra o.dec
        unfold toXY
        dsimp only
        rw [← a1, ← a2, ← a3, ← b1, ← b2, ← b3, e]
      rw [hxy _ _ w2, C124_back_and_there]
      dsimp only
      have hback : ∀ x y, rotate (rotate x y (-1 * sky)).1 (rotate x y (-1 * sky)).2 sky = (x, y) := by
        intro x y
        rw [(C124_rotate x y (-1 * sky) sky).2.1, show -1 * sky + sky = 0 by ring, (C124_rotate x y 0 0).2.2.1]
      have hlin : ∀ x y x' y' t, rotate (x + x') (y + y') t = ((rotate x y t).1 + (rotate x' y' t).1, (rotate x y t).2 + (rotate x' y' t).2) := by
        intro x y x' y' t
        unfold rotate
        refine Prod.ext ?_ ?_ <;> · dsimp only; ring
      unfold gridOffset
      dsimp only
      rw [hlin, hback, hback]
    · exact w3
    · exact w4
    · rw [w1]; exact g2
    · have hT : (0 : ℝ) < 2 * π := by linarith
      have h1 := Ang.tel2sky_range hT .comcam c.rotTelDesired (paAt c.lat lst o0.ra o0.dec)
      rw [← hsky] at h1
      exact Ang.same_eq hT (Ang.sky_tel_sky hT .comcam sky _) (Ang.tel2sky_range hT .comcam _ _).1 (Ang.tel2sky_range hT .comcam _ _).2 h1.1 h1.2

/-- C129: four visits in a row in one band are at the four corners, and twenty at all the corners with all the steps of the pattern. -/
theorem C129_cover (c : ComCam) (hs : 0 < c.scale) (hd : 0 < c.dither) :
    (∀ g : ℕ, g < 4 → ∀ d : ℕ, d < 5 → ∃ k, k < 20 ∧ k % 4 = g ∧ k / 4 % 5 = d) ∧
    (∀ sx sy : ℝ, (sx = 1 ∨ sx = -1) → (sy = 1 ∨ sy = -1) → ∃ g, g < 4 ∧ grid c g = (sx * c.scale, sy * c.scale)) ∧
    (∀ g g', g < 4 → g' < 4 → grid c g = grid c g' → g = g') ∧
    (∀ d d', d < 5 → d' < 5 → pattern c d = pattern c d' → d = d') ∧
    (∀ d, d < 5 → |(pattern c d).1| ≤ 3 / 2 * c.dither ∧ |(pattern c d).2| ≤ 3 / 2 * c.dither) := by
  refine ⟨fun g hg d hd => ⟨4 * d + g, by omega, by omega, by omega⟩, fun sx sy hx hy => ?_, fun g g' hg hg' h => ?_,
    fun g g' hg hg' h => ?_, fun g hg => ?_⟩
  · rcases hx with rfl | rfl <;> rcases hy with rfl | rfl
    · exact ⟨2, by norm_num, by simp [grid]⟩
    · exact ⟨3, by norm_num, by simp [grid]⟩
    · exact ⟨1, by norm_num, by simp [grid]⟩
    · exact ⟨0, by norm_num, by simp [grid]⟩
  · have n1 : -c.scale ≠ c.scale := by intro e; linarith
    have n2 : c.scale ≠ -c.scale := by intro e; linarith
    interval_cases g <;> interval_cases g' <;> simp_all [grid]
  · have h1 := congrArg Prod.fst h
    interval_cases g <;> interval_cases g' <;> first | rfl | (exfalso; simp only [pattern, List.getD_cons_zero, List.getD_cons_succ] at h1; linarith)
  · have hd' := hd.le
    interval_cases g <;> simp only [pattern, List.getD_cons_zero, List.getD_cons_succ, abs_zero, abs_mul, abs_of_pos hd] <;>
      norm_num [abs_of_pos, abs_of_neg] <;> (try constructor) <;> linarith

end Verif
