import Verif.Model.Fov
import Verif.Props.Sphere
import Mathlib.Analysis.Calculus.Deriv.MeanValue
import Mathlib.Analysis.SpecialFunctions.Trigonometric.Deriv

/-!
# Pixels near positions (C142)
-/

namespace Verif

open Real Fov Sph

theorem fov_nearest (x : ℝ) : |(nearest x : ℝ) - x| ≤ 1 / 2 := by
  have h1 := Int.floor_le x
  have h2 := Int.lt_floor_add_one x
  unfold nearest
  split_ifs with a b c
  all_goals
    rw [abs_le]
    push_cast
    constructor <;> linarith

/-! ### Lengths -/

/-- The length of a vector. -/
noncomputable def len3 (a b c : ℝ) : ℝ := √(a ^ 2 + b ^ 2 + c ^ 2)

theorem len3_sq (a b c : ℝ) : len3 a b c ^ 2 = a ^ 2 + b ^ 2 + c ^ 2 := sq_sqrt (by positivity)

theorem len3_nonneg (a b c : ℝ) : 0 ≤ len3 a b c := sqrt_nonneg _

theorem len3_add (a b c d e f : ℝ) : len3 (a + d) (b + e) (c + f) ≤ len3 a b c + len3 d e f := by
  have h1 := len3_sq a b c
  have h2 := len3_sq d e f
  have p1 := len3_nonneg a b c
  have p2 := len3_nonneg d e f
  have cs : (a * d + b * e + c * f) ^ 2 ≤ (len3 a b c * len3 d e f) ^ 2 := by
    rw [mul_pow, h1, h2]
    nlinarith [sq_nonneg (a * e - b * d), sq_nonneg (a * f - c * d), sq_nonneg (b * f - c * e)]
  have cs' : a * d + b * e + c * f ≤ len3 a b c * len3 d e f := abs_le_of_sq_le_sq' cs (mul_nonneg p1 p2) |>.2
  unfold len3
  rw [sqrt_le_left (by unfold len3 at p1 p2; linarith)]
  have : (√(a ^ 2 + b ^ 2 + c ^ 2) + √(d ^ 2 + e ^ 2 + f ^ 2)) = len3 a b c + len3 d e f := rfl
  rw [this]
  nlinarith

theorem len3_small {a b c : ℝ} (h1 : |a| ≤ 1) (h2 : |b| ≤ 1) (h3 : |c| ≤ 1) : len3 a b c ≤ √3 := by
  unfold len3
  apply sqrt_le_sqrt
  nlinarith [sq_abs a, sq_abs b, sq_abs c, abs_nonneg a, abs_nonneg b, abs_nonneg c]

theorem sqrt_three_lt : √3 ≤ (17321 : ℝ) / 10000 := by
  rw [sqrt_le_left (by norm_num)]
  norm_num

/-! ### What is found -/

theorem mem_query {tree : List Grid} {p : Grid} {r : ℤ} {i : ℕ} : i ∈ query tree p r ↔ ∃ q, tree[i]? = some q ∧ near q p r = true := by
  unfold query
  rw [List.mem_filter, List.mem_range]
  constructor
  · rintro ⟨h, h2⟩
    rw [List.getElem?_eq_getElem h] at h2 ⊢
    exact ⟨_, rfl, by simpa using h2⟩
  · rintro ⟨q, h, h2⟩
    have hl : i < tree.length := by
      by_contra hc
      rw [List.getElem?_eq_none (not_lt.1 hc)] at h
      simp at h
    exact ⟨hl, by rw [h]; simpa using h2⟩

theorem near_iff {p q : Grid} {r : ℤ} (h0 : 0 ≤ r) : near p q r = true ↔ len3 (p.x - q.x) (p.y - q.y) (p.z - q.z) ≤ r := by
  unfold near len3
  have hr : (0 : ℝ) ≤ r := by exact_mod_cast h0
  rw [sqrt_le_left hr, Bool.and_eq_true, decide_eq_true_eq, decide_eq_true_eq]
  constructor
  · rintro ⟨-, h⟩
    exact_mod_cast h
  · intro h
    exact ⟨h0, by exact_mod_cast h⟩

/-- The distance on the grid is that of the positions up to √3. -/
theorem grid_dist (s r1 d1 r2 d2 : ℝ) (hs : 0 < s) :
    |len3 ((toGrid s r1 d1).x - (toGrid s r2 d2).x) ((toGrid s r1 d1).y - (toGrid s r2 d2).y) ((toGrid s r1 d1).z - (toGrid s r2 d2).z) -
      chord (xyz r1 d1) (xyz r2 d2) * s| ≤ √3 := by
  set a := xyz r1 d1
  set b := xyz r2 d2
  have hc : chord a b * s = len3 ((a.x - b.x) * s) ((a.y - b.y) * s) ((a.z - b.z) * s) := by
    unfold chord len3
    have : ((a.x - b.x) * s) ^ 2 + ((a.y - b.y) * s) ^ 2 + ((a.z - b.z) * s) ^ 2 = ((b.x - a.x) ^ 2 + (b.y - a.y) ^ 2 + (b.z - a.z) ^ 2) * s ^ 2 := by ring
    rw [this, sqrt_mul (by positivity), sqrt_sq hs.le]
  have near1 : ∀ u v : ℝ, |((nearest (u * s) : ℝ) - nearest (v * s)) - (u - v) * s| ≤ 1 := by
    intro u v
    have h1 := abs_le.1 (fov_nearest (u * s))
    have h2 := abs_le.1 (fov_nearest (v * s))
    rw [abs_le]
    constructor <;> linarith [h1.1, h1.2, h2.1, h2.2]
  have hx := near1 a.x b.x
  have hy := near1 a.y b.y
  have hz := near1 a.z b.z
  rw [hc]
  show |len3 ((nearest (a.x * s) : ℝ) - nearest (b.x * s)) ((nearest (a.y * s) : ℝ) - nearest (b.y * s)) ((nearest (a.z * s) : ℝ) - nearest (b.z * s)) - _| ≤ √3
  set X : ℝ := (nearest (a.x * s) : ℝ) - nearest (b.x * s)
  set Y : ℝ := (nearest (a.y * s) : ℝ) - nearest (b.y * s)
  set Z : ℝ := (nearest (a.z * s) : ℝ) - nearest (b.z * s)
  have t1 := len3_add ((a.x - b.x) * s) ((a.y - b.y) * s) ((a.z - b.z) * s) (X - (a.x - b.x) * s) (Y - (a.y - b.y) * s) (Z - (a.z - b.z) * s)
  have t2 := len3_add X Y Z ((a.x - b.x) * s - X) ((a.y - b.y) * s - Y) ((a.z - b.z) * s - Z)
  have s1 := len3_small hx hy hz
  have s2 : len3 ((a.x - b.x) * s - X) ((a.y - b.y) * s - Y) ((a.z - b.z) * s - Z) ≤ √3 := by
    apply len3_small <;> rw [abs_sub_comm] <;> assumption
  simp only [add_sub_cancel] at t1 t2
  rw [abs_le]
  constructor <;> linarith

theorem radius3_half {r : ℝ} (h1 : 0 ≤ r) (h2 : r ≤ π) : radius3 r = 2 * sin (r / 2) := by
  have hs : 0 ≤ sin (r / 2) := sin_nonneg_of_nonneg_of_le_pi (by linarith) (by linarith)
  have e : radius3 r = √((2 * sin (r / 2)) ^ 2) := by
    unfold radius3 chord xyz
    congr 1
    simp only [Real.cos_zero, Real.sin_zero, mul_one]
    have h3 : cos r = 1 - 2 * sin (r / 2) ^ 2 := by
      have := cos_two_mul (r / 2)
      rw [show 2 * (r / 2) = r by ring] at this
      rw [this, cos_sq']
      ring
    have h4 := cos_sq_add_sin_sq r
    rw [h3] at h4 ⊢
    linear_combination h4
  rw [e, sqrt_sq (by linarith)]

/-- The distance between two radii is at least the cosine of half the larger times their difference. -/
theorem radius3_gap {a b : ℝ} (h0 : 0 ≤ a) (hab : a ≤ b) (hb : b ≤ π / 3) : radius3 a + (b - a) * (√3 / 2) ≤ radius3 b := by
  have hpi := pi_pos
  rw [radius3_half h0 (by linarith), radius3_half (by linarith : 0 ≤ b) (by linarith)]
  rcases hab.eq_or_lt with rfl | hlt
  · simp
  · obtain ⟨c, ⟨hc1, hc2⟩, hc⟩ := exists_hasDerivAt_eq_slope sin cos (a := a / 2) (b := b / 2) (by linarith) continuous_sin.continuousOn (fun x _ => hasDerivAt_sin x)
    have hcos : √3 / 2 ≤ cos c := by
      rw [← cos_pi_div_six]
      exact cos_le_cos_of_nonneg_of_le_pi (by linarith) (by linarith) (by linarith)
    rw [eq_div_iff (by linarith)] at hc
    nlinarith

theorem found_near {s r : ℝ} (hs : 0 < s) (hr : 3 / s ≤ r) (hr' : r + 3 / s ≤ π / 3) (r1 d1 r2 d2 : ℝ) :
    (sep r1 d1 r2 d2 ≤ r - 3 / s → near (toGrid s r1 d1) (toGrid s r2 d2) (nearest (radius3 r * s)) = true) ∧
      (near (toGrid s r1 d1) (toGrid s r2 d2) (nearest (radius3 r * s)) = true → sep r1 d1 r2 d2 ≤ r + 3 / s) := by
  have hpi := pi_pos
  have h3 : 0 < 3 / s := by positivity
  have hn := abs_le.1 (fov_nearest (radius3 r * s))
  have hrad : 0 ≤ radius3 r := sqrt_nonneg _
  have h0 : 0 ≤ nearest (radius3 r * s) := by
    have : (-1 : ℝ) < nearest (radius3 r * s) := by nlinarith [mul_nonneg hrad hs.le, hn.1]
    have : (-1 : ℤ) < nearest (radius3 r * s) := by exact_mod_cast this
    omega
  have hg := abs_le.1 (grid_dist s r1 d1 r2 d2 hs)
  have hsq : (1 : ℝ) ≤ √3 := by
    rw [← sqrt_one]
    exact sqrt_le_sqrt (by norm_num)
  have e3 : 3 / s * (√3 / 2) * s = 3 * (√3 / 2) := by field_simp
  refine ⟨fun h => ?_, fun h => ?_⟩
  · rw [near_iff h0]
    have hch := (C122_radius r1 d1 r2 d2 (r - 3 / s) (by linarith) (by linarith)).2 h
    have gap := radius3_gap (a := r - 3 / s) (b := r) (by linarith) (by linarith) (by linarith)
    have g2 : radius3 (r - 3 / s) * s + 3 * (√3 / 2) ≤ radius3 r * s := by
      have := mul_le_mul_of_nonneg_right gap hs.le
      rw [show r - (r - 3 / s) = 3 / s by ring, add_mul, e3] at this
      exact this
    have hcs := mul_le_mul_of_nonneg_right hch hs.le
    linarith [hg.1, hg.2, hn.1, hn.2]
  · rw [near_iff h0] at h
    rw [← C122_radius r1 d1 r2 d2 (r + 3 / s) (by linarith) (by linarith)]
    have gap := radius3_gap (a := r) (b := r + 3 / s) (by linarith) (by linarith) hr'
    have g2 : radius3 r * s + 3 * (√3 / 2) ≤ radius3 (r + 3 / s) * s := by
      have := mul_le_mul_of_nonneg_right gap hs.le
      rw [show r + 3 / s - r = 3 / s by ring, add_mul, e3] at this
      exact this
    have : chord (xyz r1 d1) (xyz r2 d2) * s ≤ radius3 (r + 3 / s) * s := by linarith [hg.1, hg.2, hn.1, hn.2]
    exact le_of_mul_le_mul_right this hs

theorem buildTree_get {s : ℝ} {centres : List (ℝ × ℝ)} {tree : List Grid} (h : buildTree s centres = some tree) :
    tree = centres.map fun c => toGrid s c.1 c.2 := by
  unfold buildTree at h
  split_ifs at h
  simpa using h.symm

/-- C142. The pixels of a field of view are those with their centre within its radius, up to 3 in units of the scale for rounding: with a scale of 10⁵ this is
7 seconds of arc. No pixel is listed twice. -/
theorem C142_fov (centres : List (ℝ × ℝ)) (r s : ℝ) (f : Lsst) (h : Lsst.make centres r s = some f) (hs : 0 < s) (hr : 3 / s ≤ r) (hr' : r + 3 / s ≤ π / 3)
    (ra dec : ℝ) :
    (f.one ra dec).Nodup ∧ (∀ i ∈ f.one ra dec, i < centres.length) ∧ ∀ i c, centres[i]? = some c →
      (sep c.1 c.2 ra dec ≤ r - 3 / s → i ∈ f.one ra dec) ∧ (i ∈ f.one ra dec → sep c.1 c.2 ra dec ≤ r + 3 / s) := by
  unfold Lsst.make at h
  rw [Option.map_eq_some_iff] at h
  obtain ⟨tree, ht, rfl⟩ := h
  have hget := buildTree_get ht
  refine ⟨List.nodup_range.filter _, ?_, ?_⟩
  · intro i hi
    have := (List.mem_filter.1 hi).1
    rw [List.mem_range] at this
    simpa [hget] using this
  · intro i c hc
    have hq : tree[i]? = some (toGrid s c.1 c.2) := by rw [hget, List.getElem?_map, hc]; rfl
    have hf := found_near hs hr hr' c.1 c.2 ra dec
    unfold Lsst.one
    simp only
    rw [mem_query]
    refine ⟨fun h => ⟨_, hq, hf.1 h⟩, ?_⟩
    rintro ⟨q, h1, h2⟩
    rw [hq, Option.some.injEq] at h1
    exact hf.2 (h1 ▸ h2)

/-- C142. For an array of positions the pixels are those of each position. -/
theorem C142_array_partial (f : Lsst) (ps : List (ℝ × ℝ)) (h : ps.length ≠ 1) : f.many ps = .inr (ps.map fun p => f.one p.1 p.2) := by
  unfold Lsst.many
  split
  · simp at h
  · rfl

/-- C142 does not hold in full: an array of one position gives the pixels and not an array of one list of pixels. -/
theorem C142_single_violated (f : Lsst) (p : ℝ × ℝ) : f.many [p] ≠ .inr ([p].map fun p => f.one p.1 p.2) := by
  unfold Lsst.many
  simp

theorem mapM_get {α : Type} {l : List α} : ∀ {is : List ℕ} {cs : List α}, is.mapM (fun i => l[i]?) = some cs → ∀ c, c ∈ cs ↔ ∃ i ∈ is, l[i]? = some c := by
  intro is
  induction is with
  | nil => intro cs h c; simp at h; simp [h]
  | cons i is ih =>
    intro cs h c
    rw [List.mapM_cons] at h
    simp only [Option.bind_eq_bind, Option.bind_eq_some_iff, Option.pure_def] at h
    obtain ⟨a, ha, cs', hcs', e⟩ := h
    simp only [Option.some.injEq] at e
    subst e
    rw [List.mem_cons, ih hcs']
    constructor
    · rintro (rfl | ⟨j, hj, h⟩)
      · exact ⟨i, List.mem_cons_self, ha⟩
      · exact ⟨j, List.mem_cons_of_mem _ hj, h⟩
    · rintro ⟨j, hj, h⟩
      rcases List.mem_cons.1 hj with rfl | hj
      · left; rw [ha] at h; simpa using h.symm
      · exact Or.inr ⟨j, hj, h⟩

/-- C142. A mask that is grown has the pixels with a masked pixel within the size of the growth, up to 3 in units of the scale: with a scale
of 1000 this is less than a fifth of a degree. -/
theorem C142_grow (centres : List (ℝ × ℝ)) (masked : List ℕ) (r s : ℝ) (out : List ℕ) (h : growMask centres masked r s = some out) (hs : 0 < s) (hr : 3 / s ≤ r)
    (hr' : r + 3 / s ≤ π / 3) :
    out.Nodup ∧ (∀ i ∈ out, i < centres.length) ∧ ∀ i c, centres[i]? = some c →
      ((∃ j ∈ masked, ∃ m, centres[j]? = some m ∧ sep c.1 c.2 m.1 m.2 ≤ r - 3 / s) → i ∈ out) ∧
        (i ∈ out → ∃ j ∈ masked, ∃ m, centres[j]? = some m ∧ sep c.1 c.2 m.1 m.2 ≤ r + 3 / s) := by
  have hpi := pi_pos
  have h3 : 0 < 3 / s := by positivity
  unfold growMask at h
  cases ht : buildTree s centres with
  | none => rw [ht] at h; simp at h
  | some tree =>
    rw [ht] at h
    simp only at h
    have hget := buildTree_get ht
    cases hm : masked.mapM (fun i => centres[i]?) with
    | none => rw [hm] at h; simp at h
    | some cs =>
      rw [hm] at h
      have hmem := mapM_get hm
      cases cs with
      | nil => simp at h
      | cons c0 cs0 =>
        simp only [Option.some.injEq] at h
        subst h
        refine ⟨List.nodup_range.filter _, ?_, ?_⟩
        · intro i hi
          have := (List.mem_filter.1 hi).1
          rw [List.mem_range] at this
          simpa [hget] using this
        · intro i c hc
          have hi : i < tree.length := by
            rw [hget, List.length_map]
            by_contra hc'
            rw [List.getElem?_eq_none (not_lt.1 hc')] at hc
            simp at hc
          have hq : tree[i]? = some (toGrid s c.1 c.2) := by rw [hget, List.getElem?_map, hc]; rfl
          rw [List.mem_filter, List.mem_range, List.any_eq_true, ← radius3_half (by linarith : 0 ≤ r) (by linarith)]
          constructor
          · rintro ⟨j, hj, m, hjm, hd⟩
            refine ⟨hi, m, (hmem m).2 ⟨j, hj, hjm⟩, ?_⟩
            rw [List.contains_iff_mem, mem_query]
            exact ⟨_, hq, (found_near hs hr hr' c.1 c.2 m.1 m.2).1 hd⟩
          · rintro ⟨-, m, hmm, hq'⟩
            rw [List.contains_iff_mem, mem_query] at hq'
            obtain ⟨q, e, hn⟩ := hq'
            rw [hq, Option.some.injEq] at e
            obtain ⟨j, hj, hjm⟩ := (hmem m).1 hmm
            exact ⟨j, hj, m, hjm, (found_near hs hr hr' c.1 c.2 m.1 m.2).2 (e ▸ hn)⟩

/-- C142 in part. A mask with a pixel, of numbers of pixels, is grown. Missing: an empty mask. -/
theorem C142_grows_partial (centres : List (ℝ × ℝ)) (masked : List ℕ) (r s : ℝ) (hb : ∃ t, buildTree s centres = some t) (hm : masked ≠ [])
    (hl : ∀ i ∈ masked, i < centres.length) : ∃ out, growMask centres masked r s = some out := by
  obtain ⟨t, ht⟩ := hb
  have hmap : ∀ is : List ℕ, (∀ i ∈ is, i < centres.length) → ∃ cs, is.mapM (fun i => centres[i]?) = some cs ∧ cs.length = is.length := by
    intro is
    induction is with
    | nil => intro _; exact ⟨[], by simp⟩
    | cons i is ih =>
      intro h
      obtain ⟨cs, h1, h2⟩ := ih (fun j hj => h j (List.mem_cons_of_mem _ hj))
      refine ⟨centres[i]'(h i List.mem_cons_self) :: cs, ?_, by simp [h2]⟩
      rw [List.mapM_cons, List.getElem?_eq_getElem (h i List.mem_cons_self), h1]
      rfl
  obtain ⟨cs, h1, h2⟩ := hmap masked hl
  unfold growMask
  rw [ht, h1]
  cases cs with
  | nil => exact absurd (List.length_eq_zero_iff.1 (by simpa using h2.symm)) hm
  | cons c cs => exact ⟨_, rfl⟩

/-- C142: a field of view is refused exactly without positions, or with an angle of more than two full turns. -/
theorem C142_refused (centres : List (ℝ × ℝ)) (r s : ℝ) :
    Lsst.make centres r s = none ↔ centres = [] ∨ ∃ c ∈ centres, 2 * π < |c.1| ∨ 2 * π < |c.2| := by
  unfold Lsst.make
  rw [Option.map_eq_none_iff]
  unfold buildTree
  constructor
  · intro h
    split_ifs at h with h1 h2
    · rcases h1 with ⟨c, hc, h1⟩ | ⟨c, hc, h1⟩
      · exact .inr ⟨c, hc, .inl h1⟩
      · exact .inr ⟨c, hc, .inr h1⟩
    · exact .inl (List.isEmpty_iff.1 h2)
  · rintro (rfl | ⟨c, hc, h1 | h1⟩)
    · split_ifs with h1 h2
      · rfl
      · rfl
      · exact absurd rfl h2
    · rw [if_pos (.inl ⟨c, hc, h1⟩)]
    · rw [if_pos (.inr ⟨c, hc, h1⟩)]

/-- C142 does not hold in full: a mask without a pixel raises. -/
theorem C142_empty_violated (centres : List (ℝ × ℝ)) (r s : ℝ) : growMask centres [] r s = none := by
  unfold growMask
  cases buildTree s centres <;> simp

example : (3 : ℝ) / 100000 ≤ 7 / 4 * (π / 180) ∧ 7 / 4 * (π / 180) + 3 / 100000 ≤ π / 3 ∧ (3 : ℝ) / 1000 ≤ 2 * (π / 180) ∧ 2 * (π / 180) + 3 / 1000 ≤ π / 3 := by
  have h1 := Real.two_le_pi
  refine ⟨?_, ?_, ?_, ?_⟩ <;> linarith

example : ∃ f, Lsst.make [(0, 0), (1, 0)] (7 / 4 * (π / 180)) 100000 = some f := by
  unfold Lsst.make buildTree
  have h := Real.two_le_pi
  rw [if_neg]
  · exact ⟨_, rfl⟩
  · rintro (⟨c, hc, hl⟩ | ⟨c, hc, hl⟩)
    all_goals
      simp only [List.mem_cons, List.not_mem_nil, or_false] at hc
      rcases hc with rfl | rfl <;> norm_num at hl <;> linarith

end Verif
