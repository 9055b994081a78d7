import Verif.Model.Skybright
import Verif.Lemmas.Angles
import Mathlib.Data.List.GetD
import Mathlib.Tactic.Linarith
import Mathlib.Tactic.LinearCombination
import Mathlib.Tactic.FieldSimp

/-! C115: sky brightness; C116: interpolated angles. -/

namespace Verif

open Skb Ang Bands

/-- Times that rise. -/
def Rising (ts : List ℚ) : Prop := ts.Pairwise (· < ·)

instance (ts : List ℚ) : Decidable (Rising ts) := by unfold Rising; infer_instance

/-- In a rising list, the number of entries before `t` when `t` is after entry `k - 1` and not after entry `k`. -/
theorem searchLeft_at {ts : List ℚ} (h : Rising ts) {t : ℚ} {k : ℕ} (hk : k ≤ ts.length)
    (h1 : ∀ i < k, ts.getD i 0 < t) (h2 : k < ts.length → t ≤ ts.getD k 0) : searchLeft ts t = k := by
  unfold searchLeft
  induction ts generalizing k with
  | nil => simp at hk ⊢; omega
  | cons a ts ih =>
    cases k with
    | zero =>
      have := h2 (by simp)
      simp at this
      rw [List.takeWhile_cons]
      simp [not_lt.2 this]
    | succ k =>
      have h0 := h1 0 (by omega)
      simp at h0
      rw [List.takeWhile_cons]
      simp only [h0, decide_true, if_true, List.length_cons, Nat.add_right_cancel_iff]
      exact ih (List.pairwise_cons.1 h).2 (by simpa using hk)
        (fun i hi => by have := h1 (i + 1) (by omega); simpa using this)
        (fun hk' => by have := h2 (by simpa using hk'); simpa using this)

theorem rising_lt {ts : List ℚ} (h : Rising ts) {i j : ℕ} (hij : i < j) (hj : j < ts.length) : ts.getD i 0 < ts.getD j 0 := by
  rw [List.getD_eq_getElem _ _ (by omega), List.getD_eq_getElem _ _ hj]
  exact List.pairwise_iff_getElem.1 h i j (by omega) hj hij

theorem rising_le {ts : List ℚ} (h : Rising ts) {i j : ℕ} (hij : i ≤ j) (hj : j < ts.length) : ts.getD i 0 ≤ ts.getD j 0 := by
  rcases Nat.lt_or_eq_of_le hij with h' | rfl
  · exact (rising_lt h h' hj).le
  · exact le_refl _

theorem shortDist_spec {T : ℚ} (hT : 0 < T) (a0 a1 : ℚ) :
    (∃ k : ℤ, a1 = a0 + shortDist T a0 a1 + k * T) ∧ -(T / 2) ≤ shortDist T a0 a1 ∧ shortDist T a0 a1 < T / 2 := by
  unfold shortDist
  dsimp only
  have h0 := md_nonneg hT (a1 - a0)
  have h1 := md_lt hT (a1 - a0)
  obtain ⟨k, hk⟩ := md_same T (a1 - a0)
  set d := md T (a1 - a0) with hd
  by_cases hc : 2 * d < T
  · rw [md_of_mem hT (by linarith) hc]
    refine ⟨⟨-k, ?_⟩, by linarith, by linarith⟩
    push_cast
    linarith
  · have e : md T (2 * d) = 2 * d - T := by
      rw [← md_of_mem (x := 2 * d - T) hT (by linarith) (by linarith)]
      exact md_eq_of_same hT ⟨1, by push_cast; ring⟩
    rw [e]
    refine ⟨⟨1 - k, ?_⟩, by linarith, by linarith⟩
    push_cast
    linarith

/-- C116: between two samples the interpolated angle is the first one moved towards the second along the shorter
way round, by the share of the distance between the samples that has passed; it is given between 0 and
a full turn. At a sample it is the sampled angle. -/
theorem C116_between {T : ℚ} (hT : 0 < T) (xp ang : List ℚ) (h : Rising xp) (k : ℕ) (hk : k + 1 < xp.length)
    (hk' : k + 1 < ang.length) (x : ℚ) (h1 : xp.getD k 0 < x) (h2 : x ≤ xp.getD (k + 1) 0) :
    ∃ v d : ℚ, ∃ m n : ℤ, interpAngle T xp ang x = some v ∧ 0 ≤ v ∧ v < T ∧ |d| ≤ T / 2 ∧
      ang.getD (k + 1) 0 = ang.getD k 0 + d + m * T ∧
      v = ang.getD k 0 + d * ((x - xp.getD k 0) / (xp.getD (k + 1) 0 - xp.getD k 0)) + n * T := by
  have hs : searchLeft xp x = k + 1 := searchLeft_at h (by omega)
    (fun i hi => lt_of_le_of_lt (rising_le h (by omega) (by omega)) h1) (fun _ => h2)
  have hlt := rising_lt h (Nat.lt_succ_self k) hk
  obtain ⟨⟨m, hm⟩, b1, b2⟩ := shortDist_spec hT (ang.getD k 0) (ang.getD (k + 1) 0)
  obtain ⟨n, hn⟩ := md_same T (ang.getD k 0 + shortDist T (ang.getD k 0) (ang.getD (k + 1) 0) *
    ((x - xp.getD k 0) / (xp.getD (k + 1) 0 - xp.getD k 0)))
  refine ⟨_, _, m, n, ?_, md_nonneg hT _, md_lt hT _, abs_le.2 ⟨b1, b2.le⟩, hm, hn⟩
  unfold interpAngle
  rw [hs]
  dsimp only
  have e1 : ¬ ((xp.length : ℤ) ≤ ((k + 1 : ℕ) : ℤ) - 1 + 1) := by omega
  have e2 : ¬ (((k + 1 : ℕ) : ℤ) - 1 < 0) := by omega
  rw [if_neg e1, if_neg e2]
  have t1 : (((k + 1 : ℕ) : ℤ) - 1).toNat = k := by omega
  have t2 : (((k + 1 : ℕ) : ℤ) - 1 + 1).toNat = k + 1 := by omega
  rw [t1, t2]
  have hne : ¬ (xp.getD (k + 1) 0 - xp.getD k 0 = 0) := by linarith
  rw [List.getElem?_eq_getElem (by omega : k < xp.length), List.getElem?_eq_getElem hk,
    List.getElem?_eq_getElem (by omega : k < ang.length), List.getElem?_eq_getElem hk']
  rw [List.getD_eq_getElem xp 0 (by omega : k < xp.length), List.getD_eq_getElem xp 0 hk] at hne
  dsimp only
  rw [if_neg hne, List.getD_eq_getElem xp 0 (by omega : k < xp.length), List.getD_eq_getElem xp 0 hk,
    List.getD_eq_getElem ang 0 (by omega : k < ang.length), List.getD_eq_getElem ang 0 hk']

/-- C116: before the first and after the last sample it is the nearest sampled angle. -/
theorem C116_outside {T : ℚ} (hT : 0 < T) (xp ang : List ℚ) (h : Rising xp) (hn : xp ≠ []) (hl : ang.length = xp.length) (x : ℚ) :
    (x ≤ xp.getD 0 0 → interpAngle T xp ang x = some (md T (ang.getD 0 0))) ∧
    (xp.getD (xp.length - 1) 0 < x → interpAngle T xp ang x = some (md T (ang.getD (xp.length - 1) 0))) := by
  have hpos : 0 < xp.length := List.length_pos_iff.2 hn
  constructor
  · intro hx
    have hs : searchLeft xp x = 0 := searchLeft_at h (by omega) (fun i hi => by omega) (fun _ => hx)
    unfold interpAngle
    rw [hs]
    dsimp only
    rw [if_neg (by omega : ¬ ((xp.length : ℤ) ≤ ((0 : ℕ) : ℤ) - 1 + 1)), if_pos (by omega : ((0 : ℕ) : ℤ) - 1 < 0)]
    have t1 : (((0 : ℕ) : ℤ) - 1 + 1).toNat = 0 := by omega
    rw [t1, List.getElem?_eq_getElem hpos, List.getElem?_eq_getElem (by omega : 0 < ang.length)]
    dsimp only
    rw [sub_self, if_pos rfl, mul_zero, add_zero, List.getD_eq_getElem ang 0 (by omega)]
  · intro hx
    have hs : searchLeft xp x = xp.length := searchLeft_at h (le_refl _)
      (fun i hi => lt_of_le_of_lt (rising_le h (by omega) (by omega)) hx) (fun hc => absurd hc (by omega))
    unfold interpAngle
    rw [hs]
    dsimp only
    rw [if_pos (by omega : (xp.length : ℤ) ≤ (xp.length : ℤ) - 1 + 1), if_neg (by omega : ¬ ((xp.length : ℤ) - 1 < 0))]
    have t1 : ((xp.length : ℤ) - 1 + 1 - 1).toNat = xp.length - 1 := by omega
    have t2 : ((xp.length : ℤ) - 1).toNat = xp.length - 1 := by omega
    rw [t1, t2, List.getElem?_eq_getElem (by omega : xp.length - 1 < xp.length), List.getElem?_eq_getElem (by omega : xp.length - 1 < ang.length)]
    dsimp only
    rw [sub_self, if_pos rfl, mul_zero, add_zero, List.getD_eq_getElem ang 0 (by omega)]

example : interpAngle 360 [0, 10, 20] [350, 10, 190] 5 = some 0 ∧ interpAngle 360 [0, 10, 20] [350, 10, 200] 15 = some 285 ∧
    interpAngle 360 [0, 10, 20] [350, 10, 190] 10 = some 10 ∧ interpAngle 360 [0, 10, 20] [350, 10, 190] 25 = some 190 := by decide +kernel

/-! ### Sky brightness -/

/-- The maps in memory are a stretch of a file with rising times: maps `a` to `b - 1`, taken to be good from the time
of map `a` to that of map `b`. -/
def FromFile (s : Loaded) : Prop :=
  Rising s.file.mjds ∧ s.a ≤ s.b ∧ s.b < s.file.mjds.length ∧ s.lo = s.file.mjds.getD s.a 0 ∧ s.hi = s.file.mjds.getD s.b 0

/-- The time lies after stored map `k` of the file and not after map `k + 1`. -/
def Between (f : File) (k : ℕ) (t : ℚ) : Prop :=
  k + 1 < f.mjds.length ∧ f.mjds.getD k 0 < t ∧ t ≤ f.mjds.getD (k + 1) 0

theorem slice_getD (s : Loaded) (i : ℕ) (h : s.a + i < s.b) (hb : s.b ≤ s.file.mjds.length) :
    s.mjds.getD i 0 = s.file.mjds.getD (s.a + i) 0 := by
  unfold Loaded.mjds
  rw [List.getD_eq_getElem?_getD, List.getElem?_drop, List.getElem?_take, if_pos h, List.getD_eq_getElem?_getD]

theorem slice_rising (s : Loaded) (h : Rising s.file.mjds) : Rising s.mjds :=
  h.sublist ((List.drop_sublist _ _).trans (List.take_sublist _ _))

theorem slice_length (s : Loaded) (hb : s.b ≤ s.file.mjds.length) : s.mjds.length = s.b - s.a := by
  unfold Loaded.mjds
  rw [List.length_drop, List.length_take, min_eq_left hb]

theorem bracket_between {s : Loaded} (h : FromFile s) {k : ℕ} {t : ℚ} (hk : Between s.file k t) (ha : s.a ≤ k) (hb : k + 1 < s.b) :
    bracket s.mjds t = .ok (k - s.a, k - s.a + 1, s.file.mjds.getD (k + 1) 0 - s.file.mjds.getD k 0) := by
  obtain ⟨hr, _, hlen, _, _⟩ := h
  obtain ⟨_, h1, h2⟩ := hk
  have hrs := slice_rising s hr
  have hl := slice_length s hlen.le
  have hs : searchLeft s.mjds t = k - s.a + 1 := by
    refine searchLeft_at hrs (by omega) (fun i hi => ?_) (fun _ => ?_)
    · rw [slice_getD s i (by omega) hlen.le]
      exact lt_of_le_of_lt (rising_le hr (by omega) (by omega)) h1
    · rw [slice_getD s _ (by omega) hlen.le, show s.a + (k - s.a + 1) = k + 1 by omega]
      exact h2
  unfold bracket
  rw [hs]
  dsimp only
  rw [if_neg (by omega), if_neg (by omega)]
  congr 2
  rw [slice_getD s _ (by omega) hlen.le, slice_getD s _ (by omega) hlen.le]
  rw [show s.a + (k - s.a + 1) = k + 1 by omega, show s.a + (k - s.a + 1 - 1) = k by omega]

/-- C115, in part: between two stored maps of a night, the brightness of a pixel lies between those of the two maps, at the
share of the way that has passed. Missing: times in the last loaded interval, and masked pixels; see below. -/
theorem C115_interpolated_partial (S : Sun) (s : Loaded) (h : FromFile s) (bad : ℚ) (t : ℚ) (pix k : ℕ) (hk : Between s.file k t)
    (ha : s.a ≤ k) (hb : k + 1 < s.b) (hstep : s.file.mjds.getD (k + 1) 0 - s.file.mjds.getD k 0 ≤ s.file.stepMax + 1 / 1000000)
    (p q : ℚ) (hp : s.file.sb k pix = .fin p) (hq : s.file.sb (k + 1) pix = .fin q) :
    ∃ v, value S s bad t pix = .ok (.fin v) ∧ min p q ≤ v ∧ v ≤ max p q ∧
      (v - p) * (s.file.mjds.getD (k + 1) 0 - s.file.mjds.getD k 0) = (q - p) * (t - s.file.mjds.getD k 0) := by
  have hlt : s.file.mjds.getD k 0 < s.file.mjds.getD (k + 1) 0 := lt_of_lt_of_le hk.2.1 hk.2.2
  have hg : 0 < s.file.mjds.getD (k + 1) 0 - s.file.mjds.getD k 0 := by linarith
  unfold value
  rw [bracket_between h hk ha hb]
  dsimp only
  rw [if_neg (not_lt.2 hstep), slice_getD s _ (by omega) h.2.2.1.le, show s.a + (k - s.a) = k by omega,
    show s.a + (k - s.a + 1) = k + 1 by omega, hp, hq]
  set g := s.file.mjds.getD (k + 1) 0 - s.file.mjds.getD k 0 with hgdef
  set w := (t - s.file.mjds.getD k 0) / g with hw
  have w0 : 0 ≤ w := div_nonneg (by linarith [hk.2.1]) hg.le
  have w1 : w ≤ 1 := (div_le_one hg).2 (by linarith [hk.2.2])
  refine ⟨(1 - w) * p + w * q, rfl, ?_, ?_, ?_⟩
  · have a1 := mul_le_mul_of_nonneg_left (min_le_left p q) (by linarith : 0 ≤ 1 - w)
    have a2 := mul_le_mul_of_nonneg_left (min_le_right p q) w0
    linarith
  · have a1 := mul_le_mul_of_nonneg_left (le_max_left p q) (by linarith : 0 ≤ 1 - w)
    have a2 := mul_le_mul_of_nonneg_left (le_max_right p q) w0
    linarith
  · have hw' : w * g = t - s.file.mjds.getD k 0 := div_mul_cancel₀ _ hg.ne'
    rw [← hw']
    ring

/-- C115: between maps further apart, as from one night to the next, the brightness is that of the nearer map, the
earlier if both are equally near, with the bad value for pixels that have none; and with the sun
up, 2 above 20 degrees and nan below. -/
theorem C115_gap (S : Sun) (s : Loaded) (h : FromFile s) (bad : ℚ) (t : ℚ) (pix k : ℕ) (hk : Between s.file k t)
    (ha : s.a ≤ k) (hb : k + 1 < s.b) (hstep : s.file.stepMax + 1 / 1000000 < s.file.mjds.getD (k + 1) 0 - s.file.mjds.getD k 0) :
    (S.high t = true → value S s bad t pix = .ok (if 20 < S.alt t pix then .fin 2 else .nan)) ∧
    (S.high t = false →
      let j := if t - s.file.mjds.getD k 0 ≤ s.file.mjds.getD (k + 1) 0 - t then k else k + 1
      ∃ v, value S s bad t pix = .ok v ∧
        (v = .fin bad ∧ (s.file.sb j pix = .fin unseenVal ∨ s.file.sb j pix = .pinf ∨ s.file.sb j pix = .ninf) ∨
          v = s.file.sb j pix ∧ s.file.sb j pix ≠ .pinf ∧ s.file.sb j pix ≠ .ninf)) := by
  have hbr := bracket_between h hk ha hb
  constructor
  · intro hh
    unfold value
    rw [hbr]
    dsimp only
    rw [if_pos hstep, if_pos hh]
    rfl
  · intro hh j
    unfold value
    rw [hbr]
    dsimp only
    rw [if_pos hstep, if_neg (by simp [hh])]
    have hj : s.a + nearer s.mjds (k - s.a) (k - s.a + 1) t = j := by
      unfold nearer
      rw [slice_getD s _ (by omega) h.2.2.1.le, slice_getD s _ (by omega) h.2.2.1.le, show s.a + (k - s.a) = k by omega,
        show s.a + (k - s.a + 1) = k + 1 by omega, abs_sub_comm, abs_of_pos (by linarith [hk.2.1]),
        abs_of_nonneg (by linarith [hk.2.2])]
      simp only [j]
      split <;> omega
    rw [hj]
    refine ⟨_, rfl, ?_⟩
    unfold clean
    cases hv : s.file.sb j pix with
    | nan => simp
    | ninf => simp
    | pinf => simp
    | fin q =>
      by_cases hq : q = unseenVal
      · simp [hq]
      · simp [hq]

theorem filter_range_head (n : ℕ) (P : ℕ → Bool) (i : ℕ) (hi : i < n) (hP : P i = true) (hmin : ∀ j < i, P j = false) :
    ((List.range n).filter P).head? = some i := by
  rw [List.head?_filter, List.find?_range_eq_some]
  exact ⟨hP, List.mem_range.2 hi, fun j hj => by simp [hmin j hj]⟩

/-- Loading for a time after map `k` and not after map `k + 1` takes the maps from `k` on. -/
theorem stretch_spec (f : File) (hf : Rising f.mjds) (t len : ℚ) (k : ℕ) (hk : Between f k t) (hlen : f.mjds.getD (k + 1) 0 ≤ t + len) :
    ∃ s, stretch f t len = .ok s ∧ FromFile s ∧ s.file = f ∧ s.a = k ∧
      ∀ j, j < f.mjds.length → f.mjds.getD j 0 ≤ t + len → j ≤ s.b := by
  obtain ⟨h0, h1, h2⟩ := hk
  unfold stretch
  dsimp only
  set P : ℕ → Bool := fun i => decide (t ≤ f.mjds.getD i 0) && decide (f.mjds.getD i 0 ≤ t + len) with hP
  have hhead : ((List.range f.mjds.length).filter P).head? = some (k + 1) := by
    apply filter_range_head _ _ _ h0
    · simp only [hP, Bool.and_eq_true, decide_eq_true_eq]
      exact ⟨h2, hlen⟩
    · intro j hj
      have : f.mjds.getD j 0 < t := lt_of_le_of_lt (rising_le hf (by omega) (by omega)) h1
      simp only [hP, Bool.and_eq_false_iff, decide_eq_false_iff_not]
      exact Or.inl (not_le.2 this)
  have hne : (List.range f.mjds.length).filter P ≠ [] := by
    intro hc; rw [hc] at hhead; simp at hhead
  rw [hhead, List.getLast?_eq_some_getLast hne]
  dsimp only
  have hmem := List.getLast_mem hne
  rw [List.mem_filter, List.mem_range] at hmem
  set j := ((List.range f.mjds.length).filter P).getLast hne with hj
  have hk1 : k + 1 ∈ (List.range f.mjds.length).filter P := List.mem_of_head? hhead
  have hsorted : ((List.range f.mjds.length).filter P).Pairwise (· ≤ ·) :=
    (List.pairwise_le_range).sublist List.filter_sublist
  have hlast : ∀ i ∈ (List.range f.mjds.length).filter P, i ≤ j := by
    intro i hi
    rw [hj]
    have key : ∀ (l : List ℕ) (hl : l ≠ []), l.Pairwise (· ≤ ·) → ∀ i ∈ l, i ≤ l.getLast hl := by
      intro l
      induction l with
      | nil => intro hl; exact absurd rfl hl
      | cons a l ih =>
        intro hl hp i hi
        rw [List.pairwise_cons] at hp
        cases l with
        | nil => simp at hi ⊢; omega
        | cons b l =>
          rw [List.getLast_cons (by simp)]
          rcases List.mem_cons.1 hi with rfl | hi
          · exact hp.1 _ (List.getLast_mem _)
          · exact ih (by simp) hp.2 i hi
    exact key _ hne hsorted i hi
  refine ⟨_, rfl, ⟨hf, ?_, hmem.1, rfl, rfl⟩, rfl, by simp, ?_⟩
  · have := hlast _ hk1
    dsimp only
    omega
  · intro i hi hle
    by_cases hik : i ≤ k + 1
    · exact le_trans hik (hlast _ hk1)
    · apply hlast
      rw [List.mem_filter, List.mem_range]
      refine ⟨hi, ?_⟩
      have := rising_le hf (show k + 1 ≤ i by omega) hi
      simp only [hP, Bool.and_eq_true, decide_eq_true_eq]
      exact ⟨by linarith, hle⟩

/-- C115, whatever was loaded before: unless the time lies in the last interval of what is in memory (or at its very
start), and if at least two stored times lie within the load length, the maps used are those just before and after the time.
(One file; the time after its map `k` and not after map `k + 1`.) -/
theorem C115_any_history_partial (f : File) (hf : Rising f.mjds) (hcov : f.left ≤ t ∧ t ≤ f.right) (len : ℚ) (s : Loaded)
    (hs : FromFile s) (hsf : s.file = f) (k : ℕ) (hk : Between f k t) (hlen : f.mjds.getD (k + 2) 0 ≤ t + len)
    (hk2 : k + 2 < f.mjds.length) (hlast : k + 1 ≠ s.b) (hfirst : s.lo ≠ t) :
    ∃ s', ensure [f] len s t = .ok s' ∧ FromFile s' ∧ s'.file = f ∧ s'.a ≤ k ∧ k + 1 < s'.b := by
  unfold ensure
  split
  · have hb : bestFile [f] t = some f := by
      unfold bestFile
      simp [hcov]
    unfold load
    rw [hb]
    dsimp only
    have hl : ¬ lastTime f < t := by
      unfold lastTime
      rw [List.getLast?_eq_getElem?]
      have : f.mjds[f.mjds.length - 1]? = some (f.mjds.getD (f.mjds.length - 1) 0) := by
        rw [List.getD_eq_getElem _ _ (by omega), List.getElem?_eq_getElem (by omega)]
      rw [this]
      have h2 := rising_le hf (show k + 1 ≤ f.mjds.length - 1 by omega) (by omega)
      have h3 := hk.2.2
      simp only [Option.getD_some, not_lt]
      linarith
    rw [if_neg hl]
    have hlt := rising_lt hf (show k + 1 < k + 2 by omega) hk2
    obtain ⟨s', h1, h2, h3, h4, h5⟩ := stretch_spec f hf t len k hk (by linarith)
    exact ⟨s', h1, h2, h3, by omega, by have := h5 (k + 2) hk2 hlen; omega⟩
  · rename_i hc
    push Not at hc
    refine ⟨s, rfl, hs, hsf, ?_, ?_⟩
    · by_contra hcon
      have : f.mjds.getD (k + 1) 0 ≤ f.mjds.getD s.a 0 := by
        have := hs.2.2.1
        have := hs.2.1
        exact rising_le hf (by omega) (by rw [← hsf]; omega)
      have e := hs.2.2.2.1
      rw [hsf] at e
      have h3 := hk.2.2
      exact hfirst (le_antisymm hc.1 (by linarith))
    · by_contra hcon
      have hb : s.b ≤ k := by omega
      have h1 : f.mjds.getD s.b 0 ≤ f.mjds.getD k 0 := rising_le hf hb (by omega)
      have e := hs.2.2.2.2
      rw [hsf] at e
      have := hk.2.1
      linarith [hc.2]

/-- A file of five maps, one every hundredth of a day, with brightness 20, 21, 22, 23, 24. -/
def fiveMaps : File := ⟨0, 1, [0, 1 / 100, 2 / 100, 3 / 100, 4 / 100], 1 / 100, fun i _ => .fin (20 + i)⟩

def noSun : Sun := ⟨fun _ => false, fun _ _ => 45⟩

/-- The maps of the file from `a` on, up to the time of map `b`. -/
def partOf (f : File) (a b : ℕ) : Loaded := ⟨f, a, b, f.mjds.getD a 0, f.mjds.getD b 0⟩

/-- The value answered, for the examples. -/
def answer (x : Except Err (Loaded × XReal)) : Option XReal :=
  match x with
  | .error _ => none
  | .ok (_, v) => some v

example : FromFile (partOf fiveMaps 0 3) ∧ Between fiveMaps 1 (3 / 200) ∧ 
    answer (mags [fiveMaps] noSun 10 (partOf fiveMaps 0 3) 0 (3 / 200) 7) = some (.fin (43 / 2)) := by
  refine ⟨?_, ?_, by decide +kernel⟩
  · unfold FromFile; decide +kernel
  · unfold Between; decide +kernel

/-- C115 is violated at the end of what is in memory: the last map of the range is not kept, so half way to it the
map before is returned, while the same question with other maps in memory gives the mean of the two. -/
theorem C115_end_of_load_violated :
    FromFile (partOf fiveMaps 0 2) ∧ Between fiveMaps 1 (3 / 200) ∧
    answer (mags [fiveMaps] noSun 10 (partOf fiveMaps 0 2) 0 (3 / 200) 7) = some (.fin 21) ∧
    answer (mags [fiveMaps] noSun 10 (partOf fiveMaps 0 3) 0 (3 / 200) 7) = some (.fin (43 / 2)) := by
  refine ⟨?_, ?_, ?_, ?_⟩
  · unfold FromFile; decide +kernel
  · unfold Between; decide +kernel
  · decide +kernel
  · decide +kernel

/-- C115 is violated at the last map of a file, which is never used. -/
theorem C115_last_map_violated :
    answer (mags [fiveMaps] noSun 10 (partOf fiveMaps 0 1) 0 (4 / 100) 7) = some (.fin 23) ∧ fiveMaps.mjds.getLast? = some (4 / 100) ∧
      fiveMaps.sb 4 7 = .fin 24 := by
  refine ⟨by decide +kernel, by decide +kernel, by decide +kernel⟩

/-- C115 is violated for pixels masked in one of two maps: the mask value is averaged with the brightness, and the answer
is neither a brightness nor the mask value. -/
theorem C115_masked_violated :
    let f : File := ⟨0, 1, [0, 1 / 100, 2 / 100], 1 / 100, fun i _ => if i = 0 then .fin unseenVal else .fin 20⟩
    answer (mags [f] noSun 10 (partOf f 0 2) unseenVal (1 / 200) 7) = some (.fin ((unseenVal + 20) / 2)) := by decide +kernel

theorem bestFile_spec {files : List File} {t : ℚ} {f : File} (h : bestFile files t = some f) :
    f ∈ files ∧ f.left ≤ t ∧ t ≤ f.right := by
  unfold bestFile at h
  have := List.mem_of_getLast? h
  rw [List.mem_filter] at this
  simpa using this

/-- What a stretch loaded for a time looks like. -/
theorem stretch_sound {f : File} (hf : Rising f.mjds) {t len : ℚ} {s : Loaded} (h : stretch f t len = .ok s) :
    FromFile s ∧ s.file = f ∧ t ≤ s.hi ∧ s.hi ≤ t + len ∧ (s.lo < t ∨ s.a = 0) ∧
      (∀ i < f.mjds.length, f.mjds.getD i 0 ≤ t + len → i ≤ s.b) ∧
      (∀ i < f.mjds.length, f.mjds.getD i 0 < t → i ≤ s.a) := by
  unfold stretch at h
  dsimp only at h
  set P : ℕ → Bool := fun i => decide (t ≤ f.mjds.getD i 0) && decide (f.mjds.getD i 0 ≤ t + len) with hP
  have hPi : ∀ i, P i = true ↔ t ≤ f.mjds.getD i 0 ∧ f.mjds.getD i 0 ≤ t + len := by
    intro i; simp only [hP, Bool.and_eq_true, decide_eq_true_eq]
  have hsorted : ((List.range f.mjds.length).filter P).Pairwise (· ≤ ·) :=
    (List.pairwise_le_range).sublist List.filter_sublist
  have hmemP : ∀ i, i ∈ (List.range f.mjds.length).filter P ↔ i < f.mjds.length ∧ t ≤ f.mjds.getD i 0 ∧ f.mjds.getD i 0 ≤ t + len := by
    intro i; rw [List.mem_filter, List.mem_range, hPi]
  rcases hh : ((List.range f.mjds.length).filter P).head? with _ | i
  · rw [hh] at h; cases h
  rcases hl : ((List.range f.mjds.length).filter P).getLast? with _ | j
  · rw [hh, hl] at h; cases h
  rw [hh, hl] at h
  dsimp only at h
  cases h
  have hi := (hmemP i).1 (List.mem_of_head? hh)
  have hj := (hmemP j).1 (List.mem_of_getLast? hl)
  have hfirst : ∀ k ∈ (List.range f.mjds.length).filter P, i ≤ k := by
    intro k hk
    generalize (List.range f.mjds.length).filter P = l at *
    cases l with
    | nil => simp at hk
    | cons a l =>
      simp at hh
      subst hh
      rcases List.mem_cons.1 hk with rfl | hk
      · exact le_refl _
      · exact (List.pairwise_cons.1 hsorted).1 _ hk
  have hlast : ∀ k ∈ (List.range f.mjds.length).filter P, k ≤ j := by
    intro k hk
    generalize (List.range f.mjds.length).filter P = l at *
    obtain ⟨l', rfl⟩ := List.getLast?_eq_some_iff.1 hl
    rcases List.mem_append.1 hk with hk | hk
    · exact (List.pairwise_append.1 hsorted).2.2 _ hk _ (by simp)
    · simp at hk; omega
  have hij := hfirst j (List.mem_of_getLast? hl)
  refine ⟨⟨hf, by dsimp only; omega, hj.1, rfl, rfl⟩, rfl, hj.2.1, hj.2.2, ?_, ?_, ?_⟩
  · by_cases h0 : i = 0
    · exact Or.inr (by dsimp only; omega)
    · left
      by_contra hc
      push Not at hc
      have hlt := rising_lt hf (show i - 1 < i by omega) hi.1
      have := hfirst (i - 1) ((hmemP _).2 ⟨by omega, hc, by linarith [hi.2.2]⟩)
      omega
  · intro k hk hle
    dsimp only
    by_cases hki : k ≤ i
    · omega
    · exact hlast k ((hmemP k).2 ⟨hk, by linarith [rising_le hf (show i ≤ k by omega) hk, hi.2.1], hle⟩)
  · intro k hk hlt
    dsimp only
    by_contra hc
    have := rising_le hf (show i ≤ k by omega) hk
    linarith [hi.2.1]

/-- C115, what is loaded for a time: a stretch of one of the files, whose name covers the time, or the night of the time if
the file that covers the time ends before it. The stretch reaches from the last stored time before (or the start of the file) to the last one
within the load length; if the file begins after the time, by less than a day, from its beginning. -/
theorem C115_load (files : List File) (hf : ∀ f ∈ files, Rising f.mjds ∧ f.mjds ≠ []) (t len : ℚ) (s : Loaded) (h : load files t len = .ok s) :
    FromFile s ∧ s.file ∈ files ∧
    (s.file.left ≤ t ∧ t ≤ s.file.right ∨
      ∃ f ∈ files, f.left ≤ t ∧ t ≤ f.right ∧ (∀ u ∈ f.mjds, u < t) ∧
        s.file.left ≤ (⌊t + 1 / 2⌋ : ℚ) + 1 / 5 ∧ (⌊t + 1 / 2⌋ : ℚ) + 1 / 5 ≤ s.file.right ∧ s.lo < t + 1) ∧
    t ≤ s.hi ∧ (s.lo < t ∨ s.a = 0) ∧
      (∀ i < s.file.mjds.length, s.file.mjds.getD i 0 ≤ t + len → i ≤ s.b) ∧
      (∀ i < s.file.mjds.length, s.file.mjds.getD i 0 < t → i ≤ s.a) ∧ s.hi < t + 1 + len := by
  have hfirst : ∀ f ∈ files, ∀ u ∈ f.mjds, firstTime f ≤ u := by
    intro f hm u hu
    have hr := (hf f hm).1
    unfold firstTime
    cases hx : f.mjds with
    | nil => rw [hx] at hu; simp at hu
    | cons a l =>
      rw [hx] at hu hr
      simp only [List.head?_cons, Option.getD_some]
      rcases List.mem_cons.1 hu with rfl | hu
      · exact le_refl _
      · exact ((List.pairwise_cons.1 hr).1 _ hu).le
  have hmemD : ∀ f : File, ∀ i < f.mjds.length, f.mjds.getD i 0 ∈ f.mjds := by
    intro f i hi; rw [List.getD_eq_getElem _ _ hi]; exact List.getElem_mem _
  have hfst : ∀ f ∈ files, f.mjds.getD 0 0 = firstTime f := by
    intro f hm
    unfold firstTime
    cases hx : f.mjds with
    | nil => exact absurd hx (hf f hm).2
    | cons a l => rfl
  have hlo : ∀ {s : Loaded} {u : ℚ}, FromFile s → s.file ∈ files → (s.lo < u ∨ s.a = 0) → u < t + 1 →
      (s.a = 0 → firstTime s.file < t + 1) → s.lo < t + 1 := by
    intro s u hs hm h1 h2 h3
    rcases h1 with h1 | h1
    · linarith
    · rw [hs.2.2.2.1, h1, hfst _ hm]; exact h3 h1
  unfold load at h
  cases hb : bestFile files t with
  | none => rw [hb] at h; cases h
  | some f =>
    rw [hb] at h
    dsimp only at h
    obtain ⟨f1, f2, f3⟩ := bestFile_spec hb
    split at h
    · rename_i hlast
      cases hg : bestFile files (dayobsTime t) with
      | none => rw [hg] at h; cases h
      | some g =>
        rw [hg] at h
        dsimp only at h
        obtain ⟨g1, g2, g3⟩ := bestFile_spec hg
        have hall : ∀ u ∈ f.mjds, u < t := by
          intro u hu
          have hr := (hf f f1).1
          have hne := (hf f f1).2
          unfold lastTime at hlast
          rw [List.getLast?_eq_some_getLast hne] at hlast
          simp only [Option.getD_some] at hlast
          have : u ≤ f.mjds.getLast hne := by
            obtain ⟨i, hi, rfl⟩ := List.getElem_of_mem hu
            have := rising_le hr (show i ≤ f.mjds.length - 1 by omega) (by omega)
            rw [List.getD_eq_getElem _ _ hi, List.getD_eq_getElem _ _ (by omega)] at this
            rwa [List.getLast_eq_getElem]
          linarith
        split at h
        · rename_i hgt
          split at h
          · rename_i hnear
            obtain ⟨a1, a2, a3, a4, a5, a6, a7⟩ := stretch_sound (hf g g1).1 h
            rw [a2]
            refine ⟨a1, g1, Or.inr ⟨f, f1, f2, f3, hall, g2, g3, ?_⟩, by linarith, ?_, ?_, ?_, by linarith⟩
            · exact hlo a1 (by rw [a2]; exact g1) a5 (by linarith) (fun _ => by rw [a2]; linarith)
            · rcases a5 with a5 | a5
              · exfalso
                have := hfirst g g1 _ (hmemD g s.a (by rw [← a2]; exact lt_of_le_of_lt a1.2.1 a1.2.2.1))
                rw [a1.2.2.2.1, a2] at a5
                linarith
              · exact Or.inr a5
            · intro i hi hle
              exact a6 i hi (by linarith)
            · intro i hi hlt
              have := hfirst g g1 _ (hmemD g i hi)
              linarith
          · cases h
        · rename_i hgt
          obtain ⟨a1, a2, a3, a4, a5, a6, a7⟩ := stretch_sound (hf g g1).1 h
          rw [a2]
          exact ⟨a1, g1, Or.inr ⟨f, f1, f2, f3, hall, g2, g3,
            hlo a1 (by rw [a2]; exact g1) a5 (by linarith) (fun _ => by rw [a2]; push Not at hgt; linarith)⟩, a3, a5, a6, a7, by linarith⟩
    · obtain ⟨a1, a2, a3, a4, a5, a6, a7⟩ := stretch_sound (hf f f1).1 h
      rw [a2]
      exact ⟨a1, f1, Or.inl ⟨f2, f3⟩, a3, a5, a6, a7, by linarith⟩

/-- Times of what is loaded, for the examples. -/
def loadedTimes (x : Except Err Loaded) : Option (ℚ × ℚ) :=
  match x with
  | .error _ => none
  | .ok s => some (s.lo, s.hi)

example : loadedTimes (load [⟨0, 5, [0, 1, 2], 1, fun _ _ => .nan⟩, ⟨4, 9, [6, 7, 8], 1, fun _ _ => .nan⟩] 10 1) = none ∧
    loadedTimes (load [⟨0, 5, [0, 1, 2, 3], 1, fun _ _ => .nan⟩, ⟨5, 9, [19 / 4, 5, 7, 8], 1, fun _ _ => .nan⟩] (9 / 2) 3) = some (19 / 4, 7) ∧
    loadedTimes (load [⟨0, 5, [0, 1, 2, 3], 1, fun _ _ => .nan⟩] (3 / 2) 1) = some (1, 2) := by decide +kernel

/-- C115, at the ends of what is in memory: within 18 hours before the first or after the last map, that map at night and the constant in daytime;
further away the call raises. -/
theorem C115_ends (S : Sun) (s : Loaded) (h : FromFile s) (hne : s.a < s.b) (hstep : s.file.stepMax + 1 / 1000000 < 1) (bad : ℚ) (t : ℚ) (pix : ℕ) :
    (s.file.mjds.getD (s.b - 1) 0 < t →
      value S s bad t pix = if 3 / 4 ≤ t - s.file.mjds.getD (s.b - 1) 0 then .error .far
        else if S.high t then .ok (if 20 < S.alt t pix then .fin 2 else .nan) else .ok (clean unseenVal bad (s.file.sb (s.b - 1) pix))) ∧
    (t ≤ s.file.mjds.getD s.a 0 →
      value S s bad t pix = if 3 / 4 ≤ s.file.mjds.getD s.a 0 - t then .error .far
        else if S.high t then .ok (if 20 < S.alt t pix then .fin 2 else .nan) else .ok (clean unseenVal bad (s.file.sb s.a pix))) := by
  obtain ⟨hr, _, hlen, _, _⟩ := h
  have hrs := slice_rising s hr
  have hl := slice_length s hlen.le
  constructor
  · intro ht
    have hs : searchLeft s.mjds t = s.b - s.a := by
      refine searchLeft_at hrs (by omega) (fun i hi => ?_) (fun hc => absurd hc (by omega))
      rw [slice_getD s i (by omega) hlen.le]
      exact lt_of_le_of_lt (rising_le hr (by omega) (by omega)) ht
    have hlastm : s.mjds.getLast? = some (s.file.mjds.getD (s.b - 1) 0) := by
      rw [List.getLast?_eq_getElem?, List.getElem?_eq_getElem (by omega), ← List.getD_eq_getElem _ 0, slice_getD s _ (by omega) hlen.le]
      congr 2
      omega
    unfold value bracket
    rw [hs]
    dsimp only
    rw [if_pos (by omega), hlastm]
    dsimp only
    by_cases hfar : 3 / 4 ≤ t - s.file.mjds.getD (s.b - 1) 0
    · rw [if_neg (not_lt.2 hfar), if_pos hfar]
    · rw [if_pos (not_le.1 hfar), if_neg hfar]
      dsimp only
      rw [if_pos hstep]
      unfold nearer daytime
      rw [if_pos (le_refl _), show s.a + (s.b - s.a - 1) = s.b - 1 by omega]
  · intro ht
    have hs : searchLeft s.mjds t = 0 := by
      refine searchLeft_at hrs (by omega) (fun i hi => by omega) (fun _ => ?_)
      rw [slice_getD s _ (by omega) hlen.le]
      exact ht
    have h0 : s.mjds.getD 0 0 = s.file.mjds.getD s.a 0 := slice_getD s 0 (by omega) hlen.le
    unfold value bracket
    rw [hs]
    dsimp only
    rw [if_neg (by omega), if_pos rfl, h0]
    by_cases hfar : 3 / 4 ≤ s.file.mjds.getD s.a 0 - t
    · rw [if_neg (not_lt.2 hfar), if_pos hfar]
    · rw [if_pos (not_le.1 hfar), if_neg hfar]
      dsimp only
      rw [if_pos hstep]
      unfold nearer daytime
      rw [if_pos (le_refl _), Nat.add_zero]

theorem foldl_min_dist (dist : ℕ → ℚ) : ∀ (gs : List ℕ) (x : ℚ),
    gs.foldl (fun m p => min m (dist p)) x ≤ x ∧ (∀ p ∈ gs, gs.foldl (fun m p => min m (dist p)) x ≤ dist p) ∧
      (gs.foldl (fun m p => min m (dist p)) x = x ∨ ∃ p ∈ gs, gs.foldl (fun m p => min m (dist p)) x = dist p) := by
  intro gs
  induction gs with
  | nil => intro x; simp
  | cons g gs ih =>
    intro x
    rw [List.foldl_cons]
    obtain ⟨h1, h2, h3⟩ := ih (min x (dist g))
    refine ⟨le_trans h1 (min_le_left _ _), ?_, ?_⟩
    · intro p hp
      rcases List.mem_cons.1 hp with rfl | hp
      · exact le_trans h1 (min_le_right _ _)
      · exact h2 p hp
    · rcases h3 with h3 | ⟨p, hp, h3⟩
      · rcases min_choice x (dist g) with h | h
        · exact Or.inl (h3.trans h)
        · exact Or.inr ⟨g, by simp, h3.trans h⟩
      · exact Or.inr ⟨p, by simp [hp], h3⟩

theorem minX_mem : ∀ (vs : List XReal), vs ≠ [] → minX vs ∈ vs := by
  intro vs hvs
  cases vs with
  | nil => exact absurd rfl hvs
  | cons v vs =>
    show vs.foldl _ v ∈ v :: vs
    induction vs generalizing v with
    | nil => simp
    | cons x vs ih =>
      rw [List.foldl_cons]
      have := ih (if XReal.ltB x v then x else v) (by simp)
      rcases List.mem_cons.1 this with h | h
      · rw [h]; split <;> simp
      · simp [h]

/-- The value found is that of an unmasked pixel of the sky, and no unmasked pixel is nearer. -/
theorem nearestGood_spec (dist : ℕ → ℕ → ℚ) (full : List XReal) (bad : ℚ) (pix : ℕ)
    (hgood : ∃ p < full.length, isMasked bad (full.getD p .nan) = false) :
    ∃ p < full.length, isMasked bad (full.getD p .nan) = false ∧ nearestGood dist full bad pix = full.getD p .nan ∧
      ∀ q < full.length, isMasked bad (full.getD q .nan) = false → dist pix p ≤ dist pix q := by
  have hmem : ∀ p, p ∈ (List.range full.length).filter (fun p => !isMasked bad (full.getD p .nan)) ↔
      p < full.length ∧ isMasked bad (full.getD p .nan) = false := by
    intro p; simp
  unfold nearestGood
  dsimp only
  cases hg : (List.range full.length).filter (fun p => !isMasked bad (full.getD p .nan)) with
  | nil =>
    obtain ⟨p, hp⟩ := hgood
    have := (hmem p).2 hp
    rw [hg] at this
    simp at this
  | cons g gs =>
    rw [hg] at hmem
    dsimp only
    obtain ⟨h1, h2, h3⟩ := foldl_min_dist (dist pix) gs (dist pix g)
    set d := gs.foldl (fun m p => min m (dist pix p)) (dist pix g) with hd
    have hle : ∀ q ∈ g :: gs, d ≤ dist pix q := by
      intro q hq
      rcases List.mem_cons.1 hq with rfl | hq
      · exact h1
      · exact h2 q hq
    have hne : ((g :: gs).filter (fun p => decide (dist pix p = d))).map (fun p => full.getD p .nan) ≠ [] := by
      have : ∃ p ∈ g :: gs, d = dist pix p := by
        rcases h3 with h3 | ⟨p, hp, h3⟩
        · exact ⟨g, by simp, h3⟩
        · exact ⟨p, by simp [hp], h3⟩
      obtain ⟨p, hp, hpd⟩ := this
      intro hc
      rw [List.map_eq_nil_iff, List.filter_eq_nil_iff] at hc
      exact hc p hp (by simp [hpd])
    obtain ⟨p, hp, hpv⟩ := List.mem_map.1 (minX_mem _ hne)
    rw [List.mem_filter] at hp
    have hpd : dist pix p = d := by simpa using hp.2
    obtain ⟨p1, p2⟩ := (hmem p).1 hp.1
    exact ⟨p, p1, p2, hpv.symm, fun q hq1 hq2 => by rw [hpd]; exact hle q ((hmem q).2 ⟨hq1, hq2⟩)⟩

/-- C115, in part: if the masked ones of the pixels asked for come first (as when one pixel is asked for), each of them gets the
value of the nearest unmasked pixel of the sky and the others keep theirs. Missing: masked pixels after unmasked ones. -/
theorem C115_extrapolated_partial (dist : ℕ → ℕ → ℚ) (full : List XReal) (bad : ℚ) (indx : List ℕ) (vals : List XReal)
    (hgood : ∃ p < full.length, isMasked bad (full.getD p .nan) = false)
    (hfirst : ∀ k < vals.length, isMasked bad (vals.getD k .nan) = true → ∀ j < k, isMasked bad (vals.getD j .nan) = true)
    (k : ℕ) (hk : k < vals.length) :
    (isMasked bad (vals.getD k .nan) = false → (extrapolate dist full bad indx vals)[k]? = vals[k]?) ∧
    (isMasked bad (vals.getD k .nan) = true → ∃ p < full.length, isMasked bad (full.getD p .nan) = false ∧
      (extrapolate dist full bad indx vals)[k]? = some (full.getD p .nan) ∧
      ∀ q < full.length, isMasked bad (full.getD q .nan) = false → dist (indx.getD k 0) p ≤ dist (indx.getD k 0) q) := by
  set hit := (List.range vals.length).filter (fun k => isMasked bad (vals.getD k .nan)) with hhit
  have hget : (extrapolate dist full bad indx vals)[k]? = some (match hit.findIdx? (fun m => decide (m = k)) with
      | none => vals.getD k .nan
      | some i => nearestGood dist full bad (indx.getD i 0)) := by
    unfold extrapolate
    dsimp only
    rw [List.getElem?_map, List.getElem?_range hk, Option.map_some]
    rfl
  constructor
  · intro hm
    have hn : hit.findIdx? (fun m => decide (m = k)) = none := by
      rw [List.findIdx?_eq_none_iff]
      intro m hmem
      rw [hhit, List.mem_filter] at hmem
      simp only [decide_eq_false_iff_not]
      rintro rfl
      rw [hm] at hmem
      simp at hmem
    rw [hget, hn, List.getD_eq_getElem _ _ hk, List.getElem?_eq_getElem hk]
  · intro hm
    -- the masked places are the first ones
    have hpre : ∀ n, n ≤ vals.length → (∀ j < n, isMasked bad (vals.getD j .nan) = true) →
        (List.range n).filter (fun k => isMasked bad (vals.getD k .nan)) = List.range n := by
      intro n _ hall
      rw [List.filter_eq_self]
      intro j hj
      exact hall j (List.mem_range.1 hj)
    have hsplit : hit = List.range (k + 1) ++ ((List.range (vals.length - (k + 1))).map (fun x => k + 1 + x)).filter
        (fun k => isMasked bad (vals.getD k .nan)) := by
      rw [hhit]
      have : vals.length = (k + 1) + (vals.length - (k + 1)) := by omega
      conv_lhs => rw [this]
      rw [List.range_add, List.filter_append, hpre (k + 1) (by omega)]
      intro j hj
      rcases Nat.lt_or_eq_of_le (Nat.le_of_lt_succ hj) with h | rfl
      · exact hfirst k hk hm j h
      · exact hm
    have hfind : hit.findIdx? (fun m => decide (m = k)) = some k := by
      rw [List.findIdx?_eq_some_iff_getElem]
      have hlen : k < hit.length := by rw [hsplit]; simp; omega
      refine ⟨hlen, ?_, ?_⟩
      · simp [hsplit]
      · intro j hj
        have : hit[j]'(by omega) = j := by
          simp only [hsplit]
          rw [List.getElem_append_left (by simp; omega)]
          simp
        rw [this]
        simp
        omega
    rw [hget, hfind]
    obtain ⟨p, p1, p2, p3, p4⟩ := nearestGood_spec dist full bad (indx.getD k 0) hgood
    exact ⟨p, p1, p2, by dsimp only; rw [p3], p4⟩

/-- C115 is violated when a masked pixel comes after an unmasked one: it gets the value nearest to the wrong pixel. Here pixels
are on a line; pixel 4 is masked, next to pixel 3, but gets the value of pixel 0. -/
theorem C115_extrapolate_violated :
    extrapolate (fun i j => |(i : ℚ) - j|) [.fin 20, .fin 21, .fin 22, .fin 23, .nan] unseenVal [0, 4] [.fin 20, .nan] =
      [.fin 20, .fin 20] := by decide +kernel

/-- C115 is violated with another bad value than the default: the whole sky is asked for with the default one, so its
masked pixels are taken as good. -/
theorem C115_bad_value_violated :
    extrapolate (fun i j => |(i : ℚ) - j|) [.fin 20, .fin unseenVal, .fin unseenVal] 0 [2] [.fin 0] = [.fin unseenVal] := by
  decide +kernel

example : extrapolate (fun i j => |(i : ℚ) - j|) [.fin 20, .fin 21, .fin 22, .fin 23, .nan] unseenVal [4] [.nan] = [.fin 23] := by
  decide +kernel

end Verif
