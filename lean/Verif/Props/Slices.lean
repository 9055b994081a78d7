import Verif.Props.Rolling
import Mathlib.Data.List.Nodup
import Mathlib.Data.List.Range

/-!
C90: the slices of a rolling footprint divide the rolling area.
-/

namespace Verif

open Fp Ang

variable {K : Type} [Field K] [LinearOrder K] [IsStrictOrderedRing K] [FloorRing K]

/-! ### Parts of an area -/

theorem splits_get (n N i : ℕ) (h : i ≤ n * 2) : (splits n N).getD i 0 = N * i / (n * 2) := by
  unfold splits
  cases i with
  | zero => simp
  | succ i =>
    rw [List.getD_cons_succ, List.getD_eq_getElem _ _ (by rw [List.length_map, List.length_range]; omega), List.getElem_map, List.getElem_range]

theorem mem_sub {V : Type} (l : List V) (lo hi : ℕ) (v : V) : v ∈ sub l lo hi ↔ ∃ k : ℕ, lo ≤ k ∧ k < hi ∧ l[k]? = some v := by
  unfold sub
  rw [List.mem_iff_getElem?]
  constructor
  · rintro ⟨k, hk⟩
    rw [List.getElem?_drop, List.getElem?_take] at hk
    split at hk
    · exact ⟨lo + k, by omega, by assumption, hk⟩
    · cases hk
  · rintro ⟨k, h1, h2, h3⟩
    refine ⟨k - lo, ?_⟩
    rw [List.getElem?_drop, List.getElem?_take, show lo + (k - lo) = k by omega, if_pos h2, h3]

theorem mem_part (n : ℕ) (area : List ℕ) (i p : ℕ) (h1 : 1 ≤ i) (h2 : i ≤ n * 2) :
    p ∈ part n area i ↔ ∃ k : ℕ, area.length * (i - 1) / (n * 2) ≤ k ∧ k < area.length * i / (n * 2) ∧ area[k]? = some p := by
  unfold part
  rw [splits_get _ _ _ (by omega), splits_get _ _ _ h2, mem_sub]

/-- Every index is in one part. -/
theorem part_exists (n N k : ℕ) (hn : 1 ≤ n) (hk : k < N) : ∃ i, 1 ≤ i ∧ i ≤ n * 2 ∧ N * (i - 1) / (n * 2) ≤ k ∧ k < N * i / (n * 2) := by
  have hex : ∃ i, k < N * i / (n * 2) := ⟨n * 2, by rw [Nat.mul_div_cancel _ (by omega)]; exact hk⟩
  classical
  refine ⟨Nat.find hex, ?_, ?_, ?_, Nat.find_spec hex⟩
  · by_contra hc
    have h0 : Nat.find hex = 0 := by omega
    have := Nat.find_spec hex
    rw [h0] at this; simp at this
  · exact Nat.find_min' hex (by rw [Nat.mul_div_cancel _ (by omega)]; exact hk)
  · by_cases h0 : Nat.find hex = 0
    · rw [h0]; simp
    · have := Nat.find_min hex (m := Nat.find hex - 1) (by omega)
      omega

theorem part_unique (n N k i i' : ℕ) (h1 : N * (i - 1) / (n * 2) ≤ k) (h2 : k < N * i / (n * 2))
    (h1' : N * (i' - 1) / (n * 2) ≤ k) (h2' : k < N * i' / (n * 2)) : i = i' := by
  have key : ∀ a b : ℕ, a < b → N * (b - 1) / (n * 2) ≤ k → k < N * a / (n * 2) → False := by
    intro a b hab h h'
    have : N * a / (n * 2) ≤ N * (b - 1) / (n * 2) := Nat.div_le_div_right (Nat.mul_le_mul_left _ (by omega))
    omega
  rcases Nat.lt_trichotomy i i' with h | h | h
  · exact absurd (key _ _ h h1' h2) id
  · exact h
  · exact absurd (key _ _ h h1 h2') id

theorem area_nodup (npix : ℕ) (p : ℕ → Bool) (wfd : List ℕ) : (area npix p wfd).Nodup := by
  unfold area; exact (List.nodup_range).filter _

theorem mem_area (npix : ℕ) (q : ℕ → Bool) (wfd : List ℕ) (p : ℕ) : p ∈ area npix q wfd ↔ p < npix ∧ q p = true ∧ p ∈ wfd := by
  unfold area; rw [List.mem_filter, List.mem_range, Bool.and_eq_true, List.contains_iff_mem]

/-- Slice `j` of one area: parts `j + 1` and `j + 1 + n`. -/
def InSlice (n : ℕ) (a : List ℕ) (j p : ℕ) : Prop := p ∈ part n a (j + 1) ∨ p ∈ part n a (j + 1 + n)

theorem mem_slice (npix : ℕ) (north : ℕ → Bool) (n : ℕ) (wfd : List ℕ) (j p : ℕ) :
    p ∈ slice npix north n wfd j ↔ InSlice n (area npix north wfd) j p ∨ InSlice n (area npix (fun i => !north i) wfd) j p := by
  unfold slice InSlice
  simp only [List.mem_append]
  tauto

theorem inSlice_exists (n : ℕ) (hn : 1 ≤ n) (a : List ℕ) (p : ℕ) (hp : p ∈ a) : ∃ j < n, InSlice n a j p := by
  obtain ⟨k, hk, rfl⟩ := List.getElem_of_mem hp
  obtain ⟨i, h1, h2, h3, h4⟩ := part_exists n a.length k hn hk
  have hm := (mem_part n a i a[k] h1 h2).2 ⟨k, h3, h4, List.getElem?_eq_getElem hk⟩
  by_cases hi : i ≤ n
  · exact ⟨i - 1, by omega, Or.inl (by rwa [show i - 1 + 1 = i by omega])⟩
  · exact ⟨i - 1 - n, by omega, Or.inr (by rwa [show i - 1 - n + 1 + n = i by omega])⟩

theorem inSlice_unique (n : ℕ) (a : List ℕ) (hd : a.Nodup) (p j j' : ℕ) (hj : j < n) (hj' : j' < n) (h : InSlice n a j p)
    (h' : InSlice n a j' p) : j = j' := by
  have key : ∀ i i', 1 ≤ i → i ≤ n * 2 → 1 ≤ i' → i' ≤ n * 2 → p ∈ part n a i → p ∈ part n a i' → i = i' := by
    intro i i' a1 a2 b1 b2 hp hp'
    obtain ⟨k, c1, c2, c3⟩ := (mem_part n a i p a1 a2).1 hp
    obtain ⟨k', d1, d2, d3⟩ := (mem_part n a i' p b1 b2).1 hp'
    have e : k = k' := by
      obtain ⟨hk, e1⟩ := List.getElem?_eq_some_iff.1 c3
      obtain ⟨hk', e2⟩ := List.getElem?_eq_some_iff.1 d3
      exact (hd.getElem_inj_iff).1 (e1.trans e2.symm)
    subst e
    exact part_unique n a.length k i i' c1 c2 d1 d2
  unfold InSlice at h h'
  rcases h with h | h <;> rcases h' with h' | h'
  · have := key _ _ (by omega) (by omega) (by omega) (by omega) h h'; omega
  · have := key _ _ (by omega) (by omega) (by omega) (by omega) h h'; omega
  · have := key _ _ (by omega) (by omega) (by omega) (by omega) h h'; omega
  · have := key _ _ (by omega) (by omega) (by omega) (by omega) h h'; omega

theorem inSlice_mem (n : ℕ) (a : List ℕ) (j p : ℕ) (h : InSlice n a j p) : p ∈ a := by
  unfold InSlice part sub at h
  rcases h with h | h <;> exact List.mem_of_mem_take (List.mem_of_mem_drop h)

/-- **C90** (slices): every pixel of the rolling area is in one slice, and only such pixels are. -/
theorem C90_slices (npix : ℕ) (north : ℕ → Bool) (n : ℕ) (hn : 1 ≤ n) (wfd : List ℕ) (p : ℕ) :
    ((p < npix ∧ p ∈ wfd) → ∃! j, j < n ∧ p ∈ slice npix north n wfd j) ∧
      (∀ j, p ∈ slice npix north n wfd j → p < npix ∧ p ∈ wfd) := by
  have back : ∀ j, p ∈ slice npix north n wfd j → p < npix ∧ p ∈ wfd := by
    intro j h
    rw [mem_slice] at h
    rcases h with h | h <;> have := (mem_area _ _ _ _).1 (inSlice_mem _ _ _ _ h) <;> exact ⟨this.1, this.2.2⟩
  refine ⟨?_, back⟩
  rintro ⟨h1, h2⟩
  have side : ∀ j, p ∈ slice npix north n wfd j → InSlice n (area npix (fun i => north i == north p) wfd) j p := by
    intro j h
    rw [mem_slice] at h
    rcases h with h | h
    · have hb := ((mem_area _ _ _ _).1 (inSlice_mem _ _ _ _ h)).2.1
      have : (fun i => north i == north p) = north := by funext i; rw [hb]; simp
      rwa [this]
    · have hb := ((mem_area _ _ _ _).1 (inSlice_mem _ _ _ _ h)).2.1
      have hf : north p = false := by simpa using hb
      have : (fun i => north i == north p) = fun i => !north i := by funext i; rw [hf]; simp
      rwa [this]
  have hmem : p ∈ area npix (fun i => north i == north p) wfd := (mem_area _ _ _ _).2 ⟨h1, by simp, h2⟩
  obtain ⟨j, hj, hs⟩ := inSlice_exists n hn _ p hmem
  refine ⟨j, ⟨hj, ?_⟩, ?_⟩
  · rw [mem_slice]
    cases hb : north p
    · right
      have : (fun i => north i == north p) = fun i => !north i := by funext i; rw [hb]; simp
      rwa [this] at hs
    · left
      have : (fun i => north i == north p) = north := by funext i; rw [hb]; simp
      rwa [this] at hs
  · rintro j' ⟨hj', h'⟩
    exact inSlice_unique n _ (area_nodup _ _ _) p j' j hj' hj (side j' h') hs

/-- Pixels 0 to 11, the first five in the north, of which 0 and 3 do not roll. -/
example : (List.range 2).map (slice 12 (fun p => decide (p < 5)) 2 [1, 2, 4, 5, 6, 7, 8, 9, 10, 11])
    = [[5, 2, 8, 9], [1, 6, 7, 4, 10, 11]] := by decide +kernel

theorem part_length (n : ℕ) (a : List ℕ) (i : ℕ) (hn : 1 ≤ n) (h1 : 1 ≤ i) (h2 : i ≤ n * 2) :
    a.length / (n * 2) ≤ (part n a i).length ∧ (part n a i).length ≤ a.length / (n * 2) + 1 := by
  unfold part sub
  rw [splits_get _ _ _ (by omega), splits_get _ _ _ h2, List.length_drop, List.length_take]
  obtain ⟨m, rfl⟩ := Nat.exists_eq_add_of_le h1
  have hpos : 0 < n * 2 := by omega
  set N := a.length
  have e : N * (1 + m) = N * m + N := by ring
  rw [show 1 + m - 1 = m by omega, e]
  have hle : (N * m + N) / (n * 2) ≤ N := by
    calc (N * m + N) / (n * 2) ≤ (N * (n * 2)) / (n * 2) := Nat.div_le_div_right (by rw [← e]; exact Nat.mul_le_mul_left _ h2)
      _ = N := Nat.mul_div_cancel _ hpos
  rw [min_eq_left hle, Nat.add_div hpos]
  generalize N * m / (n * 2) = u at *
  generalize N / (n * 2) = v at *
  split <;> omega

/-- **C90** (sizes): slices differ by at most four pixels. -/
theorem C90_sizes (npix : ℕ) (north : ℕ → Bool) (n : ℕ) (wfd : List ℕ) (j j' : ℕ) (hj : j < n) (hj' : j' < n) :
    (slice npix north n wfd j).length ≤ (slice npix north n wfd j').length + 4 := by
  unfold slice
  simp only [List.length_append]
  have a1 := part_length n (area npix north wfd) (j + 1) (by omega) (by omega) (by omega)
  have a2 := part_length n (area npix north wfd) (j + 1 + n) (by omega) (by omega) (by omega)
  have a3 := part_length n (area npix (fun i => !north i) wfd) (j + 1) (by omega) (by omega) (by omega)
  have a4 := part_length n (area npix (fun i => !north i) wfd) (j + 1 + n) (by omega) (by omega) (by omega)
  have b1 := part_length n (area npix north wfd) (j' + 1) (by omega) (by omega) (by omega)
  have b2 := part_length n (area npix north wfd) (j' + 1 + n) (by omega) (by omega) (by omega)
  have b3 := part_length n (area npix (fun i => !north i) wfd) (j' + 1) (by omega) (by omega) (by omega)
  have b4 := part_length n (area npix (fun i => !north i) wfd) (j' + 1 + n) (by omega) (by omega) (by omega)
  omega

/-! ### The two halves of the sky -/

/-- A pixel on the meridians that divide the sky. -/
def OnEdge (s : Sky K) (p : ℕ) : Prop :=
  SameAngle s.T (s.ra p) (s.sunRa + s.T / 4) ∨ SameAngle s.T (s.ra p) (s.sunRa + 3 / 4 * s.T)

/-- Right ascensions are between 0 and a full turn. -/
def Sky.ok (s : Sky K) : Prop := 0 < s.T ∧ ∀ p, 0 ≤ s.ra p ∧ s.ra p < s.T

theorem halves (s : Sky K) (hs : Sky.ok s) (p : ℕ) (he : ¬ OnEdge s p) : early s p = !late s p := by
  obtain ⟨hT, hra⟩ := hs
  have ne : Ang.md s.T (s.sunRa + 3 / 4 * s.T) ≠ Ang.md s.T (s.sunRa + s.T / 4) := by
    intro e
    obtain ⟨k1, e1⟩ := md_same s.T (s.sunRa + 3 / 4 * s.T)
    obtain ⟨k2, e2⟩ := md_same s.T (s.sunRa + s.T / 4)
    rw [e1, e2] at e
    have h1 : (s.T) * (1 / 2 + (k1 : K) - k2) = 0 := by linarith
    rcases mul_eq_zero.1 h1 with h | h
    · exact absurd h hT.ne'
    · have : ((2 * (k2 - k1) : ℤ) : K) = ((1 : ℤ) : K) := by push_cast; linarith
      have := Int.cast_injective (α := K) this
      omega
  have na : s.ra p ≠ Ang.md s.T (s.sunRa + 3 / 4 * s.T) := fun e => he (Or.inr (e ▸ md_same _ _))
  have nb : s.ra p ≠ Ang.md s.T (s.sunRa + s.T / 4) := fun e => he (Or.inl (e ▸ md_same _ _))
  unfold early late inRange
  generalize Ang.md s.T (s.sunRa + 3 / 4 * s.T) = a at *
  generalize Ang.md s.T (s.sunRa + s.T / 4) = b at *
  rcases lt_or_gt_of_ne ne with h | h
  · rw [if_pos h.le, if_neg (not_le.2 h)]
    rw [Bool.eq_iff_iff]
    simp only [Bool.and_eq_true, decide_eq_true_eq, Bool.not_eq_true', Bool.or_eq_false_iff, decide_eq_false_iff_not, not_le]
    constructor
    · rintro ⟨h1, h2⟩; exact ⟨lt_of_le_of_ne h2 nb, lt_of_le_of_ne h1 na.symm⟩
    · rintro ⟨h1, h2⟩; exact ⟨h2.le, h1.le⟩
  · rw [if_neg (not_le.2 h), if_pos h.le]
    rw [Bool.eq_iff_iff]
    simp only [Bool.or_eq_true, decide_eq_true_eq, Bool.not_eq_true', Bool.and_eq_false_iff, decide_eq_false_iff_not, not_le]
    constructor
    · rintro (h1 | h1)
      · exact Or.inr (lt_of_le_of_ne h1 na.symm)
      · exact Or.inl (lt_of_le_of_ne h1 nb)
    · rintro (h1 | h1)
      · exact Or.inr h1.le
      · exact Or.inl h1.le

omit [LinearOrder K] [IsStrictOrderedRing K] [FloorRing K] in
theorem sum_one (n j : ℕ) (hj : j < n) (f : ℕ → K) (h : ∀ i < n, i ≠ j → f i = 0) : ((List.range n).map f).sum = f j := by
  have e : (List.range n).toFinset = Finset.range n := by ext; simp
  rw [← List.sum_toFinset f (List.nodup_range), e]
  rw [Finset.sum_eq_single j]
  · intro b hb hne; exact h b (Finset.mem_range.1 hb) hne
  · intro hn; exact absurd (Finset.mem_range.2 hj) hn

omit [LinearOrder K] [IsStrictOrderedRing K] [FloorRing K] in
theorem sum_zero (n : ℕ) (f : ℕ → K) (h : ∀ i < n, f i = 0) : ((List.range n).map f).sum = 0 := by
  rw [List.map_congr_left (g := fun _ => (0 : K)) (fun i hi => h i (List.mem_range.1 hi))]; simp

/-- The member whose map holds pixel `p`: nothing else does. -/
def Holds (s : Sky K) (uniform delayed : Bool) (j p : ℕ) : Prop := p ∈ s.wfd ∧ p ∈ members s uniform delayed j

omit [IsStrictOrderedRing K] in
theorem rollingMap_of (s : Sky K) (uniform delayed : Bool) (j p : ℕ) (m : ℕ → K) :
    (Holds s uniform delayed j p → rollingMap s.wfd (members s uniform delayed j) m p = m p) ∧
      (¬ Holds s uniform delayed j p → rollingMap s.wfd (members s uniform delayed j) m p = 0) := by
  unfold Holds rollingMap
  constructor
  · rintro ⟨h1, h2⟩; rw [if_pos (by simp [h1, h2])]
  · intro h; rw [if_neg (by simpa using h)]

/-- **C90** (members): a pixel of the rolling area, not on the dividing meridians, is held by one of the members of the
rolling footprint; other pixels by none. -/
theorem C90_members_partial (s : Sky K) (hs : Sky.ok s) (hn : 1 ≤ s.nslice) (uniform : Bool) (p : ℕ) (hp : p < s.npix)
    (he : uniform = true → ¬ OnEdge s p) :
    (p ∈ s.wfd → ∃ d j, j < s.nslice ∧ Holds s uniform d j p ∧ ∀ d' j', j' < s.nslice → Holds s uniform d' j' p → d' = d ∧ j' = j) ∧
      (p ∉ s.wfd → ∀ d j, ¬ Holds s uniform d j p) := by
  refine ⟨?_, fun h d j hh => h hh.1⟩
  intro hw
  obtain ⟨j, ⟨hj, hm⟩, hu⟩ := (C90_slices s.npix s.north s.nslice hn s.wfd p).1 ⟨hp, hw⟩
  cases uniform
  · refine ⟨false, j, hj, ⟨hw, hm⟩, ?_⟩
    intro d' j' hj' hh
    cases d'
    · exact ⟨rfl, hu j' ⟨hj', hh.2⟩⟩
    · exact absurd hh.2 (by simp [members])
  · have hv := halves s hs p (he rfl)
    refine ⟨late s p, j, hj, ⟨hw, ?_⟩, ?_⟩
    · cases hl : late s p
      · exact List.mem_filter.2 ⟨hm, by rw [hv, hl]; rfl⟩
      · exact List.mem_filter.2 ⟨hm, hl⟩
    · intro d' j' hj' hh
      cases d'
      · have := List.mem_filter.1 hh.2
        refine ⟨?_, hu j' ⟨hj', this.1⟩⟩
        have h2 := this.2; rw [hv] at h2; simpa using h2.symm
      · have := List.mem_filter.1 hh.2
        exact ⟨this.2.symm, hu j' ⟨hj', this.1⟩⟩

/-- **C90** (maps): the maps of the members add up to the map given. -/
theorem C90_total_partial (s : Sky K) (hs : Sky.ok s) (hn : 1 ≤ s.nslice) (uniform : Bool) (p : ℕ) (hp : p < s.npix)
    (he : uniform = true → ¬ OnEdge s p) (m : ℕ → K) : totalMap s uniform m p = m p := by
  obtain ⟨h1, h2⟩ := C90_members_partial s hs hn uniform p hp he
  unfold totalMap fixedMap
  by_cases hw : p ∈ s.wfd
  · obtain ⟨d, j, hj, hh, hu⟩ := h1 hw
    rw [if_pos (by simpa using hw)]
    have z : ∀ d' j', j' < s.nslice → (d', j') ≠ (d, j) → rollingMap s.wfd (members s uniform d' j') m p = 0 := by
      intro d' j' hj' hne
      apply (rollingMap_of s uniform d' j' p m).2
      intro hc
      obtain ⟨a, b⟩ := hu d' j' hj' hc
      exact hne (by rw [a, b])
    cases d
    · rw [sum_one _ j hj _ (fun i hi hne => z false i hi (by simp [hne])), sum_zero _ _ (fun i hi => z true i hi (by simp)),
        (rollingMap_of s uniform false j p m).1 hh]; ring
    · rw [sum_one _ j hj _ (fun i hi hne => z true i hi (by simp [hne])), sum_zero _ _ (fun i hi => z false i hi (by simp)),
        (rollingMap_of s uniform true j p m).1 hh]; ring
  · rw [if_neg (by simpa using hw), sum_zero _ _ (fun i _ => (rollingMap_of s uniform false i p m).2 (h2 hw false i)),
      sum_zero _ _ (fun i _ => (rollingMap_of s uniform true i p m).2 (h2 hw true i))]; ring

/-- Twelve pixels in the order of right ascension, in turns; the sun is at 0.1. -/
def someSky : Sky ℚ where
  T := 1
  npix := 12
  ra := fun p => (p : ℚ) / 12 - ⌊(p : ℚ) / 12⌋
  north := fun p => decide (p < 5)
  sunRa := 1 / 10
  wfd := [1, 2, 4, 5, 6, 7, 8, 9, 10, 11]
  nslice := 2

theorem someSky_ok : Sky.ok someSky := by
  refine ⟨by norm_num [someSky], fun p => ⟨?_, ?_⟩⟩
  · exact Int.fract_nonneg ((p : ℚ) / 12)
  · exact Int.fract_lt_one ((p : ℚ) / 12)

example : (List.range 12).map (totalMap someSky true (fun p => (p : ℚ))) = (List.range 12).map (fun p => (p : ℚ)) ∧
    rollingOk someSky true = true := by decide +kernel

/-- The statement without the condition on the dividing meridians. -/
def MapsAddUp (K : Type) [Field K] [LinearOrder K] [IsStrictOrderedRing K] [FloorRing K] : Prop :=
  ∀ (s : Sky K), Sky.ok s → 1 ≤ s.nslice → ∀ (uniform : Bool) (p : ℕ), p < s.npix → ∀ m : ℕ → K, totalMap s uniform m p = m p

/-- **C90 fails** on the dividing meridians: both halves of the sky include them, and the pixel counts twice. -/
theorem C90_edge_violated : ¬ MapsAddUp ℚ := by
  intro h
  have := h { someSky with sunRa := 0 } ⟨someSky_ok.1, someSky_ok.2⟩ (by decide) true 9 (by decide) (fun _ => 1)
  revert this
  decide +kernel

/-- **C90 fails** for a small area: a slice without pixels raises. -/
theorem C90_small_violated : rollingOk { someSky with wfd := [2] } true = false ∧ rollingOk { someSky with wfd := [2] } false = true := by
  decide +kernel

end Verif
