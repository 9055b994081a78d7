import Verif.Model.FootprintNorm
import Mathlib.Tactic.FieldSimp
import Mathlib.Tactic.Linarith

/-! C204: constant footprints, the norm of goal maps, the area near the ecliptic and plain
divisions. -/

namespace Verif

open Cfp

/-! ### Constant footprints -/

/-- The values last given for a band, zero before. -/
def lastGiven (npix : ℕ) (ops : List (String × List ℚ)) (band : String) : List ℚ :=
  (((ops.filter (fun o => decide (o.1 = band))).map Prod.snd).getLast?).getD (List.replicate npix 0)

theorem lastGiven_snoc (npix : ℕ) (ops : List (String × List ℚ)) (o : String × List ℚ) (band : String) :
    lastGiven npix (ops ++ [o]) band = if band = o.1 then o.2 else lastGiven npix ops band := by
  unfold lastGiven
  rw [List.filter_append, List.map_append]
  by_cases h : band = o.1
  · rw [if_pos h, List.filter_cons_of_pos (by simp [h])]
    simp
  · rw [if_neg h, List.filter_cons_of_neg (by simpa using fun e => h e.symm)]
    simp

theorem setRow_map (bands : List String) (band : String) (values : List ℚ) (f : String → List ℚ) :
    setRow bands band values (bands.map f) = bands.map (fun b => if b = band then values else f b) := by
  unfold setRow
  induction bands with
  | nil => rfl
  | cons b bs ih => rw [List.map_cons, List.zipWith_cons_cons, ih, List.map_cons]

/-- The footprint after a history. -/
def constAfter (bands : List String) (npix : ℕ) (ops : List (String × List ℚ)) : Const :=
  { bands := bands, maps := bands.map (lastGiven npix ops), shown := bands.zip (bands.map (lastGiven npix ops)) }

theorem const_step (bands : List String) (npix : ℕ) (ops : List (String × List ℚ)) (o : String × List ℚ) :
    (constAfter bands npix ops).set o.1 o.2 = if o.1 ∈ bands then some (constAfter bands npix (ops ++ [o])) else none := by
  unfold Const.set
  show (if o.1 ∈ bands then _ else none) = _
  by_cases h : o.1 ∈ bands
  · rw [if_pos h, if_pos h]
    have : setRow bands o.1 o.2 (bands.map (lastGiven npix ops)) = bands.map (lastGiven npix (ops ++ [o])) := by
      rw [setRow_map]
      apply List.map_congr_left
      intro b _
      rw [lastGiven_snoc]
    unfold constAfter toStruct
    dsimp only
    rw [this]
  · rw [if_neg h, if_neg h]

theorem const_sets (bands : List String) (npix : ℕ) : ∀ (ops pre : List (String × List ℚ)),
    (constAfter bands npix pre).sets ops =
      if ∀ o ∈ ops, o.1 ∈ bands then some (constAfter bands npix (pre ++ ops)) else none
  | [], pre => by simp [Const.sets]
  | o :: ops, pre => by
    unfold Const.sets
    rw [List.foldlM_cons, const_step]
    by_cases h : o.1 ∈ bands
    · rw [if_pos h]
      have ih := const_sets bands npix ops (pre ++ [o])
      unfold Const.sets at ih
      rw [List.append_assoc] at ih
      rw [Option.bind_eq_bind, Option.bind_some, ih]
      by_cases h' : ∀ o ∈ ops, o.1 ∈ bands
      · rw [if_pos h', if_pos (by
          intro x hx
          rcases List.mem_cons.1 hx with e | e
          · rw [e]; exact h
          · exact h' x e)]
        rfl
      · rw [if_neg h', if_neg (fun e => h' (fun x hx => e x (List.mem_cons_of_mem _ hx)))]
    · rw [if_neg h, if_neg (fun e => h (e o List.mem_cons_self))]
      rfl

/-- C204, constant footprints: after any history of maps given for known bands the footprint is
at every time, for each band, the map given last, and zero if none was; a band that is not known
is refused. -/
theorem C204_constant (bands : List String) (npix : ℕ) (ops : List (String × List ℚ)) (mjd : ℚ) :
    ((Const.new bands npix).sets ops).map (fun c => c.call mjd) =
      if ∀ o ∈ ops, o.1 ∈ bands then some (bands.map (fun b => (b, lastGiven npix ops b))) else none := by
  have h0 : Const.new bands npix = constAfter bands npix [] := by
    unfold Const.new constAfter toStruct
    have : bands.map (lastGiven npix []) = bands.map (fun _ => List.replicate npix 0) := by
      apply List.map_congr_left; intro b _; rfl
    rw [this]
  have hz : ∀ f : String → List ℚ, bands.zip (bands.map f) = bands.map (fun b => (b, f b)) := by
    intro f
    induction bands with
    | nil => rfl
    | cons b bs ih =>
      rw [List.map_cons, List.zip_cons_cons, List.map_cons]
      congr 1
      clear h0 ih
      induction bs with
      | nil => rfl
      | cons c cs ih => rw [List.map_cons, List.zip_cons_cons, ih, List.map_cons]
  rw [h0, const_sets, List.nil_append]
  by_cases h : ∀ o ∈ ops, o.1 ∈ bands
  · rw [if_pos h, if_pos h, Option.map_some]
    show some (bands.zip (bands.map (lastGiven npix ops))) = _
    rw [hz]
  · rw [if_neg h, if_neg h]; rfl

example : ((Const.new ["g", "r"] 2).sets [("r", [1, 2]), ("r", [3, 4])]).map (fun c => c.call 60000) =
    some [("g", [0, 0]), ("r", [3, 4])] := by decide +kernel

/-- C204 fails when a constant footprint is combined with others: the combination cannot be
evaluated at any time. -/
theorem C204_combined_violated (ms : List Member) (c : Const) (h : .constant c ∈ ms) (mjd : ℚ) :
    combined ms mjd = none := by
  have key : ∀ acc : List ℚ, ms.foldlM (fun acc m => (m.at mjd).map
      (fun v => if acc = [] then v else List.zipWith (· + ·) acc v)) acc = none := by
   induction ms with
   | nil => exact absurd h (by simp)
   | cons m ms ih =>
    intro acc
    rw [List.foldlM_cons]
    rcases m with f | c'
    · have h' : Member.constant c ∈ ms := by
        rcases List.mem_cons.1 h with e | e
        · exact absurd e (by simp)
        · exact e
      show ms.foldlM _ _ = none
      exact ih h' _
    · rfl
  exact key []

example : combined [.changing (fun t => [t, 1]), .changing (fun _ => [2, 3])] 5 = some [7, 4] := by decide +kernel

/-! ### The norm -/

theorem positive_nonneg (m : List (Option ℝ)) : 0 ≤ positive m := by
  unfold positive
  apply List.sum_nonneg
  intro x hx
  have := (List.mem_filter.1 hx).2
  exact le_of_lt (of_decide_eq_true this)

theorem positives_nonneg (maps : List (List (Option ℝ))) : 0 ≤ (maps.map positive).sum := by
  apply List.sum_nonneg
  intro x hx
  obtain ⟨m, _, rfl⟩ := List.mem_map.1 hx
  exact positive_nonneg m

/-- C204, the norm: the goals, summed over all bands and the pixels with positive values and
times the norm and the area of a pixel, come to the area of one visit's field; the norm is
positive. -/
theorem C204_norm (pixArea radius n : ℝ) (maps : List (List (Option ℝ))) (ha : 0 < pixArea) (hr : 0 < radius)
    (h : normFactor pixArea radius maps = some n) :
    0 < n ∧ n * pixArea * (maps.map (fun m => ((m.filterMap id).filter (fun x => decide (0 < x))).sum)).sum =
      Real.pi * radius ^ 2 := by
  unfold normFactor at h
  by_cases hm : maps = []
  · rw [if_pos hm] at h; exact absurd h (by simp)
  · rw [if_neg hm] at h
    by_cases hs : (maps.map positive).sum = 0
    · rw [if_pos hs] at h; exact absurd h (by simp)
    · rw [if_neg hs, Option.some.injEq] at h
      have hpos : 0 < (maps.map positive).sum := lt_of_le_of_ne (positives_nonneg maps) (Ne.symm hs)
      refine ⟨?_, ?_⟩
      · rw [← h]
        have := Real.pi_pos
        positivity
      · show n * pixArea * (maps.map positive).sum = _
        rw [← h]
        have h1 : pixArea ≠ 0 := ne_of_gt ha
        field_simp

/-- C204: there is a norm exactly when some pixel of some band has a positive goal. -/
theorem C204_norm_exists (pixArea radius : ℝ) (maps : List (List (Option ℝ))) :
    (∃ n, normFactor pixArea radius maps = some n) ↔ ∃ m ∈ maps, ∃ x : ℝ, some x ∈ m ∧ 0 < x := by
  constructor
  · rintro ⟨n, h⟩
    by_contra hc
    push Not at hc
    unfold normFactor at h
    by_cases hm : maps = []
    · rw [if_pos hm] at h; exact absurd h (by simp)
    · rw [if_neg hm, if_pos] at h
      · exact absurd h (by simp)
      · apply List.sum_eq_zero
        intro x hx
        obtain ⟨m, hmm, rfl⟩ := List.mem_map.1 hx
        unfold positive
        rw [List.filter_eq_nil_iff.2]
        · rfl
        · intro y hy
          obtain ⟨o, ho, ho'⟩ := List.mem_filterMap.1 hy
          have e : o = some y := ho'
          subst e
          have := hc m hmm y ho
          simpa using this
  · rintro ⟨m, hm, x, hx, hpos⟩
    unfold normFactor
    rw [if_neg (by rintro rfl; exact absurd hm (by simp)), if_neg]
    · exact ⟨_, rfl⟩
    · apply ne_of_gt
      have h1 : 0 < positive m := by
        unfold positive
        have hmem : x ∈ (m.filterMap id).filter (fun x => decide (0 < x)) := by
          rw [List.mem_filter, List.mem_filterMap]
          exact ⟨⟨some x, hx, rfl⟩, decide_eq_true hpos⟩
        refine lt_of_lt_of_le hpos (List.single_le_sum ?_ x hmem)
        intro y hy
        exact le_of_lt (of_decide_eq_true (List.mem_filter.1 hy).2)
      refine lt_of_lt_of_le h1 (List.single_le_sum ?_ _ (List.mem_map_of_mem hm))
      intro y hy
      obtain ⟨m', _, rfl⟩ := List.mem_map.1 hy
      exact positive_nonneg m'

/-- Two bands with a goal, one masked pixel and one negative value. -/
example : ∃ n, normFactor 1 2 [[some 3, none], [some 1, some (-5)]] = some n :=
  (C204_norm_exists _ _ _).2 ⟨_, List.mem_cons_self, 3, List.mem_cons_self, by norm_num⟩

/-! ### The ecliptic and plain divisions -/

/-- C204: the area near the ecliptic holds the mask within the given distance and south of the
given declination, and zero elsewhere. -/
theorem C204_ecliptic (dist decMax lat dec mask : ℚ) :
    ecliptic dist decMax lat dec mask = if -dist < lat ∧ lat < dist ∧ dec < decMax then mask else 0 := by
  unfold ecliptic
  by_cases h : |lat| < dist ∧ dec < decMax
  · rw [if_pos h, if_pos ⟨(abs_lt.1 h.1).1, (abs_lt.1 h.1).2, h.2⟩]; ring
  · rw [if_neg h, if_neg (fun e => h ⟨abs_lt.2 ⟨e.1, e.2.1⟩, e.2.2⟩)]; ring

/-- C204: a plain division cuts the area into the wished number of parts from its first pixel to
its last, and no two parts differ by more than one pixel. -/
theorem C204_cuts (nslice count : ℕ) (hn : 0 < nslice) :
    (cuts nslice count).length = nslice + 1 ∧ (cuts nslice count)[0]? = some 0 ∧
      (cuts nslice count)[nslice]? = some count ∧
      ∀ i j a b c d, (cuts nslice count)[i]? = some a → (cuts nslice count)[i + 1]? = some b →
        (cuts nslice count)[j]? = some c → (cuts nslice count)[j + 1]? = some d → a ≤ b ∧ b - a ≤ d - c + 1 := by
  have hget : ∀ i, (cuts nslice count)[i]? = if i < nslice + 1 then some (count * i / nslice) else none := by
    intro i
    unfold cuts
    rcases i with _ | i
    · simp
    · rw [List.getElem?_cons_succ, List.getElem?_map]
      by_cases h : i < nslice
      · rw [List.getElem?_range h, if_pos (by omega)]; rfl
      · rw [List.getElem?_eq_none (by simpa using h), if_neg (by omega)]; rfl
  refine ⟨by simp [cuts], by rfl, ?_, ?_⟩
  · rw [hget, if_pos (by omega), Nat.mul_div_cancel _ hn]
  · intro i j a b c d ha hb hc hd
    rw [hget] at ha hb hc hd
    have bound : ∀ k x y, (if k < nslice + 1 then some (count * k / nslice) else none) = some x →
        (if k + 1 < nslice + 1 then some (count * (k + 1) / nslice) else none) = some y →
        count / nslice ≤ y - x ∧ y - x ≤ count / nslice + 1 ∧ x ≤ y := by
      intro k x y hx hy
      by_cases hk : k + 1 < nslice + 1
      · rw [if_pos hk, Option.some.injEq] at hy
        rw [if_pos (by omega), Option.some.injEq] at hx
        subst hx; subst hy
        have e : count * (k + 1) = count * k + count := by ring
        rw [e]
        have h1 := Nat.div_add_mod (count * k) nslice
        have h2 := Nat.div_add_mod count nslice
        have h3 := Nat.mod_lt (count * k) hn
        have h4 := Nat.mod_lt count hn
        have hlo : count * k / nslice + count / nslice ≤ (count * k + count) / nslice := Nat.div_add_div_le_add_div
        have hhi : (count * k + count) / nslice ≤ count * k / nslice + count / nslice + 1 := by
          rw [Nat.div_le_iff_le_mul_add_pred hn]
          have : nslice * (count * k / nslice + count / nslice + 1) =
            nslice * (count * k / nslice) + nslice * (count / nslice) + nslice := by ring
          omega
        have h0 : 0 ≤ count / nslice := Nat.zero_le _
        generalize count * k / nslice = p at *
        generalize count / nslice = q at *
        generalize (count * k + count) / nslice = r at *
        omega
      · rw [if_neg hk] at hy; exact absurd hy (by simp)
    have b1 := bound i a b ha hb
    have b2 := bound j c d hc hd
    omega

example : cuts 3 10 = [0, 3, 6, 10] := by decide

end Verif
