import Verif.Props.Bins
import Mathlib.Algebra.BigOperators.Group.List.Basic
import Mathlib.Tactic.FieldSimp
import Mathlib.Tactic.Linarith

/-!
# Maps of many resolutions (C144)
-/

namespace Verif

open Bins Real

/-- The NUNIQ number of a pixel of an order. -/
def nuniq (c : ℕ × ℕ) : ℕ := 4 * 4 ^ c.1 + c.2

theorem orderOf_nuniq {o p : ℕ} (h : p < 12 * 4 ^ o) : mocOrder (nuniq (o, p)) = o := by
  unfold mocOrder nuniq
  simp only
  have hp : (p : ℝ) < 12 * 4 ^ o := by exact_mod_cast h
  have hp0 : (0 : ℝ) ≤ p := Nat.cast_nonneg p
  have hpos : (0 : ℝ) < 4 ^ o := by positivity
  have e4 : (4 : ℝ) ^ o = 2 ^ ((2 * o : ℕ) : ℝ) := by
    rw [Real.rpow_natCast, pow_mul]
    norm_num
  have e5 : (4 : ℝ) ^ o * 4 = 2 ^ ((2 * o + 2 : ℕ) : ℝ) := by
    rw [Real.rpow_natCast, pow_add, pow_mul]
    norm_num
  have hval : (((4 * 4 ^ o + p : ℕ) : ℝ)) / 4 = 4 ^ o + p / 4 := by
    push_cast
    ring
  rw [hval]
  have h1 : ((2 * o : ℕ) : ℝ) ≤ Real.logb 2 (4 ^ o + p / 4) := by
    rw [Real.le_logb_iff_rpow_le (by norm_num) (by positivity), ← e4]
    linarith
  have h2 : Real.logb 2 (4 ^ o + p / 4) < ((2 * o + 2 : ℕ) : ℝ) := by
    rw [Real.logb_lt_iff_lt_rpow (by norm_num) (by positivity), ← e5]
    linarith
  have hf : ⌊Real.logb 2 (4 ^ o + (p : ℝ) / 4) / 2⌋ = (o : ℤ) := by
    rw [Int.floor_eq_iff]
    push_cast at h1 h2 ⊢
    constructor <;> linarith
  rw [hf]
  rfl

/-- C144. A number of a pixel of an order gives back the order and the pixel. -/
theorem C144_number (o p : ℕ) (h : p < 12 * 4 ^ o) : mocOrder (nuniq (o, p)) = o ∧ mocPix (nuniq (o, p)) = p := by
  refine ⟨orderOf_nuniq h, ?_⟩
  unfold mocPix
  rw [orderOf_nuniq h]
  unfold nuniq
  simp

example : nuniq (1, 47) = 63 ∧ nuniq (2, 0) = 64 := by decide

theorem sum_valuesIn (n : ℕ) : ∀ (ids : List ℕ) (vs : List ℝ), ids.length = vs.length → (∀ i ∈ ids, i < n) →
    ((List.range n).map (fun p => (valuesIn ids vs p).sum)).sum = vs.sum := by
  have hsum : ∀ (l : List ℕ) (f g : ℕ → ℝ), (l.map (fun p => f p + g p)).sum = (l.map f).sum + (l.map g).sum := by
    intro l f g
    induction l with
    | nil => simp
    | cons a l ih => simp only [List.map_cons, List.sum_cons, ih]; ring
  have hone : ∀ (n i : ℕ) (v : ℝ), i < n → ((List.range n).map (fun p => if i = p then v else 0)).sum = v := by
    intro n i v hi
    induction n with
    | zero => omega
    | succ n ih =>
      rw [List.range_succ, List.map_append, List.sum_append]
      simp only [List.map_cons, List.map_nil, List.sum_cons, List.sum_nil, add_zero]
      rcases Nat.lt_succ_iff_lt_or_eq.1 hi with h | h
      · rw [ih h, if_neg (by omega), add_zero]
      · subst h
        have : (List.range i).map (fun p => if i = p then v else 0) = (List.range i).map (fun _ => (0 : ℝ)) := by
          apply List.map_congr_left
          intro p hp
          rw [if_neg]
          have := List.mem_range.1 hp
          omega
        rw [this]
        simp
  intro ids
  induction ids with
  | nil =>
    intro vs hl _
    have : vs = [] := List.length_eq_zero_iff.1 hl.symm
    subst this
    simp [valuesIn]
  | cons i ids ih =>
    intro vs hl hi
    cases vs with
    | nil => simp at hl
    | cons v vs =>
      have hstep : ∀ p, (valuesIn (i :: ids) (v :: vs) p).sum = (if i = p then v else 0) + (valuesIn ids vs p).sum := by
        intro p
        unfold valuesIn
        rw [List.zip_cons_cons]
        by_cases h : i = p
        · rw [List.filter_cons_of_pos (by simpa using h), if_pos h]
          simp
        · rw [List.filter_cons_of_neg (by simpa using h), if_neg h]
          simp
      rw [List.map_congr_left (fun p _ => hstep p), hsum, hone n i v (hi i List.mem_cons_self),
        ih vs (by simpa using hl) (fun j hj => hi j (List.mem_cons_of_mem _ hj))]
      simp

theorem area_pos (o : ℕ) : 0 < area o := by
  unfold area
  have := pi_pos
  positivity

/-- The values that are binned, in terms of the pixels. -/
noncomputable def parts (data : List ℝ) (cells : List (ℕ × ℕ)) : List ℝ := List.zipWith (fun d c => d * area c.1) data cells

theorem toBin_parts (data : List ℝ) : ∀ (cells : List (ℕ × ℕ)), (∀ c ∈ cells, c.2 < 12 * 4 ^ c.1) → toBin true data (cells.map nuniq) = parts data cells := by
  unfold toBin parts
  simp only [if_true]
  induction data with
  | nil => intro cells _; simp
  | cons d data ih =>
    intro cells h
    cases cells with
    | nil => simp
    | cons c cells =>
      simp only [List.map_cons, List.zipWith_cons_cons]
      rw [ih cells (fun c' hc' => h c' (List.mem_cons_of_mem _ hc')), orderOf_nuniq (h c List.mem_cons_self)]

theorem moc_pixels (pixAt : ℕ → ℕ → ℕ) (cells : List (ℕ × ℕ)) (h : ∀ c ∈ cells, c.2 < 12 * 4 ^ c.1) :
    (cells.map nuniq).map (fun u => pixAt (mocOrder u) (mocPix u)) = cells.map (fun c => pixAt c.1 c.2) := by
  rw [List.map_map]
  apply List.map_congr_left
  intro c hc
  obtain ⟨h1, h2⟩ := C144_number c.1 c.2 (h c hc)
  simp only [Function.comp]
  rw [h1, h2]

/-- C144. For densities the value of a pixel, times its area, is the sum over the pixels given with their centre in it of value times area; and so is the sum
over the whole map. -/
theorem C144_total (out : ℕ) (pixAt : ℕ → ℕ → ℕ) (cells : List (ℕ × ℕ)) (data : List ℝ) (order : List ℕ) (h : ∀ c ∈ cells, c.2 < 12 * 4 ^ c.1)
    (hl : data.length = cells.length) (ho : IsOrder (cells.map fun c => pixAt c.1 c.2) order) :
    ∃ m, moc out pixAt data (cells.map nuniq) order sumOf true (some 0) = some m ∧ m.length = 12 * 4 ^ out ∧
      (∀ p < 12 * 4 ^ out, ∃ v, m[p]? = some (some v) ∧ v * area out = (valuesIn (cells.map fun c => pixAt c.1 c.2) (parts data cells) p).sum) ∧
      ((∀ c ∈ cells, pixAt c.1 c.2 < 12 * 4 ^ out) → (m.map (fun v => v.getD 0 * area out)).sum = (parts data cells).sum) := by
  set ids := cells.map fun c => pixAt c.1 c.2 with hids
  have hlen : ids.length = (parts data cells).length := by
    unfold parts
    rw [hids, List.length_map, List.length_zipWith]
    omega
  obtain ⟨w, e, hw, hp⟩ := C143_map (12 * 4 ^ out) ids (parts data cells) order sumOf (some 0) hlen ho
  have ha := area_pos out
  have hval : ∀ p < 12 * 4 ^ out, ∃ v, (w.map (unBin true out (some 0)))[p]? = some (some v) ∧ v * area out = (valuesIn ids (parts data cells) p).sum := by
    intro p hpn
    have hun : ∀ v : ℝ, unBin true out (some 0) (some v) = some (v / area out) := by
      intro v
      unfold unBin
      simp only [if_true, Option.isSome_some, true_and, Option.some.injEq, Option.map_some]
      split_ifs with h0
      · rw [h0, zero_div]
      · rfl
    by_cases hin : p ∈ ids
    · obtain ⟨l, hperm, e2⟩ := (hp p hpn).1 hin
      refine ⟨l.sum / area out, ?_, ?_⟩
      · rw [List.getElem?_map, e2]
        simp only [sumOf, Option.map_some]
        rw [hun]
      · rw [div_mul_cancel₀ _ ha.ne', hperm.sum_eq]
    · refine ⟨0, ?_, ?_⟩
      · rw [List.getElem?_map, (hp p hpn).2 hin]
        simp only [Option.map_some]
        rw [hun, zero_div]
      · rw [zero_mul]
        unfold valuesIn
        rw [List.filter_eq_nil_iff.2]
        · simp
        · intro x hx
          have : x.1 ≠ p := by
            rintro rfl
            exact hin (List.of_mem_zip hx).1
          simpa using this
  refine ⟨w.map (unBin true out (some 0)), ?_, by rw [List.length_map, hw], hval, ?_⟩
  · unfold moc
    rw [moc_pixels pixAt cells h, toBin_parts data cells h, ← hids, e]
    rfl
  · intro hpix
    have hids' : ∀ i ∈ ids, i < 12 * 4 ^ out := by
      intro i hi
      obtain ⟨c, hc, rfl⟩ := List.mem_map.1 hi
      exact hpix c hc
    rw [← sum_valuesIn (12 * 4 ^ out) ids (parts data cells) hlen hids']
    congr 1
    apply List.ext_getElem?
    intro p
    by_cases hpn : p < 12 * 4 ^ out
    · obtain ⟨v, hv, hve⟩ := hval p hpn
      rw [List.getElem?_map, hv, List.getElem?_map, List.getElem?_range hpn]
      simp [hve]
    · rw [List.getElem?_eq_none (by simp [hw]; omega), List.getElem?_eq_none (by simp; omega)]

/-- C144: the areas by which densities are weighted: the pixels of one order have the area of the sphere together, and four of the next order that of one. -/
theorem C144_area (o : ℕ) : (12 * 4 ^ o : ℕ) * area o = 4 * Real.pi ∧ 4 * area (o + 1) = area o := by
  unfold area
  have h : (4 : ℝ) ^ o ≠ 0 := by positivity
  constructor
  · push_cast
    field_simp
  · rw [pow_succ]
    field_simp

/-- C144 in part. When the pixels given with their centre in a pixel of the map have its area together, the value of the pixel is a mean of theirs. Missing: pixels given
that are larger than those of the map. -/
theorem C144_mean_partial (out : ℕ) (pixAt : ℕ → ℕ → ℕ) (cells : List (ℕ × ℕ)) (data : List ℝ) (order : List ℕ) (h : ∀ c ∈ cells, c.2 < 12 * 4 ^ c.1)
    (hl : data.length = cells.length) (ho : IsOrder (cells.map fun c => pixAt c.1 c.2) order) (p : ℕ) (hp : p < 12 * 4 ^ out)
    (hcover : (valuesIn (cells.map fun c => pixAt c.1 c.2) (cells.map fun c => area c.1) p).sum = area out) (lo hi : ℝ)
    (hb : ∀ x ∈ valuesIn (cells.map fun c => pixAt c.1 c.2) data p, lo ≤ x ∧ x ≤ hi) :
    ∃ m, ∃ v : ℝ, moc out pixAt data (cells.map nuniq) order sumOf true (some 0) = some m ∧ m[p]? = some (some v) ∧ lo ≤ v ∧ v ≤ hi := by
  obtain ⟨m, e, -, hv, -⟩ := C144_total out pixAt cells data order h hl ho
  obtain ⟨v, hv1, hv2⟩ := hv p hp
  refine ⟨m, v, e, hv1, ?_⟩
  have ha := area_pos out
  have key : ∀ (cells : List (ℕ × ℕ)) (data : List ℝ), data.length = cells.length → (∀ x ∈ valuesIn (cells.map fun c => pixAt c.1 c.2) data p, lo ≤ x ∧ x ≤ hi) →
      lo * (valuesIn (cells.map fun c => pixAt c.1 c.2) (cells.map fun c => area c.1) p).sum ≤ (valuesIn (cells.map fun c => pixAt c.1 c.2) (parts data cells) p).sum ∧
      (valuesIn (cells.map fun c => pixAt c.1 c.2) (parts data cells) p).sum ≤ hi * (valuesIn (cells.map fun c => pixAt c.1 c.2) (cells.map fun c => area c.1) p).sum := by
    intro cells
    induction cells with
    | nil => intro data _ _; simp [valuesIn]
    | cons c cells ih =>
      intro data hl hb
      cases data with
      | nil => simp at hl
      | cons d data =>
        have hstep : ∀ (x : ℝ) (vs : List ℝ), valuesIn (pixAt c.1 c.2 :: cells.map fun c => pixAt c.1 c.2) (x :: vs) p =
            if pixAt c.1 c.2 = p then x :: valuesIn (cells.map fun c => pixAt c.1 c.2) vs p else valuesIn (cells.map fun c => pixAt c.1 c.2) vs p := by
          intro x vs
          unfold valuesIn
          rw [List.zip_cons_cons]
          split_ifs with h
          · rw [List.filter_cons_of_pos (by simpa using h)]
            rfl
          · rw [List.filter_cons_of_neg (by simpa using h)]
        have hparts : parts (d :: data) (c :: cells) = d * area c.1 :: parts data cells := rfl
        simp only [List.map_cons] at hb ⊢
        rw [hparts, hstep, hstep]
        rw [hstep] at hb
        have hac := area_pos c.1
        split_ifs with hc
        · rw [if_pos hc] at hb
          have h0 := hb d List.mem_cons_self
          have ih' := ih data (by simpa using hl) (fun x hx => hb x (List.mem_cons_of_mem _ hx))
          simp only [List.sum_cons]
          constructor <;> nlinarith [ih'.1, ih'.2, h0.1, h0.2]
        · rw [if_neg hc] at hb
          exact ih data (by simpa using hl) hb
  obtain ⟨k1, k2⟩ := key cells data hl hb
  rw [hcover, ← hv2] at k1 k2
  exact ⟨le_of_mul_le_mul_right k1 ha, le_of_mul_le_mul_right k2 ha⟩

/-- C144 does not hold in full: with fewer pixels given than the map has, as when they are larger, some pixel of the map stays empty, though those given may be the whole
sky. -/
theorem C144_coarse_violated (out : ℕ) (pixAt : ℕ → ℕ → ℕ) (cells : List (ℕ × ℕ)) (data : List ℝ) (order : List ℕ) (h : ∀ c ∈ cells, c.2 < 12 * 4 ^ c.1)
    (hl : data.length = cells.length) (ho : IsOrder (cells.map fun c => pixAt c.1 c.2) order) (hfew : cells.length < 12 * 4 ^ out) :
    ∃ m, ∃ p : ℕ, moc out pixAt data (cells.map nuniq) order sumOf true (some 0) = some m ∧ m[p]? = some (some 0) := by
  obtain ⟨m, e, -, hv, -⟩ := C144_total out pixAt cells data order h hl ho
  have hex : ∃ p < 12 * 4 ^ out, p ∉ cells.map fun c => pixAt c.1 c.2 := by
    by_contra hc
    push Not at hc
    have hsub : List.range (12 * 4 ^ out) ⊆ cells.map fun c => pixAt c.1 c.2 := fun p hp => hc p (List.mem_range.1 hp)
    have := (List.nodup_range.subperm hsub).length_le
    simp at this
    omega
  obtain ⟨p, hp, hpn⟩ := hex
  obtain ⟨v, hv1, hv2⟩ := hv p hp
  refine ⟨m, p, e, ?_⟩
  have h0 : (valuesIn (cells.map fun c => pixAt c.1 c.2) (parts data cells) p).sum = 0 := by
    unfold valuesIn
    rw [List.filter_eq_nil_iff.2]
    · simp
    · intro x hx
      have : x.1 ≠ p := by
        rintro rfl
        exact hpn (List.of_mem_zip hx).1
      simpa using this
  rw [h0] at hv2
  rw [hv1, (mul_eq_zero.1 hv2).resolve_right (area_pos out).ne']

/-- The twelve base pixels, and a map of one order more. -/
example : ∃ m, ∃ p : ℕ, moc 1 (fun _ p => 4 * p) (List.replicate 12 1) (((List.range 12).map fun p => (0, p)).map nuniq) (List.range 12) sumOf true (some 0) = some m ∧
    m[p]? = some (some 0) := by
  apply C144_coarse_violated
  · intro c hc
    obtain ⟨p, hp, rfl⟩ := List.mem_map.1 hc
    simpa using List.mem_range.1 hp
  · rw [List.length_replicate, List.length_map, List.length_range]
  · refine ⟨?_, ?_⟩ <;> decide
  · rw [List.length_map, List.length_range]; norm_num

end Verif
