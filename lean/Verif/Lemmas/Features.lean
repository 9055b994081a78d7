import Verif.Spec.Features
import Verif.Lemmas.IntRounded
import Mathlib.Tactic.Linarith

namespace Verif.Feat

/-! ### Tolerant comparison of many values with one limit -/

theorem checkLimit_const (g : ℚ) (hg : g ≠ 0) (ds : List ℚ) (h : ∀ d ∈ ds, Clear g d) :
    checkLimit Tol.default (ds.map (fun d => (d, g))) = ds.map (fun d => (d, g)) := by
  have ht : (0 : ℚ) ≤ Tol.default.limit := by norm_num [Tol.default]
  apply checkLimit_far _ ht
  · intro p hp
    obtain ⟨d, hd, rfl⟩ := List.mem_map.1 hp
    exact lt_of_le_of_lt (mul_le_mul_of_nonneg_left (min_le_right _ _) ht) (h d hd)
  · intro om hom p hp _
    obtain ⟨d, hd, rfl⟩ := List.mem_map.1 hp
    have hb := (minOrderOfMag_le hom hp).2 hg
    have := le_trans (zpow10_mono hb) (zpow_orderOfMag_le hg)
    exact lt_of_le_of_lt (mul_le_mul_of_nonneg_left this ht) (h d hd)

theorem gtA_const (g : ℚ) (hg : g ≠ 0) (ds : List ℚ) (h : ∀ d ∈ ds, Clear g d) :
    gtA Tol.default (ds.map (fun d => (d, g))) = ds.map (fun d => decide (g < d)) := by
  simp [gtA, checkLimit_const g hg ds h]

theorem ltA_const (g : ℚ) (hg : g ≠ 0) (ds : List ℚ) (h : ∀ d ∈ ds, Clear g d) :
    ltA Tol.default (ds.map (fun d => (d, g))) = ds.map (fun d => decide (d < g)) := by
  simp [ltA, checkLimit_const g hg ds h]

theorem geA_const (g : ℚ) (hg : g ≠ 0) (ds : List ℚ) (h : ∀ d ∈ ds, Clear g d) :
    geA Tol.default (ds.map (fun d => (d, g))) = ds.map (fun d => decide (g ≤ d)) := by
  simp [geA, checkLimit_const g hg ds h]

theorem leS_const (g : ℚ) (hg : g ≠ 0) (d : ℚ) (h : Clear g d) : leS Tol.default d g = decide (d ≤ g) := by
  have := checkLimit_const g hg [d] (by simpa using h)
  simp only [List.map_cons, List.map_nil] at this
  by_cases hd : d ≤ g <;> simp [leS, leA, this, hd]

/-! ### Strings, rows, folds -/

theorem isIn_letters {a b : String} (ha : OneLetter a) (hb : OneLetter b) : isIn a b = (a == b) := by
  obtain ⟨x, hx⟩ := ha
  obtain ⟨y, hy⟩ := hb
  rw [Bool.eq_iff_iff]
  simp only [isIn, hx, hy, decide_eq_true_eq, beq_iff_eq]
  constructor
  · intro h
    have : [x] = [y] := h.eq_of_length rfl
    rw [← hx, ← hy] at this
    exact String.ext this
  · rintro rfl
    rw [hx] at hy
    rw [hy]

theorem rows_append (a b : List Vis) : rows (a ++ b) = rows a ++ rows b := by simp [rows]

theorem rows_one (v : Vis) : rows [v] = v.pix.map (fun p => (p, v)) := by simp [rows]

theorem mem_rows {h : List Vis} {r : ℕ × Vis} : r ∈ rows h ↔ r.2 ∈ h ∧ r.1 ∈ r.2.pix := by
  simp only [rows, List.mem_flatMap, List.mem_map]
  constructor
  · rintro ⟨v, hv, p, hp, rfl⟩; exact ⟨hv, hp⟩
  · rintro ⟨h1, h2⟩; exact ⟨r.2, h1, r.1, h2, rfl⟩

theorem countP_pix {l : List ℕ} (h : l.Nodup) (p : ℕ) : l.countP (fun q => q == p) = if p ∈ l then 1 else 0 := by
  have : l.countP (fun q => q == p) = l.count p := rfl
  rw [this]
  by_cases hp : p ∈ l
  · rw [if_pos hp, List.count_eq_one_of_mem h hp]
  · rw [if_neg hp, List.count_eq_zero_of_not_mem hp]

/-- Rows of a pixel that pass a test count the visits that cover it and pass. -/
theorem binCount_rows (g : ℕ → Vis → Bool) (p : ℕ) : ∀ h : List Vis, Footprints h →
    binCount ((rows h).filter (fun r => g r.1 r.2)) p = h.countP (fun v => g p v && decide (p ∈ v.pix)) := by
  intro h
  induction h with
  | nil => intro _; simp [rows, binCount]
  | cons v h ih =>
    intro hf
    have e : rows (v :: h) = rows [v] ++ rows h := rows_append [v] h
    rw [e, List.filter_append]
    unfold binCount at ih ⊢
    rw [List.countP_append, ih (fun u hu => hf u (List.mem_cons_of_mem _ hu)), List.countP_cons, Nat.add_comm]
    congr 1
    rw [rows_one, List.filter_map, List.countP_map, List.countP_filter]
    have h2 : v.pix.countP (fun q => (((fun r : ℕ × Vis => r.1 == p) ∘ fun p => (p, v)) q) &&
        (((fun r : ℕ × Vis => g r.1 r.2) ∘ fun p => (p, v)) q)) =
        v.pix.countP (fun q => (q == p) && g p v) := by
      apply List.countP_congr
      intro q _
      simp only [Function.comp]
      by_cases hq : q = p
      · subst hq; simp
      · simp [hq]
    rw [h2]
    by_cases hg : g p v = true
    · simp only [hg, Bool.and_true, Bool.true_and, countP_pix (hf v (by simp)) p, decide_eq_true_eq]
    · simp only [Bool.not_eq_true] at hg
      simp [hg]

/-- Induction from the end: a bulk update that follows the single updates. -/
theorem bulk_eq_foldl {S : Type} (one : S → Vis → S) (bulk : S → List Vis → S) (P : List Vis → Prop) (s : S)
    (hnil : bulk s [] = s) (hsub : ∀ h v, P (h ++ [v]) → P h)
    (hstep : ∀ h v, P (h ++ [v]) → bulk s (h ++ [v]) = one (bulk s h) v) :
    ∀ h, P h → bulk s h = h.foldl one s := by
  intro h
  induction h using List.reverseRecOn with
  | nil => intro _; simpa using hnil
  | append_singleton h v ih =>
    intro hp
    rw [hstep h v hp, ih (hsub h v hp), List.foldl_append]
    rfl

theorem chrono_snoc {h : List Vis} {v : Vis} (hc : Chrono (h ++ [v])) :
    Chrono h ∧ ∀ u ∈ h, u.mjd ≤ v.mjd ∧ u.night ≤ v.night := by
  unfold Chrono at hc
  rw [List.pairwise_append] at hc
  exact ⟨hc.1, fun u hu => hc.2.2 u hu v (by simp)⟩

theorem maxNight_snoc {h : List Vis} {v : Vis} (hle : ∀ u ∈ h, u.night ≤ v.night) :
    ((h ++ [v]).map Vis.night).max? = some v.night := by
  rw [List.max?_eq_some_iff]
  constructor
  · simp
  · intro b hb
    simp only [List.map_append, List.map_cons, List.map_nil, List.mem_append, List.mem_map, List.mem_singleton] at hb
    rcases hb with ⟨u, hu, rfl⟩ | rfl
    · exact hle u hu
    · exact le_rfl

theorem getLast?_filter_snoc {p : Vis → Bool} (h : List Vis) (v : Vis) :
    ((h ++ [v]).filter p).getLast? = if p v then some v else (h.filter p).getLast? := by
  rw [List.filter_append]
  by_cases hv : p v = true
  · simp [hv]
  · simp [hv]

end Verif.Feat
