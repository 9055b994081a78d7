import Verif.Props.Altitudes
import Mathlib.Data.List.Induction

/-!
# The table of nights (C146)
-/

namespace Verif

open Alt

/-- For rising values, an index is below the place of `x` exactly when its value is below `x`. -/
theorem alt_searchLeft {a : List ℚ} (hs : a.Pairwise (· < ·)) (x : ℚ) (i : ℕ) (hi : i < a.length) : i < Alt.searchLeft a x ↔ a[i] < x := by
  unfold Alt.searchLeft
  induction a generalizing i with
  | nil => simp at hi
  | cons b a ih =>
    rw [List.pairwise_cons] at hs
    by_cases hb : b < x
    · rw [List.takeWhile_cons_of_pos (by simpa using hb)]
      cases i with
      | zero => simpa using hb
      | succ i =>
        have := ih hs.2 i (by simpa using hi)
        rw [List.length_cons, List.getElem_cons_succ, Nat.succ_lt_succ_iff]
        exact this
    · rw [List.takeWhile_cons_of_neg (by simpa using hb)]
      simp only [List.length_nil, Nat.not_lt_zero, false_iff, not_lt]
      cases i with
      | zero => simpa using hb
      | succ i =>
        have := hs.1 _ (List.getElem_mem (l := a) (n := i) (by simpa using hi))
        simp only [List.getElem_cons_succ]
        linarith

theorem filter_drop {a : List ℚ} (hs : a.Pairwise (· < ·)) (x : ℚ) : a.filter (fun b => decide (x ≤ b)) = a.drop (Alt.searchLeft a x) := by
  unfold Alt.searchLeft
  induction a with
  | nil => rfl
  | cons b a ih =>
    rw [List.pairwise_cons] at hs
    by_cases hb : b < x
    · rw [List.takeWhile_cons_of_pos (by simpa using hb), List.filter_cons_of_neg (by simpa using hb), ih hs.2]
      rfl
    · rw [List.takeWhile_cons_of_neg (by simpa using hb)]
      simp only [List.length_nil, List.drop_zero]
      rw [List.filter_eq_self]
      intro c hc
      rcases List.mem_cons.1 hc with rfl | hc
      · simpa using hb
      · have := hs.1 c hc
        have := not_lt.1 hb
        simp
        linarith

theorem range_filter_ge (n k : ℕ) (hk : k ≤ n) : (List.range n).filter (fun i => decide (k ≤ i)) = (List.range (n - k)).map (· + k) := by
  induction n with
  | zero =>
    have : k = 0 := by omega
    subst this
    rfl
  | succ n ih =>
    rw [List.range_succ, List.filter_append]
    by_cases h : k ≤ n
    · rw [ih h, List.filter_cons_of_pos (by simpa using h), Nat.succ_sub h, List.range_succ, List.map_append]
      simp
      omega
    · have hk' : k = n + 1 := by omega
      subst hk'
      rw [List.filter_cons_of_neg (by simp), List.filter_eq_nil_iff.2]
      · simp
      · intro i hi
        have := List.mem_range.1 hi
        simp
        omega

theorem nightNumbers_get {sunsets : List ℚ} {start : ℚ} {ns : List ℤ} (h : nightNumbers sunsets start = some ns) :
    Alt.searchLeft sunsets start < sunsets.length ∧ ns.length = sunsets.length ∧
      ∀ i < sunsets.length, ns.getD i 0 = (i : ℤ) + 1 - Alt.searchLeft sunsets start := by
  unfold nightNumbers at h
  split_ifs at h with hc
  rw [Option.some.injEq] at h
  subst h
  refine ⟨hc, by simp, fun i hi => ?_⟩
  rw [List.getD_eq_getElem?_getD, List.getElem?_map, List.getElem?_range hi]
  simp
  omega

theorem kept_eq {sunsets : List ℚ} {start : ℚ} {ns : List ℤ} (h : nightNumbers sunsets start = some ns) :
    kept ns = (List.range (sunsets.length - Alt.searchLeft sunsets start - 1)).map (· + Alt.searchLeft sunsets start) := by
  obtain ⟨h1, h2, h3⟩ := nightNumbers_get h
  unfold kept
  rw [h2]
  have : (List.range sunsets.length).filter (fun i => decide (0 < ns.getD i 0)) = (List.range sunsets.length).filter (fun i => decide (Alt.searchLeft sunsets start ≤ i)) := by
    apply List.filter_congr
    intro i hi
    rw [h3 i (List.mem_range.1 hi)]
    congr 1
    simp only [eq_iff_iff]
    omega
  rw [this, range_filter_ge _ _ h1.le]
  obtain ⟨m, hm⟩ : ∃ m, sunsets.length - Alt.searchLeft sunsets start = m + 1 := ⟨sunsets.length - Alt.searchLeft sunsets start - 1, by omega⟩
  rw [hm, List.range_succ, List.map_append]
  simp

/-- C146. The nights have the numbers 1, 2, 3 and so on, and they are those with the sunsets from the start on, but for the last one. -/
theorem C146_rows (sunsets events : List ℚ) (start : ℚ) (hs : sunsets.Pairwise (· < ·)) (rows : List Row) (h : table sunsets events start = some rows) :
    rows.length + 1 = (sunsets.filter (fun s => decide (start ≤ s))).length ∧
      ∀ k (hk : k < rows.length), rows[k].night = k + 1 ∧ (sunsets.filter (fun s => decide (start ≤ s)))[k]? = some rows[k].sunset := by
  unfold table at h
  rw [Option.map_eq_some_iff] at h
  obtain ⟨ns, hns, rfl⟩ := h
  obtain ⟨h1, h2, h3⟩ := nightNumbers_get hns
  rw [filter_drop hs, kept_eq hns]
  refine ⟨by simp; omega, ?_⟩
  intro k hk
  simp only [List.length_map, List.length_range] at hk
  simp only [List.getElem_map, List.getElem_range]
  refine ⟨by rw [h3 _ (by omega)]; push_cast; ring, ?_⟩
  rw [List.getElem?_drop, List.getD_eq_getElem?_getD, Nat.add_comm, List.getElem?_eq_getElem (by omega)]
  rfl

/-! ### Events -/

theorem place_length (sunsets col : List ℚ) (e : ℚ) : (place sunsets col e).length = col.length := by
  unfold place
  split_ifs <;> simp

theorem column_length (sunsets events : List ℚ) : (column sunsets events).length = sunsets.length := by
  unfold column
  have : ∀ col : List ℚ, (events.foldl (place sunsets) col).length = col.length := by
    induction events with
    | nil => intro col; rfl
    | cons e es ih => intro col; rw [List.foldl_cons, ih, place_length]
  rw [this, List.length_replicate]

theorem column_get (sunsets events : List ℚ) (i : ℕ) (hi : i < sunsets.length) (h0 : 0 < i) :
    (column sunsets events)[i]? = some ((events.filter (fun e => decide (Alt.searchLeft sunsets e = i + 1))).getLast?.getD 0) := by
  unfold column
  induction events using List.reverseRecOn with
  | nil => simp [List.getElem?_replicate, hi]
  | append_singleton es e ih =>
    have hlen := column_length sunsets es
    unfold column at hlen
    rw [List.foldl_append, List.foldl_cons, List.foldl_nil, List.filter_append]
    generalize es.foldl (place sunsets) (List.replicate sunsets.length 0) = col at hlen ih ⊢
    unfold place
    by_cases hc : Alt.searchLeft sunsets e = i + 1
    · rw [if_pos (by omega), hc, Nat.add_sub_cancel, List.getElem?_set_self (by rw [hlen]; exact hi), List.filter_cons_of_pos (by simpa using hc)]
      simp
    · rw [List.filter_cons_of_neg (by simpa using hc)]
      simp only [List.filter_nil, List.append_nil]
      split_ifs with h1
      · rw [List.getElem?_set_ne (by omega)]
        exact ih
      · exact ih

theorem searchLeft_between {a : List ℚ} (hs : a.Pairwise (· < ·)) (x : ℚ) (i : ℕ) (hi : i + 1 < a.length) :
    Alt.searchLeft a x = i + 1 ↔ a[i] < x ∧ x ≤ a[i + 1] := by
  have h1 := alt_searchLeft hs x i (by omega)
  have h2 := alt_searchLeft hs x (i + 1) hi
  rw [← h1, ← not_lt, ← h2]
  omega

/-- C146 in part. When a sunset is before the start, the event of a night is the last one after its sunset and up to the next sunset, and zero when there is none.
Missing: the first of all sunsets, and a value that says that there is none. -/
theorem C146_event_partial (sunsets events : List ℚ) (start : ℚ) (hs : sunsets.Pairwise (· < ·)) (hfirst : ∃ s ∈ sunsets, s < start) (rows : List Row)
    (h : table sunsets events start = some rows) (k : ℕ) (hk : k < rows.length) :
    ∃ next, (sunsets.filter (fun s => decide (start ≤ s)))[k + 1]? = some next ∧
      rows[k].event = (events.filter (fun e => decide (rows[k].sunset < e ∧ e ≤ next))).getLast?.getD 0 := by
  unfold table at h
  rw [Option.map_eq_some_iff] at h
  obtain ⟨ns, hns, rfl⟩ := h
  obtain ⟨h1, h2, h3⟩ := nightNumbers_get hns
  have hpos : 0 < Alt.searchLeft sunsets start := by
    obtain ⟨s, hs', hlt⟩ := hfirst
    obtain ⟨i, hi, rfl⟩ := List.getElem_of_mem hs'
    have := (alt_searchLeft hs start i hi).2 hlt
    omega
  have hk' : k < sunsets.length - Alt.searchLeft sunsets start - 1 := by
    simpa [kept_eq hns] using hk
  refine ⟨sunsets[k + 1 + Alt.searchLeft sunsets start]'(by omega), ?_, ?_⟩
  · rw [filter_drop hs, List.getElem?_drop, Nat.add_comm, List.getElem?_eq_getElem (by omega)]
  · have hrow : ∀ (l : List ℕ) (hl : l = (List.range (sunsets.length - Alt.searchLeft sunsets start - 1)).map (· + Alt.searchLeft sunsets start)) (hk : k < (l.map fun i => (⟨ns.getD i 0, sunsets.getD i 0, (column sunsets events).getD i 0⟩ : Row)).length),
        (l.map fun i => (⟨ns.getD i 0, sunsets.getD i 0, (column sunsets events).getD i 0⟩ : Row))[k] =
          ⟨ns.getD (k + Alt.searchLeft sunsets start) 0, sunsets.getD (k + Alt.searchLeft sunsets start) 0, (column sunsets events).getD (k + Alt.searchLeft sunsets start) 0⟩ := by
      intro l hl hk
      subst hl
      simp
    rw [hrow _ (kept_eq hns) hk]
    simp only
    have hc := column_get sunsets events (k + Alt.searchLeft sunsets start) (by omega) (by omega)
    rw [List.getD_eq_getElem?_getD, hc, Option.getD_some]
    congr 2
    apply List.filter_congr
    intro e _
    congr 1
    rw [searchLeft_between hs e _ (by omega), List.getD_eq_getElem?_getD, List.getElem?_eq_getElem (by omega)]
    simp only [Option.getD_some, eq_iff_iff]
    have : k + Alt.searchLeft sunsets start + 1 = k + 1 + Alt.searchLeft sunsets start := by omega
    simp only [this]

/-- C146 does not hold in full: a night without an event, as it may have no rise of the moon, gets the time zero, and so does the first of all nights though it has an event;
of two events in a night the first is lost. -/
theorem C146_none_violated : table [0, 1, 2, 3, 4] [1 / 2, 5 / 2] (1 / 2) = some [⟨1, 1, 0⟩, ⟨2, 2, 5 / 2⟩, ⟨3, 3, 0⟩] ∧
    table [0, 1, 2] [1 / 2] 0 = some [⟨1, 0, 0⟩, ⟨2, 1, 0⟩] ∧ table [0, 1, 2] [5 / 4, 3 / 2] (1 / 2) = some [⟨1, 1, 3 / 2⟩] := by decide +kernel

example : [(0 : ℚ), 1, 2, 3, 4].Pairwise (· < ·) ∧ (∃ s ∈ [(0 : ℚ), 1, 2, 3, 4], s < 1 / 2) := by decide +kernel

end Verif
