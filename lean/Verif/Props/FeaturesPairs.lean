import Verif.Props.FeaturesLast
import Mathlib.Data.List.DropRight
import Mathlib.Data.Finset.Card
import Mathlib.Data.Finset.Range
import Mathlib.Data.Finset.Insert

/-!
Property C35: the pair counter counts, for each sky position, the visits of the current night
that follow another visit of the night within the gap.
-/

namespace Verif

open Feat

/-! ### The span of log entries -/

theorem trim_end {α : Type} (f : α → Bool) : ∀ l : List α, l.Pairwise (fun a b => f b = true → f a = true) →
    ((l.reverse.dropWhile (fun x => !f x)).reverse) = l.filter f := by
  intro l
  induction l using List.reverseRecOn with
  | nil => intro _; rfl
  | append_singleton l x ih =>
    intro h
    rw [List.pairwise_append] at h
    rw [List.reverse_append]
    simp only [List.reverse_cons, List.reverse_nil, List.nil_append, List.singleton_append, List.dropWhile_cons,
      List.filter_append]
    by_cases hx : f x = true
    · have hall : l.filter f = l := by
        rw [List.filter_eq_self]
        exact fun a ha => h.2.2 a ha x (by simp) hx
      simp [hx, hall]
    · simp only [Bool.not_eq_true] at hx
      simp only [hx, Bool.not_false, if_true, List.filter_cons, List.filter_nil]
      rw [ih h.1]; simp

theorem trim_both {α : Type} (f : α → Bool) (key : α → ℚ) (lo hi : ℚ)
    (hf : ∀ a, f a = true ↔ lo < key a ∧ key a < hi) : ∀ l : List α, l.Pairwise (fun a b => key b ≤ key a) →
    ((((l.dropWhile (fun x => !f x)).reverse).dropWhile (fun x => !f x)).reverse) = l.filter f := by
  intro l
  induction l with
  | nil => intro _; rfl
  | cons a l ih =>
    intro h
    rw [List.pairwise_cons] at h
    by_cases ha : f a = true
    · have e : (a :: l).dropWhile (fun x => !f x) = a :: l := by simp [List.dropWhile_cons, ha]
      rw [e]
      apply trim_end
      have hhi := ((hf a).1 ha).2
      rw [List.pairwise_cons]
      refine ⟨fun _ _ _ => ha, ?_⟩
      apply h.2.imp_of_mem
      intro x y hx hy hxy hfy
      rw [hf] at hfy ⊢
      exact ⟨lt_of_lt_of_le hfy.1 hxy, lt_of_le_of_lt (h.1 x hx) hhi⟩
    · simp only [Bool.not_eq_true] at ha
      have e : (a :: l).dropWhile (fun x => !f x) = l.dropWhile (fun x => !f x) := by simp [List.dropWhile_cons, ha]
      rw [e, ih h.2, List.filter_cons, ha]
      rfl

/-- Entries of the log whose gap to the time lies inside the limits. -/
def inGap (c : Pairs.Cfg) (t : ℚ) (x : ℚ × ℕ) : Bool := decide (c.gapMin < t - x.1 ∧ t - x.1 < c.gapMax)

theorem span_eq (c : Pairs.Cfg) (log : List (ℚ × ℕ)) (t : ℚ) (h0 : c.gapMin ≠ 0) (h1 : c.gapMax ≠ 0)
    (hs : log.Pairwise (fun a b => a.1 ≤ b.1))
    (hc : ∀ x ∈ log, Clear c.gapMin (t - x.1) ∧ Clear c.gapMax (t - x.1)) :
    Pairs.span c log t = (log.filter (inGap c t)).map Prod.snd := by
  have hr : Pairs.inRange c log t = log.map (inGap c t) := by
    unfold Pairs.inRange
    have e1 : log.map (fun x => (t - x.1, c.gapMin)) = (log.map (fun x => t - x.1)).map (fun d => (d, c.gapMin)) := by
      rw [List.map_map]; rfl
    have e2 : log.map (fun x => (t - x.1, c.gapMax)) = (log.map (fun x => t - x.1)).map (fun d => (d, c.gapMax)) := by
      rw [List.map_map]; rfl
    rw [e1, e2, gtA_const _ h0, ltA_const _ h1, List.map_map, List.map_map]
    · rw [List.zipWith_map, List.zipWith_self]
      apply List.map_congr_left
      intro x _
      simp [inGap, Function.comp]
    · intro d hd
      obtain ⟨x, hx, rfl⟩ := List.mem_map.1 hd
      exact (hc x hx).2
    · intro d hd
      obtain ⟨x, hx, rfl⟩ := List.mem_map.1 hd
      exact (hc x hx).1
  have hz : ∀ (f : ℚ × ℕ → Bool) (l : List (ℚ × ℕ)), l.zip (l.map f) = l.map (fun r => (r, f r)) := by
    intro f l
    induction l with
    | nil => rfl
    | cons a l ih => simp [ih]
  unfold Pairs.span
  rw [hr, hz, List.dropWhile_map, ← List.map_reverse, List.dropWhile_map, ← List.map_reverse, List.map_map]
  have := trim_both (inGap c t) (fun x => t - x.1) c.gapMin c.gapMax (fun a => by simp [inGap]) log
    (hs.imp (fun h => by linarith))
  simp only [Function.comp_def] at this ⊢
  rw [this]

/-! ### Specification -/

/-- The `i`-th of the visits covers the pixel and follows one that covers it within the
gap. -/
def Follows (c : Pairs.Cfg) (p : ℕ) (l : List Vis) (i : ℕ) : Prop :=
  ∃ v, l[i]? = some v ∧ p ∈ v.pix ∧ ∃ j < i, ∃ u, l[j]? = some u ∧ p ∈ u.pix ∧ c.gapMin < v.mjd - u.mjd ∧
    v.mjd - u.mjd < c.gapMax

open Classical in
/-- The number of such visits. -/
noncomputable def pairCount (c : Pairs.Cfg) (l : List Vis) (p : ℕ) : ℕ := ((Finset.range l.length).filter (Follows c p l)).card

/-- No gap between two visits is at a limit. -/
def GapsClear (c : Pairs.Cfg) (l : List Vis) : Prop :=
  c.gapMin ≠ 0 ∧ c.gapMax ≠ 0 ∧
  l.Pairwise (fun u v => Clear c.gapMin (v.mjd - u.mjd) ∧ Clear c.gapMax (v.mjd - u.mjd))

theorem pairCount_nil (c : Pairs.Cfg) (p : ℕ) : pairCount c [] p = 0 := by
  simp [pairCount]

theorem follows_old (c : Pairs.Cfg) (p : ℕ) (l : List Vis) (v : Vis) {i : ℕ} (hi : i < l.length) :
    Follows c p (l ++ [v]) i ↔ Follows c p l i := by
  unfold Follows
  rw [List.getElem?_append_left hi]
  constructor
  · rintro ⟨w, h1, h2, j, hj, u, hu, h3⟩
    rw [List.getElem?_append_left (by omega)] at hu
    exact ⟨w, h1, h2, j, hj, u, hu, h3⟩
  · rintro ⟨w, h1, h2, j, hj, u, hu, h3⟩
    refine ⟨w, h1, h2, j, hj, u, ?_, h3⟩
    rw [List.getElem?_append_left (by omega)]; exact hu

theorem follows_new (c : Pairs.Cfg) (p : ℕ) (l : List Vis) (v : Vis) :
    Follows c p (l ++ [v]) l.length ↔ p ∈ v.pix ∧ ∃ u ∈ l, p ∈ u.pix ∧ c.gapMin < v.mjd - u.mjd ∧ v.mjd - u.mjd < c.gapMax := by
  unfold Follows
  constructor
  · rintro ⟨w, h1, h2, j, hj, u, hu, h3⟩
    rw [List.getElem?_concat_length, Option.some.injEq] at h1
    subst h1
    rw [List.getElem?_append_left hj] at hu
    exact ⟨h2, u, List.mem_of_getElem? hu, h3⟩
  · rintro ⟨h2, u, hu, h3⟩
    obtain ⟨j, hj, hju⟩ := List.mem_iff_getElem.1 hu
    refine ⟨v, List.getElem?_concat_length, h2, j, hj, u, ?_, h3⟩
    rw [List.getElem?_append_left hj, List.getElem?_eq_getElem hj, hju]

open Classical in
theorem pairCount_snoc (c : Pairs.Cfg) (l : List Vis) (v : Vis) (p : ℕ) : pairCount c (l ++ [v]) p =
    pairCount c l p +
      if p ∈ v.pix ∧ ∃ u ∈ l, p ∈ u.pix ∧ c.gapMin < v.mjd - u.mjd ∧ v.mjd - u.mjd < c.gapMax then 1 else 0 := by
  unfold pairCount
  have e : (l ++ [v]).length = l.length + 1 := by simp
  rw [e, Finset.range_add_one, Finset.filter_insert]
  have h1 : (Finset.range l.length).filter (Follows c p (l ++ [v])) = (Finset.range l.length).filter (Follows c p l) := by
    apply Finset.filter_congr
    intro i hi
    exact follows_old c p l v (Finset.mem_range.1 hi)
  rw [h1]
  by_cases hn : p ∈ v.pix ∧ ∃ u ∈ l, p ∈ u.pix ∧ c.gapMin < v.mjd - u.mjd ∧ v.mjd - u.mjd < c.gapMax
  · rw [if_pos hn, if_pos ((follows_new c p l v).2 hn), Finset.card_insert_of_notMem (by simp)]
  · rw [if_neg hn, if_neg (fun h => hn ((follows_new c p l v).1 h)), Nat.add_zero]

/-! ### The single path -/

/-- The visits in the wanted band on a night. -/
def today (c : Pairs.Cfg) (n : ℤ) (h : List Vis) : List Vis := h.filter (fun v => decide (InBand c.band v) && v.night == n)

/-- The state after the visits `l` of night `n`. -/
noncomputable def pairsOf (c : Pairs.Cfg) (n : ℤ) (l : List Vis) : Pairs :=
  ⟨n, pairCount c l, l.flatMap (fun v => v.pix.map (fun p => (v.mjd, p)))⟩

theorem pairs_add (c : Pairs.Cfg) (n : ℤ) (l : List Vis) (v : Vis) (hv : v.night = n)
    (hs : (l ++ [v]).Pairwise (fun a b => a.mjd ≤ b.mjd)) (hg : GapsClear c (l ++ [v])) :
    Pairs.add c (pairsOf c n l) v.night v.mjd v.pix = pairsOf c n (l ++ [v]) := by
  classical
  have hlog : (l.flatMap (fun v => v.pix.map (fun p => (v.mjd, p)))).Pairwise (fun a b => a.1 ≤ b.1) := by
    have : l.Pairwise (fun a b => a.mjd ≤ b.mjd) := (List.pairwise_append.1 hs).1
    rw [List.pairwise_flatMap]
    refine ⟨fun a _ => ?_, this.imp ?_⟩
    · rw [List.pairwise_map]
      exact List.pairwise_of_forall (fun _ _ => le_rfl)
    · intro a b hab x hx y hy
      obtain ⟨p, _, rfl⟩ := List.mem_map.1 hx
      obtain ⟨q, _, rfl⟩ := List.mem_map.1 hy
      exact hab
  have hclear : ∀ x ∈ l.flatMap (fun v => v.pix.map (fun p => (v.mjd, p))),
      Clear c.gapMin (v.mjd - x.1) ∧ Clear c.gapMax (v.mjd - x.1) := by
    intro x hx
    obtain ⟨u, hu, hx⟩ := List.mem_flatMap.1 hx
    obtain ⟨p, _, rfl⟩ := List.mem_map.1 hx
    exact (List.pairwise_append.1 hg.2.2).2.2 u hu v (by simp)
  have hspan := span_eq c _ v.mjd hg.1 hg.2.1 hlog hclear
  unfold Pairs.add
  have hn : ¬ (pairsOf c n l).night ≠ v.night := by simp [pairsOf, hv]
  rw [if_neg hn]
  unfold pairsOf
  simp only [hspan]
  congr 1
  · funext p
    rw [pairCount_snoc]
    have hiff : (p ∈ v.pix ∧ p ∈ ((l.flatMap (fun v => v.pix.map (fun p => (v.mjd, p)))).filter (inGap c v.mjd)).map Prod.snd) ↔
        p ∈ v.pix ∧ ∃ u ∈ l, p ∈ u.pix ∧ c.gapMin < v.mjd - u.mjd ∧ v.mjd - u.mjd < c.gapMax := by
      apply and_congr_right
      intro _
      simp only [List.mem_map, List.mem_filter, List.mem_flatMap, inGap, decide_eq_true_eq]
      constructor
      · rintro ⟨x, ⟨⟨u, hu, q, hq, rfl⟩, h1, h2⟩, rfl⟩
        exact ⟨u, hu, hq, h1, h2⟩
      · rintro ⟨u, hu, hq, h1, h2⟩
        exact ⟨(u.mjd, p), ⟨⟨u, hu, p, hq, rfl⟩, h1, h2⟩, rfl⟩
    by_cases hp : p ∈ v.pix ∧ ∃ u ∈ l, p ∈ u.pix ∧ c.gapMin < v.mjd - u.mjd ∧ v.mjd - u.mjd < c.gapMax
    · rw [if_pos hp, if_pos (hiff.2 hp)]
    · rw [if_neg hp, if_neg (fun h => hp (hiff.1 h)), Nat.add_zero]
  · simp

theorem pairs_add_new (c : Pairs.Cfg) (s : Pairs) (v : Vis) (hs : s.night ≠ v.night) :
    Pairs.add c s v.night v.mjd v.pix = Pairs.add c (pairsOf c v.night []) v.night v.mjd v.pix := by
  unfold Pairs.add
  have e : pairsOf c v.night [] = ⟨v.night, fun _ => 0, []⟩ := by
    unfold pairsOf
    congr
  rw [e, if_pos hs, if_neg (by simp)]

theorem bandOk_iff {c : Pairs.Cfg} {v : Vis} (h1 : ∀ b ∈ c.band, OneLetter b) (h2 : OneLetter v.band) :
    Pairs.bandOk c v.band = decide (InBand c.band v) := by
  unfold Pairs.bandOk InBand
  cases hb : c.band with
  | none => simp
  | some b =>
    have := isIn_letters h2 (h1 b (by rw [hb]; rfl))
    simp only [this]
    rw [Bool.eq_iff_iff]
    simp

/-- The counter before the first visit of a night. -/
theorem pairsOf_zero (c : Pairs.Cfg) : Pairs.init = pairsOf c 0 [] := by
  unfold pairsOf Pairs.init
  congr

theorem gapsClear_sub {c : Pairs.Cfg} {a b : List Vis} (h : a.Sublist b) (hg : GapsClear c b) : GapsClear c a :=
  ⟨hg.1, hg.2.1, hg.2.2.sublist h⟩

theorem pairs_foldl (c : Pairs.Cfg) (h : List Vis) (hc : Chrono h) (hl : Letters c.band h) (hg : GapsClear c h) :
    ∃ n, h.foldl (Pairs.one c) Pairs.init = pairsOf c n (today c n h) ∧
      (∀ v ∈ h, InBand c.band v → v.night ≤ n) ∧ ((∃ v ∈ h, InBand c.band v ∧ v.night = n) ∨
        n = 0 ∧ ∀ v ∈ h, ¬ InBand c.band v) := by
  induction h using List.reverseRecOn with
  | nil => exact ⟨0, by rw [List.foldl_nil, pairsOf_zero c]; rfl, by simp, .inr ⟨rfl, by simp⟩⟩
  | append_singleton h v ih =>
    obtain ⟨hch, hle⟩ := chrono_snoc hc
    have hl' : Letters c.band h := ⟨hl.1, fun u hu => hl.2 u (by simp [hu])⟩
    have hg' : GapsClear c h := gapsClear_sub (List.sublist_append_left _ _) hg
    obtain ⟨n, hn, hmax, hlast⟩ := ih hch hl' hg'
    have hb := bandOk_iff hl.1 (hl.2 v (by simp))
    rw [List.foldl_append, hn]
    simp only [List.foldl_cons, List.foldl_nil]
    unfold Pairs.one
    rw [hb]
    by_cases hv : InBand c.band v
    · rw [if_pos (by simpa using hv)]
      refine ⟨v.night, ?_, ?_, .inl ⟨v, by simp, hv, rfl⟩⟩
      · have hsub : (today c v.night (h ++ [v])) = today c v.night h ++ [v] := by
          unfold today
          rw [List.filter_append]
          simp [hv]
        have hsort : (today c v.night h ++ [v]).Pairwise (fun a b => a.mjd ≤ b.mjd) := by
          rw [← hsub]
          exact (hc.imp (fun h => h.1)).sublist List.filter_sublist
        have hgg : GapsClear c (today c v.night h ++ [v]) := by
          rw [← hsub]; exact gapsClear_sub List.filter_sublist hg
        rw [hsub]
        by_cases hnv : n = v.night
        · subst hnv
          exact pairs_add c _ _ v rfl hsort hgg
        · have hempty : today c v.night h = [] := by
            unfold today
            rw [List.filter_eq_nil_iff]
            intro u hu
            simp only [Bool.and_eq_true, decide_eq_true_eq, beq_iff_eq, not_and]
            intro hub hun
            rcases hlast with ⟨w, hw, _, hwn⟩ | ⟨_, hnone⟩
            · have := hmax u hu hub
              have h2 := (hle w hw).2
              omega
            · exact hnone u hu hub
          rw [hempty] at hsort hgg ⊢
          rw [pairs_add_new c _ v hnv]
          exact pairs_add c _ _ v rfl hsort hgg
      · intro u hu hub
        rcases List.mem_append.1 hu with hu | hu
        · exact (hle u hu).2
        · rw [List.mem_singleton.1 hu]
    · rw [if_neg (by simpa using hv)]
      refine ⟨n, ?_, ?_, ?_⟩
      · have : today c n (h ++ [v]) = today c n h := by
          unfold today
          rw [List.filter_append]
          simp [hv]
        rw [this]
      · intro u hu hub
        rcases List.mem_append.1 hu with hu | hu
        · exact hmax u hu hub
        · rw [List.mem_singleton.1 hu] at hub
          exact (hv hub).elim
      · rcases hlast with ⟨w, hw, h2⟩ | ⟨h1, h2⟩
        · exact .inl ⟨w, by simp [hw], h2⟩
        · refine .inr ⟨h1, fun u hu hub => ?_⟩
          rcases List.mem_append.1 hu with hu | hu
          · exact h2 u hu hub
          · rw [List.mem_singleton.1 hu] at hub
            exact hv hub

/-- C35: after any history reported visit by visit, in whose last night there was a visit in
the band, the counter of each pixel is the number of visits of that night that follow another
one of that night within the gap. Missing: gaps that are exactly at a limit
(`C35_limit_gap_violated`), nights without a visit in the band so far (`C35_not_reset`), and most bulk loads
(`C35_bulk_violated`). -/
theorem C35_pairs_partial (c : Pairs.Cfg) (h : List Vis) (l : Vis) (hl : h.getLast? = some l) (hc : Chrono h)
    (hb : Letters c.band h) (hg : GapsClear c h) (hv : ∃ v ∈ h, InBand c.band v ∧ v.night = l.night) (p : ℕ) :
    (h.foldl (Pairs.one c) Pairs.init).count p =
      pairCount c (h.filter (fun v => decide (InBand c.band v) && v.night == l.night)) p := by
  obtain ⟨n, hn, hmax, hlast⟩ := pairs_foldl c h hc hb hg
  obtain ⟨v, hv, hvb, hvn⟩ := hv
  have : n = l.night := by
    obtain ⟨g, rfl⟩ := List.getLast?_eq_some_iff.1 hl
    rcases hlast with ⟨w, hw, _, hwn⟩ | ⟨_, hnone⟩
    · have h1 := hmax v hv hvb
      have h2 : w.night ≤ l.night := by
        rcases List.mem_append.1 hw with hw | hw
        · exact ((chrono_snoc hc).2 w hw).2
        · rw [List.mem_singleton.1 hw]
      omega
    · exact (hnone v hv hvb).elim
  subst this
  rw [hn]
  rfl

/-! ### The bulk path -/

theorem pick_filter (f : ℕ × Vis → ℕ) (i : ℕ) : ∀ all : List (ℕ × Vis),
    Pairs.pick all ((List.range all.length).filter (fun k => (all.map f)[k]? == some i)) = all.filter (fun r => f r == i) := by
  intro all
  unfold Pairs.pick
  have hgen : ∀ m, m ≤ all.length → ((List.range m).filter (fun k => (all.map f)[k]? == some i)).filterMap (fun i => all[i]?) =
      (all.take m).filter (fun r => f r == i) := by
    intro m
    induction m with
    | zero => intro _; rfl
    | succ m ih =>
      intro hm
      have hlt : m < all.length := by omega
      rw [List.range_succ, List.filter_append, List.filterMap_append, ih (by omega), List.take_add_one, List.filter_append]
      congr 1
      rw [List.getElem?_eq_getElem hlt]
      simp only [List.filter_cons, List.filter_nil, List.getElem?_map, List.getElem?_eq_getElem hlt, Option.map_some,
        Option.toList_some]
      by_cases h : f all[m] = i
      · simp [h, List.getElem?_eq_getElem hlt]
      · simp [h]
  have := hgen all.length (le_refl _)
  rw [List.take_length] at this
  exact this

theorem rows_of_id {h : List Vis} (hid : h.Pairwise (fun a b => a.ID < b.ID)) {v : Vis} (hv : v ∈ h) :
    (rows h).filter (fun r => r.2.ID == v.ID) = v.pix.map (fun p => (p, v)) := by
  induction h with
  | nil => simp at hv
  | cons u h ih =>
    rw [List.pairwise_cons] at hid
    have e : rows (u :: h) = rows [u] ++ rows h := rows_append [u] h
    rw [e, List.filter_append]
    rcases List.mem_cons.1 hv with rfl | hv
    · have h1 : (rows [v]).filter (fun r => r.2.ID == v.ID) = rows [v] := by
        rw [List.filter_eq_self]
        intro r hr
        have := (mem_rows.1 hr).1
        simp only [List.mem_singleton] at this
        simp [this]
      have h2 : (rows h).filter (fun r => r.2.ID == v.ID) = [] := by
        rw [List.filter_eq_nil_iff]
        intro r hr
        have := hid.1 r.2 (mem_rows.1 hr).1
        simp; omega
      rw [h1, h2, List.append_nil, rows_one]
    · have h1 : (rows [u]).filter (fun r => r.2.ID == v.ID) = [] := by
        rw [List.filter_eq_nil_iff]
        intro r hr
        have hru := (mem_rows.1 hr).1
        simp only [List.mem_singleton] at hru
        have := hid.1 v hv
        rw [hru]
        simp; omega
      rw [h1, List.nil_append, ih hid.2 hv]

theorem uid_eq {h : List Vis} (hid : h.Pairwise (fun a b => a.ID < b.ID)) (hp : ∀ v ∈ h, v.pix ≠ []) :
    (((rows h).map (fun r => r.2.ID)).dedup).insertionSort (· ≤ ·) = h.map Vis.ID := by
  have hs : (h.map Vis.ID).Pairwise (· < ·) := by
    rw [List.pairwise_map]; exact hid
  have hnd : (h.map Vis.ID).Nodup := hs.imp (fun h => h.ne)
  have hperm : (((rows h).map (fun r => r.2.ID)).dedup).insertionSort (· ≤ ·) |>.Perm (h.map Vis.ID) := by
    refine (List.perm_insertionSort _ _).trans ?_
    rw [List.perm_ext_iff_of_nodup (List.nodup_dedup _) hnd]
    intro i
    simp only [List.mem_dedup, List.mem_map]
    constructor
    · rintro ⟨r, hr, rfl⟩; exact ⟨r.2, (mem_rows.1 hr).1, rfl⟩
    · rintro ⟨v, hv, rfl⟩
      obtain ⟨q, hq⟩ := List.exists_mem_of_ne_nil _ (hp v hv)
      exact ⟨(q, v), mem_rows.2 ⟨hv, hq⟩, rfl⟩
  have hsort : ((((rows h).map (fun r => r.2.ID)).dedup).insertionSort (· ≤ ·)).Pairwise (· ≤ ·) :=
    List.pairwise_insertionSort _ _
  exact hperm.eq_of_pairwise (fun a b _ _ h1 h2 => le_antisymm h1 h2) hsort (hs.imp (fun h => h.le))

/-- C35: loading in bulk agrees with loading visit by visit when all visits of the batch are of one
night, have increasing identifiers and cover some pixel, and bands are single letters. -/
theorem C35_bulk_partial (c : Pairs.Cfg) (s : Pairs) (h : List Vis) (n : ℤ) (hn : ∀ v ∈ h, v.night = n)
    (hid : h.Pairwise (fun a b => a.ID < b.ID)) (hp : ∀ v ∈ h, v.pix ≠ []) (hl : ∀ v ∈ h, OneLetter v.band) :
    Pairs.bulk c s h = h.foldl (Pairs.one c) s := by
  by_cases hne : h = []
  · subst hne; simp [Pairs.bulk, rows]
  have hmax : ((rows h).map (fun r => r.2.night)).max? = some n := by
    rw [List.max?_eq_some_iff]
    obtain ⟨v, hv⟩ := List.exists_mem_of_ne_nil _ hne
    obtain ⟨q, hq⟩ := List.exists_mem_of_ne_nil _ (hp v hv)
    constructor
    · exact List.mem_map.2 ⟨(q, v), mem_rows.2 ⟨hv, hq⟩, hn v hv⟩
    · intro b hb
      obtain ⟨r, hr, rfl⟩ := List.mem_map.1 hb
      exact le_of_eq (hn r.2 (mem_rows.1 hr).1)
  have hall : (rows h).filter (fun r => r.2.night == n) = rows h := by
    rw [List.filter_eq_self]
    intro r hr
    simp [hn r.2 (mem_rows.1 hr).1]
  unfold Pairs.bulk
  simp only [hmax]
  rw [hall, uid_eq hid hp, List.foldl_map]
  have hstep : ∀ (g : List Vis) (s : Pairs), (∀ v ∈ g, v ∈ h) →
      g.foldl (fun s v => match Pairs.pick (rows h) ((List.range (rows h).length).filter
        (fun k => ((rows h).map (fun r => r.2.ID))[k]? == some v.ID)) with
      | [] => s
      | r :: rs => if Pairs.bandOk c (String.ofList (r.2.band.toList.take 1)) then
          Pairs.add c s r.2.night r.2.mjd ((r :: rs).map Prod.fst) else s) s = g.foldl (Pairs.one c) s := by
    intro g
    induction g with
    | nil => intro s _; rfl
    | cons v g ih =>
      intro s hg
      simp only [List.foldl_cons]
      rw [ih _ (fun u hu => hg u (by simp [hu]))]
      congr 1
      have hv := hg v (by simp)
      rw [pick_filter (fun r => r.2.ID) v.ID (rows h), rows_of_id hid hv]
      obtain ⟨q, ps, hpix⟩ := List.exists_cons_of_ne_nil (hp v hv)
      obtain ⟨x, hx⟩ := hl v hv
      have hband : String.ofList (v.band.toList.take 1) = v.band := by
        rw [hx]
        simp only [List.take_succ_cons, List.take_zero]
        rw [← hx, String.ofList_toList]
      unfold Pairs.one
      rw [hpix]
      simp only [List.map_cons, hband, List.map_map]
      congr
      simp [Function.comp_def]
  exact hstep h s (fun v hv => hv)

/-! ### Where the code departs -/

/-- Gap of 25 to 45 minutes in days. -/
def gaps : Pairs.Cfg := ⟨some "r", 25/1440, 45/1440⟩

/-- C35 fails for the code in bulk loads of more than one night: the places of the rows of the
last night are used as places in the whole batch, so that visits of earlier nights are taken instead. Here two visits
30 minutes apart in the last night are not found to be a pair. -/
theorem C35_bulk_violated :
    let h := [vis 1 10 1 "r" "a" [7], vis 2 11 2 "r" "a" [7], vis 3 (11 + 30/1440) 2 "r" "a" [7]]
    (h.foldl (Pairs.one gaps) Pairs.init).count 7 = 1 ∧ (Pairs.bulk gaps Pairs.init h).count 7 = 0 ∧
    (Pairs.bulk gaps Pairs.init h).log = [(11, 7)] := by
  decide +kernel

/-- C35 fails for the code when a gap is at the limit: one is 25 minutes, the other 30; the
comparison at the limit makes the comparison of all gaps coarse, and neither counts, though the longer one does by itself. -/
theorem C35_limit_gap_violated :
    let h := [vis 1 10 1 "r" "a" [7], vis 2 (10 + 5/1440) 1 "r" "a" [8], vis 3 (10 + 30/1440) 1 "r" "a" [7, 8]]
    (h.foldl (Pairs.one gaps) Pairs.init).count 7 = 0 ∧
    ([vis 1 10 1 "r" "a" [7], vis 3 (10 + 30/1440) 1 "r" "a" [7, 8]].foldl (Pairs.one gaps) Pairs.init).count 7 = 1 := by
  decide +kernel

/-- C35 fails for the code until the first visit in the band of a night: the pairs of the
night before are still there. -/
theorem C35_not_reset :
    let h := [vis 1 10 1 "r" "a" [7], vis 2 (10 + 30/1440) 1 "r" "a" [7], vis 3 11 2 "g" "a" [7]]
    (h.foldl (Pairs.one gaps) Pairs.init).count 7 = 1 ∧ (h.foldl (Pairs.one gaps) Pairs.init).night = 1 := by
  decide +kernel

/-- A night with two pairs. -/
def pairNight : List Vis :=
  [vis 1 10 1 "r" "a" [7], vis 2 11 2 "r" "a" [7, 8], vis 3 (11 + 1/1440) 2 "g" "a" [7, 8], vis 4 (11 + 30/1440) 2 "r" "a" [8, 9],
   vis 5 (11 + 31/1440) 2 "r" "a" [7]]

example : GapsClear gaps pairNight ∧ Chrono pairNight ∧ (pairNight.foldl (Pairs.one gaps) Pairs.init).count 8 = 1 ∧
    (pairNight.foldl (Pairs.one gaps) Pairs.init).count 9 = 0 := by
  unfold GapsClear gaps Clear Chrono pairNight vis
  refine ⟨⟨by norm_num, by norm_num, ?_⟩, ?_, ?_, ?_⟩ <;> decide +kernel

example : (Pairs.bulk gaps Pairs.init (pairNight.drop 1)).count 8 = 1 := by decide +kernel

end Verif
