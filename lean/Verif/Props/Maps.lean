import Verif.Props.Weather

/-!
Properties C45 (store of cloud maps) and C86 (nights of the almanac).
-/

namespace Verif

open Wx Bands

/-! ### C45 -/

/-- The most recent additions, at most `n`. -/
def newest {α : Type} (n : ℕ) (l : List α) : List α := l.drop (l.length - n)

theorem lexLe_sorted (l : List ℚ) (h : l.Pairwise (· ≤ ·)) : lexLe l.dropLast l.tail = true := by
  induction l with
  | nil => rfl
  | cons a l ih =>
    cases l with
    | nil => rfl
    | cons b l =>
      rw [List.pairwise_cons] at h
      have h1 := h.1 b (by simp)
      have h2 := ih h.2
      rw [List.dropLast_cons_cons, List.tail_cons]
      rw [List.tail_cons] at h2
      unfold lexLe
      by_cases hab : a = b
      · rw [if_pos hab]
        exact h2
      · rw [if_neg hab]
        simpa using lt_of_le_of_ne h1 hab

theorem newest_append {α : Type} (n : ℕ) (l : List α) (a : α) : newest n (newest n l ++ [a]) = newest n (l ++ [a]) := by
  unfold newest
  simp only [List.length_append, List.length_drop, List.length_singleton]
  rcases Nat.lt_or_ge l.length n with h | h
  · rw [Nat.sub_eq_zero_of_le h.le, List.drop_zero, Nat.sub_zero]
  · have e1 : l.length - (l.length - n) + 1 - n = 1 := by omega
    have e2 : l.length + 1 - n = (l.length - n) + 1 := by omega
    rw [e1, e2]
    have hle : l.length - n ≤ l.length := by omega
    rw [← List.drop_append_of_le_length hle, List.drop_drop]

/-- **C45 (partial), additions in order of time.** If maps are added in order of time, no addition raises and the store
holds exactly the last ones added, at most the given number: the newest. -/
theorem C45_store_partial {V : Type} (n : ℕ) (frames : List (ℚ × V)) (hs : (frames.map Prod.fst).Pairwise (· ≤ ·)) :
    (addAll n ⟨[], []⟩ frames).2 = 0 ∧
    (addAll n ⟨[], []⟩ frames).1.mjds = newest n (frames.map Prod.fst) ∧ (addAll n ⟨[], []⟩ frames).1.maps = newest n (frames.map Prod.snd) ∧
    (addAll n ⟨[], []⟩ frames).1.mjds.length ≤ n := by
  have key : ∀ (fs done : List (ℚ × V)), ((done ++ fs).map Prod.fst).Pairwise (· ≤ ·) →
      (addAll n ⟨newest n (done.map Prod.fst), newest n (done.map Prod.snd)⟩ fs).2 = 0 ∧
      (addAll n ⟨newest n (done.map Prod.fst), newest n (done.map Prod.snd)⟩ fs).1 =
        ⟨newest n ((done ++ fs).map Prod.fst), newest n ((done ++ fs).map Prod.snd)⟩ := by
    intro fs
    induction fs with
    | nil => intro done _; simp [addAll]
    | cons f fs ih =>
      intro done hd
      have happ : done ++ f :: fs = (done ++ [f]) ++ fs := by simp
      have hadd : add n ⟨newest n (done.map Prod.fst), newest n (done.map Prod.snd)⟩ f.1 f.2 =
          (⟨newest n ((done ++ [f]).map Prod.fst), newest n ((done ++ [f]).map Prod.snd)⟩, true) := by
        have hsort : (newest n (done.map Prod.fst) ++ [f.1]).Pairwise (· ≤ ·) := by
          have h1 : ((done ++ [f]).map Prod.fst).Pairwise (· ≤ ·) := by
            rw [happ, List.map_append, List.pairwise_append] at hd
            exact hd.1
          rw [List.map_append] at h1
          refine List.Pairwise.sublist ?_ h1
          exact List.Sublist.append (List.drop_sublist _ _) (List.Sublist.refl _)
        unfold add
        dsimp only
        rw [if_pos (lexLe_sorted _ hsort)]
        have hl : (newest n (done.map Prod.fst) ++ [f.1]).length = (newest n (done.map Prod.snd) ++ [f.2]).length := by
          simp [newest]
        rw [List.map_append, List.map_append, List.map_singleton, List.map_singleton, ← newest_append n (done.map Prod.fst), ← newest_append n (done.map Prod.snd)]
        unfold trim
        dsimp only
        conv_lhs => rw [show ∀ (a b : List ℚ) (c : List V), (⟨a.drop (b.length - n), c⟩ : Maps V) = ⟨a.drop (b.length - n), c⟩ from fun _ _ _ => rfl]
        congr 2
        rw [hl]; rfl
      unfold addAll
      dsimp only
      rw [hadd]
      dsimp only
      obtain ⟨i1, i2⟩ := ih (done ++ [f]) (by rw [← happ]; exact hd)
      rw [i1, i2, happ]
      exact ⟨by simp, rfl⟩
  have h := key frames [] (by simpa using hs)
  have h0 : (⟨newest n (([] : List (ℚ × V)).map Prod.fst), newest n (([] : List (ℚ × V)).map Prod.snd)⟩ : Maps V) = ⟨[], []⟩ := by simp [newest]
  rw [h0, List.nil_append] at h
  refine ⟨h.1, by rw [h.2], by rw [h.2], ?_⟩
  rw [h.2]
  dsimp only
  unfold newest
  rw [List.length_drop]; omega

example : (addAll 2 ⟨[], []⟩ [(1, "a"), (2, "b"), (2, "c"), (5, "d")]).1.maps = ["c", "d"] ∧
    (addAll 2 ⟨[], []⟩ [(1, "a"), (2, "b"), (2, "c"), (5, "d")]).1.mjds = [2, 5] := by decide +kernel

/-- **C45, look-up.** In any store with as many maps as times and at least one, the map given is the first of those nearest in
time, and clear sky if even these are farther than the limit. -/
theorem C45_closest {V : Type} (limit : ℚ) (s : Maps V) (hlen : s.maps.length = s.mjds.length) (hne : s.mjds ≠ []) (mjd : ℚ) :
    ∃ (i : ℕ) (m : ℚ) (v : V), s.mjds[i]? = some m ∧ s.maps[i]? = some v ∧ (∀ m' ∈ s.mjds, |m - mjd| ≤ |m' - mjd|) ∧
      (∀ (j : ℕ) (m' : ℚ), j < i → s.mjds[j]? = some m' → |m - mjd| < |m' - mjd|) ∧
      closest limit s mjd = some (if limit < |m - mjd| then none else some v) := by
  unfold closest
  cases hm : s.mjds.map (fun m => |m - mjd|) with
  | nil => exact absurd (List.map_eq_nil_iff.1 hm) hne
  | cons d ds =>
    obtain ⟨f1, f2, f3⟩ := foldl_min_spec ds d
    dsimp only
    generalize ds.foldl min d = mn at *
    have hex : mn ∈ d :: ds := by
      rcases f3 with h | h
      · rw [h]; simp
      · exact List.mem_cons_of_mem _ h
    have hall : ∀ x ∈ d :: ds, mn ≤ x := by
      intro x hx
      rcases List.mem_cons.1 hx with rfl | hx
      · exact f1
      · exact f2 x hx
    rw [← hm] at hex hall ⊢
    have hi : (s.mjds.map (fun m => |m - mjd|)).findIdx (fun x => x == mn) < (s.mjds.map (fun m => |m - mjd|)).length :=
      List.findIdx_lt_length_of_exists ⟨mn, hex, by simp⟩
    have hat := List.findIdx_getElem (w := hi)
    have hbef : ∀ j, j < (s.mjds.map (fun m => |m - mjd|)).findIdx (fun x => x == mn) → ∀ hj, (s.mjds.map (fun m => |m - mjd|))[j]'hj ≠ mn := by
      intro j hj hj'
      have := List.not_of_lt_findIdx hj
      simpa using this
    generalize (s.mjds.map (fun m => |m - mjd|)).findIdx (fun x => x == mn) = i at *
    rw [List.length_map] at hi
    rw [List.getElem_map, beq_iff_eq] at hat
    refine ⟨i, s.mjds[i], s.maps[i], List.getElem?_eq_getElem hi, List.getElem?_eq_getElem (by omega), ?_, ?_, ?_⟩
    · intro m' hm'
      rw [hat]
      exact hall _ (List.mem_map_of_mem (f := fun m => |m - mjd|) hm')
    · intro j m' hj hj'
      obtain ⟨hl, e⟩ := List.getElem?_eq_some_iff.1 hj'
      have h1 := hbef j hj (by rw [List.length_map]; exact hl)
      rw [List.getElem_map, e] at h1
      rw [hat]
      exact lt_of_le_of_ne (hall _ (List.mem_map_of_mem (f := fun m => |m - mjd|) (e ▸ List.getElem_mem hl))) (Ne.symm h1)
    · rw [hat]
      by_cases hl : limit < mn
      · rw [if_pos hl, if_pos hl]
      · rw [if_neg hl, if_neg hl, List.getElem?_eq_getElem (by omega)]; rfl

example : closest 3 ⟨[1, 5, 7], ["a", "b", "c"]⟩ 6 = some (some "b") ∧ closest 3 ⟨[1, 5, 7], ["a", "b", "c"]⟩ 11 = some none := by decide +kernel

/-- **C45 fails** without maps: a look-up raises. -/
theorem C45_empty_violated {V : Type} (limit mjd : ℚ) : closest limit (⟨[], []⟩ : Maps V) mjd = none := rfl

theorem lexLe_append (l : List ℚ) (x : ℚ) (h : lexLe l.dropLast l.tail = false) : lexLe (l ++ [x]).dropLast (l ++ [x]).tail = false := by
  rw [List.dropLast_concat]
  induction l with
  | nil => simp [lexLe] at h
  | cons a l ih =>
    cases l with
    | nil => simp [lexLe] at h
    | cons b l =>
      rw [List.dropLast_cons_cons, List.tail_cons] at h
      rw [List.cons_append, List.tail_cons]
      unfold lexLe at h ⊢
      rw [List.cons_append]
      by_cases hab : a = b
      · rw [if_pos hab] at h
        dsimp only
        rw [if_pos hab]
        have := ih h
        rw [List.cons_append, List.tail_cons] at this
        exact this
      · rw [if_neg hab] at h
        dsimp only
        rw [if_neg hab]; exact h

/-- **C45 fails** once an addition has raised: all further ones raise too, whatever their times, and the store grows
without limit. -/
theorem C45_growth_violated {V : Type} (n : ℕ) (s : Maps V) (mjd : ℚ) (v : V) (h : (add n s mjd v).2 = false) (fs : List (ℚ × V)) :
    (addAll n (add n s mjd v).1 fs).2 = fs.length ∧
    (addAll n (add n s mjd v).1 fs).1.mjds.length = s.mjds.length + 1 + fs.length := by
  have hbad : ∀ (s : Maps V) (mjd : ℚ) (v : V), (add n s mjd v).2 = false →
      (add n s mjd v).1.mjds = s.mjds ++ [mjd] ∧ lexLe (s.mjds ++ [mjd]).dropLast (s.mjds ++ [mjd]).tail = false := by
    intro s mjd v h
    unfold add at h ⊢
    dsimp only at h ⊢
    by_cases hc : lexLe (s.mjds ++ [mjd]).dropLast (s.mjds ++ [mjd]).tail = true
    · rw [if_pos hc] at h; cases h
    · rw [if_neg hc]; exact ⟨rfl, by simpa using hc⟩
  obtain ⟨e1, e2⟩ := hbad s mjd v h
  have key : ∀ (fs : List (ℚ × V)) (s : Maps V), lexLe s.mjds.dropLast s.mjds.tail = false →
      (addAll n s fs).2 = fs.length ∧ (addAll n s fs).1.mjds.length = s.mjds.length + fs.length := by
    intro fs
    induction fs with
    | nil => intro s _; simp [addAll]
    | cons f fs ih =>
      intro s hs
      have hl := lexLe_append s.mjds f.1 hs
      have hadd : (add n s f.1 f.2) = (⟨s.mjds ++ [f.1], s.maps ++ [f.2]⟩, false) := by
        unfold add; dsimp only
        rw [hl]; rfl
      unfold addAll
      dsimp only
      rw [hadd]
      dsimp only
      obtain ⟨i1, i2⟩ := ih ⟨s.mjds ++ [f.1], s.maps ++ [f.2]⟩ hl
      rw [i1, i2]
      simp
      omega
  obtain ⟨k1, k2⟩ := key fs (add n s mjd v).1 (by rw [e1]; exact e2)
  rw [e1, List.length_append, List.length_singleton] at k2
  exact ⟨k1, k2⟩

/-- Two maps in the wrong order are enough for that. -/
theorem C45_growth_witness : (add 2 (add 2 ⟨[], []⟩ 5 "a").1 4 "b").2 = false ∧
    (addAll 2 ⟨[], []⟩ [(5, "a"), (4, "b"), (6, "c"), (7, "d"), (8, "e")]).1.mjds = [5, 4, 6, 7, 8] := by decide +kernel

/-- **C45 fails** for a late map: it is kept at the end, and newer ones are removed before it. -/
theorem C45_late_violated : (addAll 2 ⟨[], []⟩ [(1, "a"), (9, "b"), (3, "c"), (4, "d")]).2 = 1 ∧
    (addAll 2 ⟨[], []⟩ [(1, "a"), (9, "b"), (3, "c")]).1.maps = ["b", "c"] ∧
    (addAll 3 ⟨[], []⟩ [(1, "a"), (2, "b"), (9, "c"), (3, "d"), (4, "e")]).1.maps = ["c", "d", "e"] ∧
    (addAll 3 ⟨[], []⟩ [(1, "a"), (2, "b"), (9, "c"), (3, "d"), (4, "e"), (5, "f")]).1.maps = ["c", "d", "e", "f"] := by decide +kernel

/-! ### C86 -/

theorem searchRight_count (l : List ℚ) (h : l.Pairwise (· < ·)) (x : ℚ) :
    ∀ i (hi : i < l.length), l[i] ≤ x ↔ i < searchRight l x := by
  unfold searchRight
  induction l with
  | nil => intro i hi; simp at hi
  | cons b l ih =>
    rw [List.pairwise_cons] at h
    intro i hi
    by_cases hb : b ≤ x
    · rw [List.takeWhile_cons_of_pos (by simpa using hb), List.length_cons]
      cases i with
      | zero => simp [hb]
      | succ i =>
        rw [List.getElem_cons_succ, ih h.2 i (by simpa using hi)]
        omega
    · rw [List.takeWhile_cons_of_neg (by simpa using hb), List.length_nil]
      constructor
      · intro hx
        cases i with
        | zero => exact absurd hx hb
        | succ i =>
          have := h.1 _ (List.getElem_mem (by simpa using hi : i < l.length))
          rw [List.getElem_cons_succ] at hx
          exact absurd (le_trans this.le hx) hb
      · intro hx; omega

theorem searchRight_le (l : List ℚ) (x : ℚ) : searchRight l x ≤ l.length := by
  unfold searchRight
  exact List.Sublist.length_le (List.takeWhile_sublist _)

/-- The night `i` is going on, or the day after it: its sunset has passed and the next one has not. -/
def During (sunsets : List ℚ) (mjd : ℚ) (i : ℕ) : Prop :=
  (∃ s, sunsets[i]? = some s ∧ s ≤ mjd) ∧ ∀ s, sunsets[i + 1]? = some s → mjd < s

/-- **C86 (partial).** From the first sunset on, the night given for a time is the one whose sunset came last. -/
theorem C86_night_partial {V : Type} (sunsets : List ℚ) (nights : List V) (hs : sunsets.Pairwise (· < ·)) (hlen : nights.length = sunsets.length)
    (mjd : ℚ) (h : ∃ s ∈ sunsets, s ≤ mjd) :
    ∃ i : ℕ, nightIndex sunsets mjd = (i : ℤ) ∧ During sunsets mjd i ∧ (∀ j, During sunsets mjd j → j = i) ∧ nightAt sunsets nights mjd = nights[i]? ∧ i < nights.length := by
  have hc := searchRight_count sunsets hs mjd
  have hle := searchRight_le sunsets mjd
  obtain ⟨s, hs1, hs2⟩ := h
  obtain ⟨k, hk, rfl⟩ := List.getElem_of_mem hs1
  have hpos := (hc k hk).1 hs2
  have hdur : During sunsets mjd (searchRight sunsets mjd - 1) := by
    refine ⟨⟨sunsets[searchRight sunsets mjd - 1], List.getElem?_eq_getElem (by omega), (hc _ (by omega)).2 (by omega)⟩, fun s hs => ?_⟩
    obtain ⟨hl, rfl⟩ := List.getElem?_eq_some_iff.1 hs
    by_contra hn
    have := (hc _ hl).1 (not_lt.1 hn)
    omega
  refine ⟨searchRight sunsets mjd - 1, ?_, hdur, ?_, ?_, by omega⟩
  · unfold nightIndex; omega
  · rintro j ⟨⟨s, hj, hjm⟩, hj2⟩
    obtain ⟨hl, rfl⟩ := List.getElem?_eq_some_iff.1 hj
    have h1 := (hc j hl).1 hjm
    by_contra hne
    have hl2 : j + 1 < sunsets.length := by omega
    have h2 := hj2 _ (List.getElem?_eq_getElem hl2)
    have h3 := (hc (j + 1) hl2).2 (by omega)
    exact absurd h3 (not_le.2 h2)
  · unfold nightAt before; rw [if_neg (by omega)]

example : nightAt [10, 11, 12] ["a", "b", "c"] (23 / 2) = some "b" ∧ nightAt [10, 11, 12] ["a", "b", "c"] 11 = some "b" := by decide +kernel

/-- **C86 fails** before the first sunset: the last night is given. -/
theorem C86_before_violated {V : Type} (sunsets : List ℚ) (nights : List V) (hs : sunsets.Pairwise (· < ·)) (mjd : ℚ) (h : ∀ s ∈ sunsets, mjd < s) :
    nightAt sunsets nights mjd = nights.getLast? ∧ nightIndex sunsets mjd = -1 := by
  have h0 : searchRight sunsets mjd = 0 := by
    by_contra hc
    have hle := searchRight_le sunsets mjd
    have := (searchRight_count sunsets hs mjd 0 (by omega)).2 (by omega)
    exact absurd this (not_le.2 (h _ (List.getElem_mem _)))
  unfold nightAt nightIndex before
  rw [h0]; exact ⟨rfl, rfl⟩

/-- **C86, numbers of nights.** If the almanac has a sunset before the start and a later one, and its nights are numbered one after the
other, then the first sunset at or after the start begins night 1. -/
theorem C86_first_night (sunsets : List ℚ) (nights : List ℤ) (hs : sunsets.Pairwise (· < ·)) (hlen : nights.length = sunsets.length)
    (hn : ∀ (i : ℕ) (a b : ℤ), nights[i]? = some a → nights[i + 1]? = some b → b = a + 1) (start : ℚ) (k : ℕ) (a b : ℚ)
    (hk : sunsets[k]? = some a) (hk1 : sunsets[k + 1]? = some b) (ha : a < start) (hb : start ≤ b) :
    ∃ r, renumber sunsets nights start = some r ∧ r[k + 1]? = some 1 ∧ r.length = nights.length ∧
      ∀ (i : ℕ) (a b : ℤ), r[i]? = some a → r[i + 1]? = some b → b = a + 1 := by
  have hc := searchLeft_count sunsets (hs.imp le_of_lt) start
  obtain ⟨l1, e1⟩ := List.getElem?_eq_some_iff.1 hk
  obtain ⟨l2, e2⟩ := List.getElem?_eq_some_iff.1 hk1
  have h1 := (hc k l1).1 (by rw [e1]; exact ha)
  have h2 : ¬ k + 1 < searchLeft sunsets start := fun h => absurd ((hc (k + 1) l2).2 h) (by rw [e2]; exact not_lt.2 hb)
  have hidx : searchLeft sunsets start = k + 1 := by omega
  unfold renumber before
  rw [hidx, if_neg (by omega), Nat.add_sub_cancel, List.getElem?_eq_getElem (by omega : k < nights.length)]
  refine ⟨_, rfl, ?_, by simp, ?_⟩
  · rw [List.getElem?_map, List.getElem?_eq_getElem (by omega : k + 1 < nights.length)]
    have := hn k _ _ (List.getElem?_eq_getElem (by omega)) (List.getElem?_eq_getElem (by omega : k + 1 < nights.length))
    rw [this]; simp
  · intro i a b ha hb
    rw [List.getElem?_map, Option.map_eq_some_iff] at ha hb
    obtain ⟨a', ha', rfl⟩ := ha
    obtain ⟨b', hb', rfl⟩ := hb
    rw [hn i a' b' ha' hb']; ring

example : renumber [10, 11, 12, 13] [5, 6, 7, 8] (23 / 2) = some [-1, 0, 1, 2] := by decide +kernel

/-- **C86 (partial), dates.** On a computer whose clock is not ahead of UTC (by less than a day behind), the index found for an evening
is that of the night whose sunset is on that date in local time, if there is just one. -/
theorem C86_evening_partial (sunsets : List ℚ) (longitude zone : ℚ) (hz : zone ≤ 0) (hz1 : -1 < zone) (day : ℤ) (i : ℕ) :
    eveningIndex sunsets longitude zone day = some i ↔
      (∃ s, sunsets[i]? = some s ∧ ⌊s + longitude⌋ = day) ∧ ∀ (j : ℕ) s, sunsets[j]? = some s → ⌊s + longitude⌋ = day → j = i := by
  have hday : eveningMjd zone day = day := by
    unfold eveningMjd
    rw [Int.floor_eq_iff]
    constructor <;> linarith
  unfold eveningIndex
  rw [hday]
  have hmem : ∀ j, j ∈ (List.range sunsets.length).filter (fun i => decide ((sunsets[i]?).map (fun s => ⌊s + longitude⌋) = some day)) ↔
      ∃ s, sunsets[j]? = some s ∧ ⌊s + longitude⌋ = day := by
    intro j
    rw [List.mem_filter, List.mem_range, decide_eq_true_iff, Option.map_eq_some_iff]
    constructor
    · exact fun h => h.2
    · rintro ⟨s, h1, h2⟩
      exact ⟨(List.getElem?_eq_some_iff.1 h1).1, s, h1, h2⟩
  have hnd : ((List.range sunsets.length).filter (fun i => decide ((sunsets[i]?).map (fun s => ⌊s + longitude⌋) = some day))).Nodup :=
    List.nodup_range.filter _
  generalize (List.range sunsets.length).filter (fun i => decide ((sunsets[i]?).map (fun s => ⌊s + longitude⌋) = some day)) = l at *
  constructor
  · intro h
    split at h
    · next k =>
      cases h
      refine ⟨(hmem i).1 (by simp), fun j s h1 h2 => ?_⟩
      simpa using (hmem j).2 ⟨s, h1, h2⟩
    · cases h
  · rintro ⟨h1, h2⟩
    have hi := (hmem i).2 h1
    have hall : ∀ j ∈ l, j = i := fun j hj => by
      obtain ⟨s, g1, g2⟩ := (hmem j).1 hj
      exact h2 j s g1 g2
    have : l = [i] := by
      match l, hnd, hi, hall with
      | [], _, hi, _ => simp at hi
      | [j], _, hi, _ => simp at hi; rw [hi]
      | j :: k :: l, hnd, _, hall =>
        have e1 := hall j (by simp)
        have e2 := hall k (by simp)
        rw [e1, e2] at hnd
        simp at hnd
    rw [this]

example : eveningIndex [319 / 2, 321 / 2] (-1 / 5) 0 160 = some 1 := by decide +kernel

/-- **C86 fails** on a computer ahead of UTC: the night before is found. -/
theorem C86_zone_violated : eveningIndex [319 / 2, 321 / 2] (-1 / 5) (1 / 24) 160 = some 0 := by decide +kernel

end Verif
