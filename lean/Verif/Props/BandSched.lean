import Verif.Model.BandSched
import Verif.Props.IntRounded
import Mathlib.Tactic.Linarith

/-!
Properties C42, C82 and C83: which bands are mounted.
-/

namespace Verif

open Bands

/-! ### C42 -/

/-- The set for dark time. -/
def darkSet : List String := ["u", "g", "r", "i", "z"]

/-- The set for bright time. -/
def brightSet : List String := ["g", "r", "i", "z", "y"]

/-- The illumination is above the limit by more than the tolerance of comparisons. -/
def ClearlyAbove (moon limit : ℚ) : Prop := limit < moon ∧ Tol.default.limit * min |moon| |limit| < |moon - limit|

theorem gt_cases (moon limit : ℚ) : (moon ≤ limit → gtS Tol.default moon limit = false) ∧
    (ClearlyAbove moon limit → gtS Tol.default moon limit = true) := by
  constructor
  · intro h
    rw [(C15_swap Tol.default moon limit).1]
    cases e : ltS Tol.default limit moon with
    | false => rfl
    | true => exact absurd (C15_lt_sound _ _ _ e) (not_lt.2 h)
  · rintro ⟨h1, h2⟩
    exact ((C15_exact_when_far Tol.default (by decide +kernel) moon limit h2).2.2.2.1).2 h1

/-- **C42 (partial), two sets.** Up to the limit the dark set is mounted and, clearly above it, the bright one;
one of the two in any case. -/
theorem C42_simple_partial (limit moon : ℚ) : (moon ≤ limit → simple limit moon = darkSet) ∧
    (ClearlyAbove moon limit → simple limit moon = brightSet) ∧
    (simple limit moon = darkSet ∨ simple limit moon = brightSet) := by
  unfold simple
  refine ⟨fun h => ?_, fun h => ?_, ?_⟩
  · rw [(gt_cases moon limit).1 h]; rfl
  · rw [(gt_cases moon limit).2 h]; rfl
  · cases gtS Tol.default moon limit
    · left; rfl
    · right; rfl

example : simple 40 40 = darkSet ∧ simple 40 (401 / 10) = brightSet ∧ ClearlyAbove (401 / 10) 40 := by
  refine ⟨by decide +kernel, by decide +kernel, ?_⟩
  unfold ClearlyAbove
  decide +kernel

theorem searchLeft_count (bins : List ℚ) (h : bins.Pairwise (· ≤ ·)) (x : ℚ) :
    ∀ i (hi : i < bins.length), bins[i] < x ↔ i < searchLeft bins x := by
  unfold searchLeft
  induction bins with
  | nil => intro i hi; simp at hi
  | cons b bins ih =>
    rw [List.pairwise_cons] at h
    intro i hi
    by_cases hb : b < x
    · rw [List.takeWhile_cons_of_pos (by simpa using hb), List.length_cons]
      cases i with
      | zero => simp [hb]
      | succ i =>
        rw [List.getElem_cons_succ, ih h.2 i (by simpa using hi)]
        omega
    · rw [List.takeWhile_cons_of_neg (by simpa using hb), List.length_nil]
      constructor
      · intro hx
        cases i with
        | zero => exact absurd hx hb
        | succ i =>
          have := h.1 _ (List.getElem_mem (by simpa using hi : i < bins.length))
          rw [List.getElem_cons_succ] at hx
          exact absurd (lt_of_le_of_lt this hx) hb
      · intro hx; omega

/-- **C42 (partial), several sets.** With boundaries in order and a set for each interval between two of them:
an illumination between two boundaries (the upper one included) gives the set of that interval, and one
not above the first boundary the first set. -/
theorem C42_groups_partial (groups : List (List String)) (bins : List ℚ) (hs : bins.Pairwise (· ≤ ·)) (hok : comCamOk groups bins = true)
    (moon : ℚ) :
    (∀ i (h : i + 1 < bins.length), bins[i] < moon → moon ≤ bins[i + 1] → ∃ g, groups[i]? = some g ∧ comCam groups bins moon = some g) ∧
    (∀ (h : 0 < bins.length), moon ≤ bins[0] → comCam groups bins moon = groups[0]?) ∧
    (∀ g, comCam groups bins moon = some g → g ∈ groups) := by
  unfold comCamOk at hok
  rw [decide_eq_true_iff] at hok
  refine ⟨?_, ?_, ?_⟩
  · intro i h h1 h2
    have e1 := (searchLeft_count bins hs moon i (by omega)).1 h1
    have e2 : ¬ i + 1 < searchLeft bins moon := fun hh => absurd ((searchLeft_count bins hs moon (i + 1) h).2 hh) (not_lt.2 h2)
    have e : searchLeft bins moon - 1 = i := by omega
    have hi : i < groups.length := by omega
    refine ⟨groups[i], List.getElem?_eq_getElem hi, ?_⟩
    unfold comCam
    rw [e, List.getElem?_eq_getElem hi]
  · intro h h1
    have e2 : ¬ 0 < searchLeft bins moon := fun hh => absurd ((searchLeft_count bins hs moon 0 h).2 hh) (not_lt.2 h1)
    unfold comCam
    rw [show searchLeft bins moon - 1 = 0 by omega]
  · intro g hg
    exact List.mem_of_getElem? hg

/-- The default configuration. -/
def comCamGroups : List (List String) := [["u", "g", "r"], ["g", "r", "i"], ["r", "i", "z"], ["i", "z", "y"]]

example : comCamOk comCamGroups [0, 25, 50, 75, 100] = true ∧ comCam comCamGroups [0, 25, 50, 75, 100] 50 = some ["g", "r", "i"] ∧
    comCam comCamGroups [0, 25, 50, 75, 100] 100 = some ["i", "z", "y"] := by decide +kernel

/-- **C42 fails** above the last boundary: the scheduler raises if there are no more sets than intervals. -/
theorem C42_violated (groups : List (List String)) (bins : List ℚ) (hs : bins.Pairwise (· ≤ ·)) (hne : bins ≠ [])
    (heq : bins.length = groups.length + 1) (moon : ℚ) (h : ∀ b ∈ bins, b < moon) : comCam groups bins moon = none := by
  have hpos := List.length_pos_iff.2 hne
  have := (searchLeft_count bins hs moon (bins.length - 1) (by omega)).1 (h _ (List.getElem_mem _))
  unfold comCam
  rw [List.getElem?_eq_none]
  omega

/-- A configuration that does not reach up to full moon. -/
theorem C42_witness : comCamOk [["u", "g", "r"], ["i", "z", "y"]] [0, 50, 90] = true ∧
    comCam [["u", "g", "r"], ["i", "z", "y"]] [0, 50, 90] 95 = none := by decide +kernel

/-! ### C82: alternating -/

/-- The answers on successive nights, each mounted before the next is asked for. -/
def uzyRun (limit : ℚ) : ℕ → List String → List ℚ → List (List String)
  | _, _, [] => []
  | n, mounted, moon :: moons => (uzy limit n moon mounted).2 :: uzyRun limit (uzy limit n moon mounted).1 (uzy limit n moon mounted).2 moons

/-- The bands without z and those without y. -/
def withoutZ : List String := ["u", "g", "r", "i", "y"]

/-- A night's illumination is settled: not above the limit, or clearly above it. -/
def Settled (limit moon : ℚ) : Prop := moon ≤ limit ∨ ClearlyAbove moon limit

/-- **C82 (partial).** If the set mounted at first is none of the dark ones (as after a bright night): on bright nights u is not mounted; on
dark nights z or y is not, and not the same one as on the night before. -/
theorem C82_alternates_partial (limit : ℚ) (n : ℕ) (mounted : List String) (hm : mounted ≠ withoutZ ∧ mounted ≠ darkSet)
    (moons : List ℚ) (hs : ∀ m ∈ moons, Settled limit m) :
    List.Forall₂ (fun m r => (m ≤ limit → r = withoutZ ∨ r = darkSet) ∧ (limit < m → r = brightSet)) moons (uzyRun limit n mounted moons) ∧
    ∀ (i : ℕ) m m' r r', moons[i]? = some m → moons[i + 1]? = some m' → m ≤ limit → m' ≤ limit →
      (uzyRun limit n mounted moons)[i]? = some r → (uzyRun limit n mounted moons)[i + 1]? = some r' → r ≠ r' := by
  have hd : ∀ k, darkTimes k = withoutZ ∨ darkTimes k = darkSet := by
    intro k; unfold darkTimes; split
    · left; rfl
    · right; rfl
  have hd1 : ∀ k, darkTimes (k + 1) ≠ darkTimes k := by
    intro k; unfold darkTimes
    rcases Nat.mod_two_eq_zero_or_one k with h | h
    · rw [if_neg (by omega), if_pos h]; decide
    · rw [if_pos (by omega), if_neg (by omega)]; decide
  have hb : ∀ k, darkTimes k ≠ brightSet := by
    intro k; rcases hd k with h | h <;> rw [h] <;> decide
  have key : ∀ (moons : List ℚ) (n : ℕ) (mounted : List String), darkTimes n ≠ mounted → (∀ m ∈ moons, Settled limit m) →
      List.Forall₂ (fun m r => (m ≤ limit → r = withoutZ ∨ r = darkSet) ∧ (limit < m → r = brightSet)) moons (uzyRun limit n mounted moons) ∧
      ∀ (i : ℕ) m m' r r', moons[i]? = some m → moons[i + 1]? = some m' → m ≤ limit → m' ≤ limit →
        (uzyRun limit n mounted moons)[i]? = some r → (uzyRun limit n mounted moons)[i + 1]? = some r' → r ≠ r' := by
    intro moons
    induction moons with
    | nil => intro n mounted _ _; exact ⟨List.Forall₂.nil, fun i m m' r r' h => by simp at h⟩
    | cons a moons ih =>
      intro n mounted hne hs
      have hdark : a ≤ limit → uzy limit n a mounted = (n + 1, darkTimes n) := by
        intro h
        unfold uzy
        rw [(gt_cases a limit).1 h, if_neg (by simp)]
        dsimp only
        rw [if_pos hne]
      have hbright : limit < a → uzy limit n a mounted = (n, brightSet) := by
        intro h
        have hc : ClearlyAbove a limit := by
          rcases hs a (by simp) with h' | h'
          · exact absurd h' (not_le.2 h)
          · exact h'
        unfold uzy
        rw [(gt_cases a limit).2 hc, if_pos rfl]; rfl
      have hnext : darkTimes (uzy limit n a mounted).1 ≠ (uzy limit n a mounted).2 := by
        rcases le_or_gt a limit with h | h
        · rw [hdark h]; exact hd1 n
        · rw [hbright h]; exact hb n
      obtain ⟨i1, i2⟩ := ih _ _ hnext (fun m hm => hs m (List.mem_cons_of_mem _ hm))
      constructor
      · unfold uzyRun
        refine List.Forall₂.cons ⟨fun h => ?_, fun h => ?_⟩ i1
        · rw [hdark h]; exact hd n
        · rw [hbright h]
      · intro i m m' r r' h1 h2 h3 h4 h5 h6
        unfold uzyRun at h5 h6
        cases i with
        | zero =>
          simp only [List.getElem?_cons_zero, Option.some.injEq] at h1 h5
          simp only [Nat.zero_add, List.getElem?_cons_succ] at h2 h6
          subst h1
          cases moons with
          | nil => simp at h2
          | cons b moons =>
            simp only [List.getElem?_cons_zero, Option.some.injEq] at h2
            subst h2
            unfold uzyRun at h6
            simp only [List.getElem?_cons_zero, Option.some.injEq] at h6
            rw [hdark h3] at h5 h6
            have : (uzy limit (n + 1) b (darkTimes n)).2 = darkTimes (n + 1) := by
              unfold uzy
              rw [(gt_cases b limit).1 h4, if_neg (by simp)]
            dsimp only at h5 h6
            rw [this] at h6
            rw [← h5, ← h6]
            exact (hd1 n).symm
        | succ i =>
          simp only [List.getElem?_cons_succ] at h1 h2 h5 h6
          exact i2 i m m' r r' h1 h2 h3 h4 h5 h6
  refine key moons n mounted ?_ hs
  rcases hd n with h | h <;> rw [h]
  · exact fun e => hm.1 e.symm
  · exact fun e => hm.2 e.symm

example : uzyRun 40 0 brightSet [80, 10, 20, 5, 90, 1] = [brightSet, withoutZ, darkSet, withoutZ, brightSet, darkSet] := by decide +kernel

/-- **C82 fails** if the set the scheduler would choose is mounted already, as after a restart: the same band
stays out on all dark nights, however many there are. -/
theorem C82_violated (limit : ℚ) (n : ℕ) (moons : List ℚ) (hd : ∀ m ∈ moons, m ≤ limit) :
    uzyRun limit n (darkTimes n) moons = List.replicate moons.length (darkTimes n) := by
  induction moons with
  | nil => rfl
  | cons a moons ih =>
    have : uzy limit n a (darkTimes n) = (n, darkTimes n) := by
      unfold uzy
      rw [(gt_cases a limit).1 (hd a (by simp)), if_neg (by simp)]
      dsimp only
      rw [if_neg (by simp)]
    unfold uzyRun
    rw [this, List.length_cons, List.replicate_succ]
    dsimp only
    rw [ih (fun m hm => hd m (List.mem_cons_of_mem _ hm))]

/-- A new scheduler with the bands without z mounted. -/
theorem C82_witness : uzyRun 40 0 withoutZ [10, 20, 5] = [withoutZ, withoutZ, withoutZ] := by decide +kernel

/-! ### C83: swaps on given dates -/

/-- The set of the last swap at or before the time. -/
def InForce (schedule : List (ℚ × List String)) (now : ℚ) (bands : List String) : Prop :=
  ∃ t ≤ now, (t, bands) ∈ schedule ∧ ∀ p ∈ schedule, p.1 ≤ now → p.1 ≤ t

theorem foldl_min_spec (l : List ℚ) (a : ℚ) : l.foldl min a ≤ a ∧ (∀ x ∈ l, l.foldl min a ≤ x) ∧ (l.foldl min a = a ∨ l.foldl min a ∈ l) := by
  induction l generalizing a with
  | nil => simp
  | cons b l ih =>
    obtain ⟨i1, i2, i3⟩ := ih (min a b)
    rw [List.foldl_cons]
    refine ⟨le_trans i1 (min_le_left _ _), ?_, ?_⟩
    · intro x hx
      rcases List.mem_cons.1 hx with rfl | hx
      · exact le_trans i1 (min_le_right _ _)
      · exact i2 x hx
    · rcases i3 with h | h
      · rcases le_total a b with hab | hab
        · left; rw [h, min_eq_left hab]
        · right; rw [h, min_eq_right hab]; simp
      · right; exact List.mem_cons_of_mem _ h

/-- **C83 (partial).** Before the end date and from the first swap on, the set mounted is that of the last swap so far,
taken from the new schedule from its first date on and from the previous one before; from the end date on it
is what the other scheduler says. -/
theorem C83_swaps_partial (previous new : List (ℚ × List String)) (hp : (previous.map Prod.fst).Nodup) (hn : (new.map Prod.fst).Nodup)
    (hne : new ≠ []) (endDate now : ℚ) (backup : List String) :
    ∃ schedule first, joined previous new = some schedule ∧ (∃ p ∈ new, p.1 = first) ∧ (∀ p ∈ new, first ≤ p.1) ∧
      (endDate ≤ now → dateSwap schedule endDate backup now = some backup) ∧
      (now < endDate → first ≤ now → ∃ r, dateSwap schedule endDate backup now = some r ∧ InForce new now r) ∧
      (now < endDate → now < first → (∃ p ∈ previous, p.1 ≤ now) →
        ∃ r, dateSwap schedule endDate backup now = some r ∧ InForce previous now r) := by
  obtain ⟨n, ns, rfl⟩ : ∃ n ns, new = n :: ns := by
    cases new with
    | nil => exact absurd rfl hne
    | cons n ns => exact ⟨n, ns, rfl⟩
  obtain ⟨f1, f2, f3⟩ := foldl_min_spec (ns.map Prod.fst) n.1
  generalize hfirst : (ns.map Prod.fst).foldl min n.1 = first at *
  have hmin : ∀ p ∈ n :: ns, first ≤ p.1 := by
    intro p hp
    rcases List.mem_cons.1 hp with rfl | hp
    · exact f1
    · exact f2 _ (List.mem_map_of_mem hp)
  have hat : ∃ p ∈ n :: ns, p.1 = first := by
    rcases f3 with h | h
    · exact ⟨n, by simp, h.symm⟩
    · obtain ⟨p, hp, e⟩ := List.mem_map.1 h
      exact ⟨p, List.mem_cons_of_mem _ hp, e⟩
  have hj : joined previous (n :: ns) = some (previous.filter (fun p => decide (p.1 < first)) ++ (n :: ns)) := by
    unfold joined; rw [← hfirst]
  generalize n :: ns = new at *
  refine ⟨_, first, hj, hat, hmin, ?_, ?_⟩
  · intro h; unfold dateSwap; rw [if_neg (not_lt.2 h)]
  have hmem : ∀ p, p ∈ previous.filter (fun p => decide (p.1 < first)) ++ new ↔ (p ∈ previous ∧ p.1 < first) ∨ p ∈ new := by
    intro p; rw [List.mem_append, List.mem_filter]; simp
  generalize previous.filter (fun p => decide (p.1 < first)) ++ new = sch at *
  have key : now < endDate → (∃ p ∈ sch, p.1 ≤ now) → ∃ t r, dateSwap sch endDate backup now = some r ∧ t ≤ now ∧ (t, r) ∈ sch ∧
      ∀ p ∈ sch, p.1 ≤ now → p.1 ≤ t := by
    intro he ⟨p0, hp0, hle0⟩
    unfold dateSwap
    rw [if_pos he]
    dsimp only
    have hsort : ((sch.map Prod.fst).insertionSort (· ≤ ·)).Pairwise (· ≤ ·) := List.pairwise_insertionSort _ _
    have hperm : ((sch.map Prod.fst).insertionSort (· ≤ ·)).Perm (sch.map Prod.fst) := List.perm_insertionSort _ _
    generalize (sch.map Prod.fst).insertionSort (· ≤ ·) = times at *
    have hne' : times.filter (fun t => decide (t ≤ now)) ≠ [] := by
      intro e
      have : p0.1 ∈ times.filter (fun t => decide (t ≤ now)) :=
        List.mem_filter.2 ⟨hperm.mem_iff.2 (List.mem_map_of_mem hp0), by simpa using hle0⟩
      rw [e] at this; simp at this
    rw [List.getLast?_eq_some_getLast hne']
    dsimp only
    have hlast := List.getLast_mem hne'
    have hmax : ∀ t ∈ times.filter (fun t => decide (t ≤ now)), t ≤ (times.filter (fun t => decide (t ≤ now))).getLast hne' := by
      intro t ht
      have hs : (times.filter (fun t => decide (t ≤ now))).Pairwise (· ≤ ·) := hsort.filter _
      obtain ⟨l, hl⟩ := List.getLast?_eq_some_iff.1 (List.getLast?_eq_some_getLast hne')
      rw [hl] at hs ht
      rw [List.pairwise_append] at hs
      rcases List.mem_append.1 ht with h | h
      · exact hs.2.2 t h _ (by simp)
      · exact (List.mem_singleton.1 h).le
    generalize (times.filter (fun t => decide (t ≤ now))).getLast hne' = t at *
    obtain ⟨h1, h2⟩ := List.mem_filter.1 hlast
    obtain ⟨p, hp1, hp2⟩ := List.mem_map.1 (hperm.mem_iff.1 h1)
    cases hf : sch.find? (fun p => p.1 == t) with
    | none =>
      have := List.find?_eq_none.1 hf p hp1
      simp [hp2] at this
    | some q =>
      have hq1 := List.mem_of_find?_eq_some hf
      have hq2 := List.find?_some hf
      rw [beq_iff_eq] at hq2
      refine ⟨t, q.2, rfl, by simpa using h2, by rw [← hq2]; exact hq1, ?_⟩
      intro x hx hxn
      exact hmax _ (List.mem_filter.2 ⟨hperm.mem_iff.2 (List.mem_map_of_mem hx), by simpa using hxn⟩)
  constructor
  · intro he hf
    obtain ⟨p, hp1, hp2⟩ := hat
    obtain ⟨t, r, h1, h2, h3, h4⟩ := key he ⟨p, (hmem p).2 (.inr hp1), hp2 ▸ hf⟩
    refine ⟨r, h1, t, h2, ?_, fun q hq hqn => h4 q ((hmem q).2 (.inr hq)) hqn⟩
    rcases (hmem _).1 h3 with ⟨_, h⟩ | h
    · have := h4 p ((hmem p).2 (.inr hp1)) (hp2 ▸ hf)
      rw [hp2] at this
      exact absurd h (not_lt.2 this)
    · exact h
  · intro he hf ⟨p, hp1, hp2⟩
    obtain ⟨t, r, h1, h2, h3, h4⟩ := key he ⟨p, (hmem p).2 (.inl ⟨hp1, lt_of_le_of_lt hp2 hf⟩), hp2⟩
    refine ⟨r, h1, t, h2, ?_, fun q hq hqn => h4 q ((hmem q).2 (.inl ⟨hq, lt_of_le_of_lt hqn hf⟩)) hqn⟩
    rcases (hmem _).1 h3 with h | h
    · exact h.1
    · exact absurd (lt_of_le_of_lt h2 hf) (not_lt.2 (hmin _ h))

example : (joined [(1, ["u"]), (5, ["g"]), (9, ["r"])] [(8, ["i"]), (7, ["z"])]).bind (fun s => dateSwap s 20 ["y"] 6) = some ["g"] ∧
    (joined [(1, ["u"]), (5, ["g"]), (9, ["r"])] [(8, ["i"]), (7, ["z"])]).bind (fun s => dateSwap s 20 ["y"] 10) = some ["i"] := by
  decide +kernel

/-- **C83 fails** before the first swap: the scheduler raises. -/
theorem C83_violated (schedule : List (ℚ × List String)) (endDate now : ℚ) (backup : List String) (h : now < endDate)
    (hb : ∀ p ∈ schedule, now < p.1) : dateSwap schedule endDate backup now = none := by
  unfold dateSwap
  rw [if_pos h]
  dsimp only
  have : (((schedule.map Prod.fst).insertionSort (· ≤ ·)).filter (fun t => decide (t ≤ now))) = [] := by
    rw [List.filter_eq_nil_iff]
    intro t ht
    obtain ⟨p, hp, rfl⟩ := List.mem_map.1 ((List.perm_insertionSort _ _).mem_iff.1 ht)
    simpa using hb p hp
  rw [this]; rfl

/-- **C83 fails** for an empty schedule: the constructor raises. -/
theorem C83_empty_violated (previous : List (ℚ × List String)) : joined previous [] = none := rfl

end Verif
