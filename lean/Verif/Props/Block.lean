import Verif.Model.Block
import Verif.Lemmas.IntRounded
import Verif.Props.BandSched
import Mathlib.Tactic.Linarith
import Mathlib.Tactic.Positivity
import Mathlib.Tactic.FieldSimp
import Mathlib.Tactic.Ring

/-! C56: the size of a block of visits and the time available. -/

namespace Verif

open Blk

/-- Everything that has to be over before it starts: morning twilight, every scheduled visit,
and the next end of twilight, as far as the survey was told to look at them. -/
def deadlines (g : Cfg) (c : Cond) : List ℚ :=
  (if g.twilightScale then [c.n18Rising] else []) ++ (if g.checkSched then c.sched else []) ++
    (if g.inTwilight then [c.n12Rising, c.n18Setting].filter (fun t => decide (c.mjd < t)) else [])

/-- Time on sky of a block of `n` visits in days: the visits, twice with a band change in
between when they are paired. -/
def blockDays (g : Cfg) (n : ℤ) : ℚ :=
  if g.pair then (2 * n * perVisit g + changeTime g) / 86400 else n * perVisit g / 86400

/-- The block ends before each deadline. -/
def FitsAll (g : Cfg) (c : Cond) (n : ℤ) : Prop := ∀ d ∈ deadlines g c, c.mjd + blockDays g n ≤ d

/-- Settings that make sense: positive times. -/
def SaneBlock (g : Cfg) : Prop := 0 < perVisit g ∧ 0 < g.ideal ∧ g.ideal ≤ g.maxPair ∧ 0 ≤ g.change

/-- Days for a block with `minutes` of visits: twice that, and a band change in between, when
they are paired. -/
def pairDays (g : Cfg) (minutes : ℚ) : ℚ :=
  if g.pair then (2 * (60 * minutes) + (if g.sameBand then 0 else g.change)) / 86400 else 60 * minutes / 86400

theorem needed_eq (g : Cfg) (minutes : ℚ) : needed g minutes = pairDays g minutes := by
  unfold needed pairDays changeTime
  split_ifs <;> ring

theorem needed_pos {g : Cfg} (h : SaneBlock g) : 0 < needed g g.ideal := by
  obtain ⟨_, h2, _, h4⟩ := h
  have hc : 0 ≤ changeTime g := by unfold changeTime; split_ifs <;> simp [h4]
  unfold needed
  split_ifs <;> positivity

theorem least_le (x : ℚ) (xs : List ℚ) : ∀ y ∈ x :: xs, least x xs ≤ y := by
  intro y hy
  obtain ⟨h1, h2, _⟩ := foldl_min_spec xs x
  rcases List.mem_cons.1 hy with rfl | hy
  · exact h1
  · exact h2 y hy

theorem least_mem (x : ℚ) (xs : List ℚ) : least x xs ∈ x :: xs := by
  obtain ⟨_, _, h3⟩ := foldl_min_spec xs x
  rcases h3 with h | h
  · unfold least; rw [h]; exact List.mem_cons_self
  · exact List.mem_cons_of_mem _ h

theorem blocks_two {g : Cfg} (h : SaneBlock g) {t : ℚ} (ht : 3 / 2 * needed g g.ideal ≤ t) : 2 ≤ blocks g t := by
  have hp := needed_pos h
  unfold blocks
  have h1 : (3 / 2 : ℚ) ≤ t / needed g g.ideal := by rw [le_div_iff₀ hp]; exact ht
  have h2 := roundHalfEven_mono h1
  have : roundHalfEven (3 / 2) = 2 := by decide +kernel
  rw [this] at h2; exact h2

theorem two_blocks {g : Cfg} (h : SaneBlock g) {t : ℚ} (ht : 2 ≤ blocks g t) : needed g g.ideal ≤ t := by
  have hp := needed_pos h
  unfold blocks at ht
  have h1 := abs_le.1 (roundHalfEven_near (t / needed g g.ideal))
  have h2 : ((2 : ℤ) : ℚ) ≤ (roundHalfEven (t / needed g g.ideal) : ℚ) := by exact_mod_cast ht
  push_cast at h2
  have h3 : 1 ≤ t / needed g g.ideal := by linarith [h1.2]
  rwa [le_div_iff₀ hp, one_mul] at h3

theorem ideal_fits {g : Cfg} (h : SaneBlock g) : blockDays g ⌊g.ideal * 60 / perVisit g⌋ ≤ needed g g.ideal := by
  obtain ⟨hv, _⟩ := h
  have h1 := Int.floor_le (g.ideal * 60 / perVisit g)
  rw [le_div_iff₀ hv] at h1
  unfold blockDays needed
  split_ifs
  · rw [div_le_iff₀ (by norm_num)]; linarith
  · rw [div_le_iff₀ (by norm_num)]; linarith

theorem stretched_pos {g : Cfg} (h : SaneBlock g) {t : ℚ} (hp : 0 < stretched g t) :
    0 < ⌊bestTime g t * 3600 * 24 / perVisit g⌋ ∧ 0 < bestTime g t := by
  have hv := h.1
  have key : (⌊bestTime g t * 3600 * 24 / perVisit g⌋ : ℚ) * perVisit g ≤ bestTime g t * 86400 := by
    have := Int.floor_le (bestTime g t * 3600 * 24 / perVisit g)
    rw [le_div_iff₀ hv] at this
    linarith
  have hb : 0 < ⌊bestTime g t * 3600 * 24 / perVisit g⌋ := by
    unfold stretched at hp
    split_ifs at hp with hpair
    · by_contra hn
      have hn' : (⌊bestTime g t * 3600 * 24 / perVisit g⌋ : ℚ) ≤ 0 := by exact_mod_cast not_lt.1 hn
      have h1 := Int.floor_le ((⌊bestTime g t * 3600 * 24 / perVisit g⌋ : ℚ) / 2)
      have h2 : (0 : ℚ) < (⌊(⌊bestTime g t * 3600 * 24 / perVisit g⌋ : ℚ) / 2⌋ : ℚ) := by exact_mod_cast hp
      linarith
    · exact hp
  have hb' : (0 : ℚ) < (⌊bestTime g t * 3600 * 24 / perVisit g⌋ : ℚ) := by exact_mod_cast hb
  have hpos : 0 < bestTime g t := by
    have := mul_pos hb' hv
    linarith
  exact ⟨hb, hpos⟩

theorem stretched_best {g : Cfg} (h : SaneBlock g) {t : ℚ} (hp : 0 < stretched g t) :
    blockDays g (stretched g t) ≤ bestTime g t + (if g.pair then changeTime g / 86400 else 0) := by
  have hv := h.1
  have key : (⌊bestTime g t * 3600 * 24 / perVisit g⌋ : ℚ) * perVisit g ≤ bestTime g t * 86400 := by
    have := Int.floor_le (bestTime g t * 3600 * 24 / perVisit g)
    rw [le_div_iff₀ hv] at this
    linarith
  obtain ⟨hb, hpos⟩ := stretched_pos h hp
  unfold blockDays stretched
  split_ifs with hpair
  · have h1 := Int.floor_le ((⌊bestTime g t * 3600 * 24 / perVisit g⌋ : ℚ) / 2)
    have h2 := mul_le_mul_of_nonneg_right h1 hv.le
    rw [div_le_iff₀ (by norm_num)]
    linarith
  · rw [div_le_iff₀ (by norm_num)]
    linarith

theorem stretched_fits {g : Cfg} (h : SaneBlock g) {t : ℚ} (hp : 0 < stretched g t) :
    blockDays g (stretched g t) ≤ t + (if g.pair then changeTime g / 86400 else 0) := by
  have h1 := stretched_best h hp
  have hpos := (stretched_pos h hp).2
  have ht : bestTime g t ≤ t := by
    unfold bestTime at hpos ⊢
    split_ifs at hpos ⊢
    · exact le_refl _
    · linarith
  linarith

/-- C56: a block always has at least one visit, and the time available is always known when
it is needed. -/
theorem C56_at_least_one (g : Cfg) (c : Cond) : ∃ n, visits g c = some n ∧ 1 ≤ n := by
  have hclip : ∀ n : ℤ, 1 ≤ (if n ≤ 0 then 1 else n) := by intro n; split_ifs <;> omega
  unfold visits
  suffices h : ∃ n, rawVisits g c = some n by
    obtain ⟨n, hn⟩ := h
    exact ⟨_, by rw [hn]; rfl, hclip n⟩
  unfold rawVisits
  split_ifs with h2
  · exact ⟨_, rfl⟩
  · have hf : (first g c).1 < 2 → ∃ t, (first g c).2 = some t := by
      unfold first; split_ifs <;> simp
    have hs : (second g c).1 < 2 → ∃ t, (second g c).2 = some t := by
      unfold second
      split_ifs
      · rcases c.sched with _ | ⟨x, xs⟩
        · exact hf
        · dsimp only; unfold tighter; split_ifs
          · simp
          · exact hf
      · exact hf
    have ht : ∃ t, (third g c).2 = some t := by
      by_cases hi : g.inTwilight = true
      · unfold third; rw [if_pos hi]; exact ⟨_, rfl⟩
      · have e : third g c = second g c := by unfold third; rw [if_neg hi]
        rw [e] at h2 ⊢
        exact hs (not_le.1 h2)
    obtain ⟨t, ht⟩ := ht
    rw [ht]; exact ⟨_, rfl⟩

/-- C56, room to spare: when every deadline is at least one and a half blocks away (and, for
a survey kept within twilight, an end of twilight is still to come), the block has the ideal
number of visits and, unless that was clipped up to one, ends before every deadline, band
change included. -/
theorem C56_roomy (g : Cfg) (c : Cond) (hs : SaneBlock g)
    (hd : ∀ d ∈ deadlines g c, c.mjd + 3 / 2 * pairDays g g.ideal ≤ d)
    (ht : g.inTwilight = true → c.mjd < c.n12Rising ∨ c.mjd < c.n18Setting) :
    ∃ n, visits g c = some n ∧ n = max 1 ⌊g.ideal * 60 / (g.slew + g.exptime + g.read * (g.nexp - 1))⌋ ∧
      (n = 1 ∨ FitsAll g c n) := by
  show ∃ n, visits g c = some n ∧ n = max 1 ⌊g.ideal * 60 / perVisit g⌋ ∧ (n = 1 ∨ FitsAll g c n)
  rw [← needed_eq] at hd
  have hp := needed_pos hs
  have hdm : ∀ d, (d ∈ (if g.twilightScale then [c.n18Rising] else []) ∨ d ∈ (if g.checkSched then c.sched else []) ∨
      d ∈ (if g.inTwilight then [c.n12Rising, c.n18Setting].filter (fun t => decide (c.mjd < t)) else [])) →
      3 / 2 * needed g g.ideal ≤ d - c.mjd := by
    intro d h
    have := hd d (by unfold deadlines; simp only [List.mem_append]; tauto)
    linarith
  have h1 : 2 ≤ (first g c).1 := by
    unfold first
    split_ifs with hw
    · exact blocks_two hs (hdm _ (Or.inl (by simp [hw])))
    · norm_num
  have h2 : 2 ≤ (second g c).1 := by
    unfold second
    split_ifs with hw
    · rcases hc : c.sched with _ | ⟨x, xs⟩
      · exact h1
      · dsimp only
        unfold tighter
        split_ifs
        · exact blocks_two hs (hdm _ (Or.inr (Or.inl (by simp only [hw, if_true]; rw [hc]; exact least_mem x xs))))
        · exact h1
    · exact h1
  have h3 : 2 ≤ (third g c).1 := by
    unfold third
    split_ifs with hw hlt
    · dsimp only
      apply blocks_two hs
      unfold twilightLeft
      have hcase : ∃ x xs, [c.n12Rising - c.mjd, c.n18Setting - c.mjd].filter (fun t => decide (0 < t)) = x :: xs ∧
          ∀ y ∈ x :: xs, 3 / 2 * needed g g.ideal ≤ y := by
        have hall : ∀ y ∈ [c.n12Rising - c.mjd, c.n18Setting - c.mjd].filter (fun t => decide (0 < t)),
            3 / 2 * needed g g.ideal ≤ y := by
          intro y hy
          simp only [List.mem_filter, List.mem_cons, List.not_mem_nil, or_false, decide_eq_true_eq] at hy
          obtain ⟨rfl | rfl, hy⟩ := hy
          · exact hdm _ (Or.inr (Or.inr (by simp [hw]; linarith)))
          · exact hdm _ (Or.inr (Or.inr (by simp [hw]; linarith)))
        rcases hl : [c.n12Rising - c.mjd, c.n18Setting - c.mjd].filter (fun t => decide (0 < t)) with _ | ⟨x, xs⟩
        · exfalso
          rw [List.filter_eq_nil_iff] at hl
          rcases ht hw with h | h
          · exact hl (c.n12Rising - c.mjd) (by simp) (by simpa using h)
          · exact hl (c.n18Setting - c.mjd) (by simp) (by simpa using h)
        · exact ⟨x, xs, rfl, by rw [← hl]; exact hall⟩
      obtain ⟨x, xs, hl, hall⟩ := hcase
      rw [hl]
      exact hall _ (least_mem x xs)
    · exact h2
    · exact h2
  have hr : rawVisits g c = some ⌊g.ideal * 60 / perVisit g⌋ := by unfold rawVisits; rw [if_pos h3]
  refine ⟨_, by unfold visits; rw [hr]; rfl, ?_, ?_⟩
  · dsimp only; split_ifs with h <;> omega
  · dsimp only
    split_ifs with h
    · exact Or.inl rfl
    · right
      intro d hdd
      have := hd d hdd
      have := ideal_fits hs
      linarith

/-- Exactly one kind of deadline is looked at, and it is there. -/
def OneKind (g : Cfg) (c : Cond) : Prop :=
  (g.twilightScale = true ∧ g.checkSched = false ∧ g.inTwilight = false) ∨
  (g.twilightScale = false ∧ g.checkSched = true ∧ g.inTwilight = false ∧ c.sched ≠ []) ∨
  (g.twilightScale = false ∧ g.checkSched = false ∧ g.inTwilight = true ∧ (c.mjd < c.n12Rising ∨ c.mjd < c.n18Setting))

/-- The survey never changes band within a block. -/
def NoChange (g : Cfg) : Prop := g.pair = false ∨ changeTime g = 0

/-- Common end of the cases: the final number is 1, or the block takes no longer than the
given time, which ends before all deadlines. -/
theorem visits_fit {g : Cfg} {c : Cond} {t : ℚ} (hs : SaneBlock g) (hn : NoChange g)
    (h1 : 2 ≤ (third g c).1 → 2 ≤ blocks g t) (h2 : (third g c).1 < 2 → (third g c).2 = some t)
    (hd : ∀ d ∈ deadlines g c, c.mjd + t ≤ d) : ∃ n, visits g c = some n ∧ (n = 1 ∨ FitsAll g c n) := by
  unfold visits rawVisits
  split_ifs with h
  · refine ⟨_, rfl, ?_⟩
    dsimp only
    split_ifs with hz
    · exact Or.inl rfl
    · right
      intro d hdd
      have := hd d hdd
      have := ideal_fits hs
      have := two_blocks hs (h1 h)
      linarith
  · rw [h2 (not_le.1 h)]
    refine ⟨_, rfl, ?_⟩
    dsimp only
    split_ifs with hz
    · exact Or.inl rfl
    · right
      intro d hdd
      have h3 := hd d hdd
      have h4 := stretched_fits hs (t := t) (not_le.1 hz)
      have h5 : (if g.pair then changeTime g / 86400 else 0) = 0 := by
        rcases hn with hn | hn
        · simp [hn]
        · simp [hn]
      rw [h5] at h4
      linarith

/-- C56 for surveys that look at one kind of deadline and never change band within a block:
unless clipped to one visit, the block ends before every deadline.  Missing: a change of band
(not counted when a block is stretched, `C56_violated_change`) and several kinds of deadline
(`C56_violated_tie`, `C56_violated_twilight`). -/
theorem C56_one_kind_partial (g : Cfg) (c : Cond) (hs : SaneBlock g) (hn : NoChange g) (hk : OneKind g c) :
    ∃ n, visits g c = some n ∧ (n = 1 ∨ FitsAll g c n) := by
  rcases hk with ⟨h1, h2, h3⟩ | ⟨h1, h2, h3, h4⟩ | ⟨h1, h2, h3, h4⟩
  · have e : third g c = (blocks g (c.n18Rising - c.mjd), some (c.n18Rising - c.mjd)) := by
      simp [third, second, first, h1, h2, h3]
    refine visits_fit (t := c.n18Rising - c.mjd) hs hn (by rw [e]; exact id) (by rw [e]; exact fun _ => rfl) ?_
    intro d hd
    simp [deadlines, h1, h2, h3] at hd
    subst hd; linarith
  · rcases hc : c.sched with _ | ⟨x, xs⟩
    · exact absurd hc h4
    · have e : third g c = tighter g (least x xs - c.mjd) (4, none) := by
        simp [third, second, first, h1, h2, h3, hc]
      refine visits_fit (t := least x xs - c.mjd) hs hn ?_ ?_ ?_
      · rw [e]; unfold tighter; split_ifs with hlt
        · exact id
        · intro _; dsimp only at hlt; omega
      · rw [e]; unfold tighter; split_ifs with hlt
        · exact fun _ => rfl
        · intro h; dsimp only at h; omega
      · intro d hd
        simp [deadlines, h1, h2, h3] at hd
        rw [hc] at hd
        have := least_le x xs d hd
        linarith
  · have e : third g c = (if blocks g (twilightLeft c) < 4 then blocks g (twilightLeft c) else 4, some (twilightLeft c)) := by
      simp [third, second, first, h1, h2, h3]
    refine visits_fit (t := twilightLeft c) hs hn ?_ ?_ ?_
    · rw [e]; dsimp only; split_ifs with hlt
      · exact id
      · intro _; omega
    · rw [e]; exact fun _ => rfl
    · intro d hd
      simp only [deadlines, h1, h2, h3, if_true, Bool.false_eq_true, if_false, List.nil_append] at hd
      unfold twilightLeft
      have hmem : d - c.mjd ∈ [c.n12Rising - c.mjd, c.n18Setting - c.mjd].filter (fun t => decide (0 < t)) := by
        simp only [List.mem_filter, List.mem_cons, List.not_mem_nil, or_false, decide_eq_true_eq] at hd ⊢
        refine ⟨?_, by linarith [hd.2]⟩
        rcases hd.1 with rfl | rfl <;> simp
      rcases hl : [c.n12Rising - c.mjd, c.n18Setting - c.mjd].filter (fun t => decide (0 < t)) with _ | ⟨x, xs⟩
      · rw [hl] at hmem; simp at hmem
      · rw [hl] at hmem
        have := least_le x xs _ hmem
        dsimp only
        linarith

/-- The blocks of the lemmas above are not longer than the longest wanted. -/
theorem visits_longest {g : Cfg} {c : Cond} {t : ℚ} (hs : SaneBlock g) (hn : NoChange g)
    (h2 : (third g c).1 < 2 → (third g c).2 = some t ∧ blocks g t < 2) :
    ∃ n, visits g c = some n ∧ (n = 1 ∨ blockDays g n ≤ pairDays g g.maxPair) := by
  have hmono : needed g g.ideal ≤ needed g g.maxPair := by
    have := hs.2.2.1
    unfold needed
    split_ifs
    · have : (g.ideal * 2 + changeTime g / 60) ≤ (g.maxPair * 2 + changeTime g / 60) := by linarith
      gcongr
    · gcongr
  have hp := needed_pos hs
  unfold visits rawVisits
  rw [← needed_eq]
  split_ifs with h
  · refine ⟨_, rfl, ?_⟩
    dsimp only
    split_ifs with hz
    · exact Or.inl rfl
    · exact Or.inr (le_trans (ideal_fits hs) hmono)
  · obtain ⟨e, hb⟩ := h2 (not_le.1 h)
    rw [e]
    refine ⟨_, rfl, ?_⟩
    dsimp only
    split_ifs with hz
    · exact Or.inl rfl
    · right
      have hbest : bestTime g t ≤ needed g g.maxPair := by
        unfold bestTime
        split_ifs with hle
        · exact hle
        · unfold blocks at hb
          have h1 := abs_le.1 (roundHalfEven_near (t / needed g g.ideal))
          have h3 : (roundHalfEven (t / needed g g.ideal) : ℚ) ≤ 1 := by exact_mod_cast Int.lt_add_one_iff.1 hb
          have h4 : t / needed g g.ideal ≤ 2 := by linarith [h1.1, h1.2]
          rw [div_le_iff₀ hp] at h4
          linarith
      have h4 := stretched_best hs (t := t) (not_le.1 hz)
      have h5 : (if g.pair then changeTime g / 86400 else 0) = 0 := by
        rcases hn with hn | hn
        · simp [hn]
        · simp [hn]
      rw [h5] at h4
      linarith

/-- C56, longest block: with one kind of deadline and no change of band a block (of more than
one visit) takes no longer than the longest pair time asked for.  Missing as in
`C56_one_kind_partial`. -/
theorem C56_longest_partial (g : Cfg) (c : Cond) (hs : SaneBlock g) (hn : NoChange g) (hk : OneKind g c) :
    ∃ n, visits g c = some n ∧ (n = 1 ∨ blockDays g n ≤ pairDays g g.maxPair) := by
  rcases hk with ⟨h1, h2, h3⟩ | ⟨h1, h2, h3, h4⟩ | ⟨h1, h2, h3, h4⟩
  · have e : third g c = (blocks g (c.n18Rising - c.mjd), some (c.n18Rising - c.mjd)) := by
      simp [third, second, first, h1, h2, h3]
    exact visits_longest (t := c.n18Rising - c.mjd) hs hn (by rw [e]; exact fun h => ⟨rfl, h⟩)
  · rcases hc : c.sched with _ | ⟨x, xs⟩
    · exact absurd hc h4
    · have e : third g c = tighter g (least x xs - c.mjd) (4, none) := by
        simp [third, second, first, h1, h2, h3, hc]
      refine visits_longest (t := least x xs - c.mjd) hs hn ?_
      rw [e]; unfold tighter; split_ifs with hlt
      · exact fun h => ⟨rfl, h⟩
      · intro h; dsimp only at h; omega
  · have e : third g c = (if blocks g (twilightLeft c) < 4 then blocks g (twilightLeft c) else 4, some (twilightLeft c)) := by
      simp [third, second, first, h1, h2, h3]
    refine visits_longest (t := twilightLeft c) hs hn ?_
    rw [e]; dsimp only; split_ifs with hlt
    · exact fun h => ⟨rfl, h⟩
    · intro h; omega

/-- C56 with the default checks (morning twilight and scheduled visits), no change of band:
the block fits unless the two deadlines come out as the same number of blocks.  Missing: equal
counts (`C56_violated_tie`) and a change of band (`C56_violated_change`). -/
theorem C56_default_partial (g : Cfg) (c : Cond) (hs : SaneBlock g) (hn : NoChange g)
    (h1 : g.twilightScale = true) (h2 : g.checkSched = true) (h3 : g.inTwilight = false)
    (first : ℚ) (hf : first ∈ c.sched) (hmin : ∀ s ∈ c.sched, first ≤ s)
    (hne : roundHalfEven ((first - c.mjd) / needed g g.ideal) ≠ roundHalfEven ((c.n18Rising - c.mjd) / needed g g.ideal)) :
    ∃ n, visits g c = some n ∧ (n = 1 ∨ FitsAll g c n) := by
  have hp := needed_pos hs
  rcases hc : c.sched with _ | ⟨x, xs⟩
  · rw [hc] at hf; simp at hf
  · have hl : least x xs = first := by
      apply le_antisymm
      · exact least_le x xs first (by rw [← hc]; exact hf)
      · exact hmin _ (by rw [hc]; exact least_mem x xs)
    have e : third g c = tighter g (first - c.mjd) (blocks g (c.n18Rising - c.mjd), some (c.n18Rising - c.mjd)) := by
      simp [third, second, Blk.first, h1, h2, h3, hc, hl]
    have hmono : ∀ a b : ℚ, blocks g a < blocks g b → a < b := by
      intro a b hab
      by_contra hh
      have := roundHalfEven_mono (div_le_div_of_nonneg_right (not_lt.1 hh) hp.le)
      unfold blocks at hab
      omega
    by_cases hlt : blocks g (first - c.mjd) < blocks g (c.n18Rising - c.mjd)
    · have e2 : third g c = (blocks g (first - c.mjd), some (first - c.mjd)) := by
        rw [e]; unfold tighter; rw [if_pos hlt]
      refine visits_fit (t := first - c.mjd) hs hn (by rw [e2]; exact id) (by rw [e2]; exact fun _ => rfl) ?_
      intro d hd
      simp [deadlines, h1, h2, h3] at hd
      have := hmono _ _ hlt
      rcases hd with rfl | hd
      · linarith
      · have := hmin d hd; linarith
    · have e2 : third g c = (blocks g (c.n18Rising - c.mjd), some (c.n18Rising - c.mjd)) := by
        rw [e]; unfold tighter; rw [if_neg hlt]
      have hgt : blocks g (c.n18Rising - c.mjd) < blocks g (first - c.mjd) := by
        unfold blocks at hlt ⊢; omega
      refine visits_fit (t := c.n18Rising - c.mjd) hs hn (by rw [e2]; exact id) (by rw [e2]; exact fun _ => rfl) ?_
      intro d hd
      simp [deadlines, h1, h2, h3] at hd
      have := hmono _ _ hgt
      rcases hd with rfl | hd
      · linarith
      · have := hmin d hd; linarith

/-- Pairs in two bands with the default settings (surveys.py 178-206), one exposure. -/
def blk0 : Cfg :=
  { ideal := 22, maxPair := 22, slew := 15/2, exptime := 30, read := 12/5, nexp := 1, change := 140, pair := true,
    sameBand := false, twilightScale := true, checkSched := true, inTwilight := false }

/-- An hour before midnight, twilight at 0.4, nothing scheduled. -/
def blkCond0 : Cond := { mjd := 0, n18Rising := 2/5, n12Rising := 9/20, n18Setting := -1/5, sched := [] }

example : SaneBlock blk0 := by
  refine ⟨?_, ?_, ?_, ?_⟩ <;> decide +kernel
example : ∀ d ∈ deadlines blk0 blkCond0, blkCond0.mjd + 3 / 2 * pairDays blk0 blk0.ideal ≤ d := by decide +kernel
example : visits blk0 blkCond0 = some 35 := by decide +kernel
example : NoChange { blk0 with sameBand := true, checkSched := false } ∧
    OneKind { blk0 with sameBand := true, checkSched := false } { blkCond0 with n18Rising := 1/36 } ∧
    visits { blk0 with sameBand := true, checkSched := false } { blkCond0 with n18Rising := 1/36 } = some 32 := by
  refine ⟨Or.inr (by decide +kernel), Or.inl (by decide +kernel), by decide +kernel⟩
example : roundHalfEven (((1/36 : ℚ) - 0) / needed { blk0 with sameBand := true } 22) ≠
    roundHalfEven (((2/5 : ℚ) - 0) / needed { blk0 with sameBand := true } 22) := by decide +kernel

/-- C56 fails with a change of band: forty minutes before twilight, the 32 pairs of visits
take exactly the forty minutes and the band change comes on top. -/
theorem C56_violated_change : ∃ g c n, SaneBlock g ∧ OneKind g c ∧ visits g c = some n ∧ 1 < n ∧ ¬ FitsAll g c n := by
  refine ⟨{ blk0 with checkSched := false }, { blkCond0 with n18Rising := 1/36 }, 32, ?_, Or.inl (by decide +kernel), ?_, ?_, ?_⟩
  · refine ⟨?_, ?_, ?_, ?_⟩ <;> decide +kernel
  · decide +kernel
  · decide
  · intro h
    have := h (1/36) (by decide +kernel)
    revert this; decide +kernel

/-- C56 fails when twilight and a scheduled visit round to the same number of blocks: the
later deadline wins.  A visit is scheduled in 25 minutes and twilight is in 43; the block
takes 40 minutes. -/
theorem C56_violated_tie : ∃ g c n, SaneBlock g ∧ NoChange g ∧ visits g c = some n ∧ 1 < n ∧ ¬ FitsAll g c n := by
  refine ⟨{ blk0 with sameBand := true }, { blkCond0 with n18Rising := 43/1440, sched := [25/1440] }, 34, ?_,
    Or.inr (by decide +kernel), ?_, ?_, ?_⟩
  · refine ⟨?_, ?_, ?_, ?_⟩ <;> decide +kernel
  · decide +kernel
  · decide
  · intro h
    have := h (25/1440) (by decide +kernel)
    revert this; decide +kernel

/-- C56 fails for a survey kept within twilight: the time left in twilight replaces the time
to the scheduled visit that made the block shrink.  A visit is scheduled in 10 minutes,
twilight ends in 40; the block takes 40 minutes. -/
theorem C56_violated_twilight : ∃ g c n, SaneBlock g ∧ NoChange g ∧ g.twilightScale = false ∧ visits g c = some n ∧
    1 < n ∧ ¬ FitsAll g c n := by
  refine ⟨{ blk0 with sameBand := true, twilightScale := false, inTwilight := true },
    { blkCond0 with n12Rising := 40/1440, sched := [10/1440] }, 32, ?_,
    Or.inr (by decide +kernel), rfl, ?_, ?_, ?_⟩
  · refine ⟨?_, ?_, ?_, ?_⟩ <;> decide +kernel
  · decide +kernel
  · decide
  · intro h
    have := h (10/1440) (by decide +kernel)
    revert this; decide +kernel

end Verif
