import Verif.Model.LongGap
import Verif.Lemmas.CoreFill
import Mathlib.Tactic.Linarith
import Mathlib.Tactic.NormNum
import Mathlib.Tactic.Ring

/-! C102: third visits after a long gap. -/

namespace Verif

open Long

/-- The visit completes a pair of the blob in the last night of the list. -/
def EndsPair (g : Cfg) (obs : List Seen) (v : Seen) : Prop :=
  v ∈ obs ∧ v.note = g.blobNote ++ ", b" ∧ ∀ w ∈ obs, w.night ≤ v.night

theorem foldl_max_nat (l : List ℕ) : ∀ a, a ≤ l.foldl max a ∧ (∀ x ∈ l, x ≤ l.foldl max a) ∧ (l.foldl max a = a ∨ l.foldl max a ∈ l) := by
  induction l with
  | nil => intro a; simp
  | cons b l ih =>
    intro a
    obtain ⟨h1, h2, h3⟩ := ih (max a b)
    rw [List.foldl_cons]
    refine ⟨le_trans (le_max_left _ _) h1, ?_, ?_⟩
    · intro x hx
      rcases List.mem_cons.1 hx with rfl | hx
      · exact le_trans (le_max_right _ _) h1
      · exact h2 x hx
    · rcases h3 with h3 | h3
      · rw [h3]
        rcases le_total a b with h | h
        · right; rw [max_eq_right h]; exact List.mem_cons_self
        · left; exact max_eq_left h
      · exact Or.inr (List.mem_cons_of_mem _ h3)

theorem mem_second (g : Cfg) (obs : List Seen) (v : Seen) : v ∈ second g obs ↔ EndsPair g obs v := by
  unfold second EndsPair
  rw [List.mem_filter]
  obtain ⟨_, h2, h3⟩ := foldl_max_nat (obs.map (·.night)) 0
  constructor
  · rintro ⟨h, hc⟩
    simp only [Bool.and_eq_true, decide_eq_true_eq] at hc
    refine ⟨h, hc.1, ?_⟩
    intro w hw
    rw [hc.2]
    exact h2 _ (List.mem_map_of_mem hw)
  · rintro ⟨h, hn, hmax⟩
    refine ⟨h, ?_⟩
    simp only [Bool.and_eq_true, decide_eq_true_eq]
    refine ⟨hn, ?_⟩
    apply le_antisymm
    · exact h2 _ (List.mem_map_of_mem h)
    · rcases h3 with h3 | h3
      · unfold lastNight; rw [h3]; exact Nat.zero_le _
      · obtain ⟨w, hw, hwn⟩ := List.mem_map.1 h3
        unfold lastNight; rw [← hwn]; exact hmax w hw

/-- `later`, a number of times. -/
theorem later_iter (g : Cfg) (k : ℕ) : ∀ l : List Sched, (later g)^[k] l =
    l.map (fun e => { e with mjd := e.mjd + k * g.step, flush := e.flush + k * g.step }) := by
  induction k with
  | zero => intro l; simp
  | succ k ih =>
    intro l
    rw [Function.iterate_succ_apply, ih]
    unfold later
    rw [List.map_map]
    apply List.map_congr_left
    intro e _
    simp only [Function.comp, Sched.mk.injEq, true_and, and_true]
    push_cast
    constructor <;> ring

theorem settle_spec (g : Cfg) (fuel : ℕ) : ∀ l out : List Sched, settle g fuel l = some out →
    ∃ k < fuel, out = (later g)^[k] l ∧ tooHigh g out = false ∧ ∀ j < k, tooHigh g ((later g)^[j] l) = true := by
  induction fuel with
  | zero => intro l out h; cases h
  | succ n ih =>
    intro l out h
    unfold settle at h
    by_cases ht : tooHigh g l = true
    · rw [if_pos ht] at h
      obtain ⟨k, hk, h1, h2, h3⟩ := ih _ out h
      refine ⟨k + 1, by omega, by rw [Function.iterate_succ_apply]; exact h1, h2, ?_⟩
      intro j hj
      rcases j with _ | j
      · exact ht
      · rw [Function.iterate_succ_apply]; exact h3 j (by omega)
    · rw [if_neg ht] at h
      cases h
      exact ⟨0, by omega, rfl, by simpa using ht, by intro j hj; omega⟩

/-- C102: exactly the visits that complete a pair in the last night are scheduled again, the
gap of that night later and some number of steps later still (the same for all, none unless
positions near the zenith are avoided); each is dropped the flush time after that. -/
theorem C102_scheduled (g : Cfg) (fuel : ℕ) (obs : List Seen) (l : List Sched) (h : planned g fuel obs = some l) :
    ∃ k : ℕ, (g.avoid = false → k = 0) ∧ (∀ v, (∃ e ∈ l, e.src = v) ↔ EndsPair g obs v) ∧
      ∀ e ∈ l, e.mjd = e.src.mjd + g.gaps e.src.night + k * g.step ∧ e.flush = e.mjd + g.flush ∧ e.note = g.longName := by
  have hnight : ∀ v ∈ second g obs, v.night = lastNight obs := by
    intro v hv
    have := (List.mem_filter.1 hv).2
    simp only [Bool.and_eq_true, decide_eq_true_eq] at this
    exact this.2
  have base : ∀ k : ℕ, ∀ out, out = ((second g obs).map (entry g (g.gaps (lastNight obs)))).map
      (fun e => { e with mjd := e.mjd + k * g.step, flush := e.flush + k * g.step }) →
      (∀ v, (∃ e ∈ out, e.src = v) ↔ EndsPair g obs v) ∧
      ∀ e ∈ out, e.mjd = e.src.mjd + g.gaps e.src.night + k * g.step ∧ e.flush = e.mjd + g.flush ∧ e.note = g.longName := by
    intro k out ho
    subst ho
    rw [List.map_map]
    constructor
    · intro v
      rw [← mem_second]
      constructor
      · rintro ⟨e, he, hs⟩
        obtain ⟨w, hw, rfl⟩ := List.mem_map.1 he
        have : w = v := hs
        rw [← this]; exact hw
      · intro hv
        exact ⟨_, List.mem_map.2 ⟨v, hv, rfl⟩, rfl⟩
    · intro e he
      obtain ⟨w, hw, rfl⟩ := List.mem_map.1 he
      simp only [Function.comp, entry]
      rw [hnight w hw]
      refine ⟨?_, ?_, ?_⟩ <;> first | trivial | rfl | ring
  unfold planned at h
  rcases hs : (second g obs).map (entry g (g.gaps (lastNight obs))) with _ | ⟨e, es⟩ <;> rw [hs] at h
  · cases h
    refine ⟨0, fun _ => rfl, base 0 [] (by rw [hs]; rfl)⟩
  · dsimp only at h
    by_cases ha : g.avoid = true
    · rw [if_pos ha] at h
      obtain ⟨k, _, h1, _, _⟩ := settle_spec g fuel _ l h
      refine ⟨k, by simp [ha], base k l ?_⟩
      rw [h1, later_iter, hs]
    · rw [if_neg ha] at h
      cases h
      refine ⟨0, fun _ => rfl, base 0 (e :: es) ?_⟩
      rw [hs]
      simp

/-- C102: when it is done, no scheduled position is above the limit at the times looked at:
every step from the first possible to the scheduled time. -/
theorem C102_not_too_high (g : Cfg) (fuel : ℕ) (obs : List Seen) (l : List Sched) (h : planned g fuel obs = some l)
    (ha : g.avoid = true) : ∀ t ∈ samples g l, ∀ e ∈ l, g.alt e.src t ≤ g.altMax := by
  unfold planned at h
  rcases hs : (second g obs).map (entry g (g.gaps (lastNight obs))) with _ | ⟨e, es⟩ <;> rw [hs] at h
  · cases h; intro t _ e he; simp at he
  · dsimp only at h
    rw [if_pos ha] at h
    obtain ⟨k, _, _, h2, _⟩ := settle_spec g fuel _ l h
    intro t ht e he
    unfold tooHigh at h2
    rw [List.any_eq_false] at h2
    have := h2 t ht
    simp only [Bool.not_eq_true, List.any_eq_false] at this
    have := this e he
    simpa using this

theorem minT_spec (l : List ℚ) : ∀ x, minT x l ≤ x ∧ (∀ y ∈ l, minT x l ≤ y) ∧ (minT x l = x ∨ minT x l ∈ l) := by
  induction l with
  | nil => intro x; simp [minT]
  | cons b l ih =>
    intro x
    obtain ⟨h1, h2, h3⟩ := ih (min x b)
    have e : minT x (b :: l) = minT (min x b) l := rfl
    rw [e]
    refine ⟨le_trans h1 (min_le_left _ _), ?_, ?_⟩
    · intro y hy
      rcases List.mem_cons.1 hy with rfl | hy
      · exact le_trans h1 (min_le_right _ _)
      · exact h2 y hy
    · rcases h3 with h3 | h3
      · rw [h3]
        rcases le_total x b with h | h
        · left; exact min_eq_left h
        · right; rw [min_eq_right h]; exact List.mem_cons_self
      · exact Or.inr (List.mem_cons_of_mem _ h3)

theorem maxT_ge (l : List ℚ) : ∀ x, x ≤ maxT x l ∧ ∀ y ∈ l, y ≤ maxT x l := by
  induction l with
  | nil => intro x; simp [maxT]
  | cons b l ih =>
    intro x
    obtain ⟨h1, h2⟩ := ih (max x b)
    have e : maxT x (b :: l) = maxT (max x b) l := rfl
    rw [e]
    refine ⟨le_trans (le_max_left _ _) h1, ?_⟩
    intro y hy
    rcases List.mem_cons.1 hy with rfl | hy
    · exact le_trans (le_max_right _ _) h1
    · exact h2 y hy

/-- C102: when it is done, no scheduled position is above the limit at any of the times from
the first possible one, a step apart, to the last scheduled time. -/
theorem C102_low_enough (g : Cfg) (fuel : ℕ) (obs : List Seen) (l : List Sched) (h : planned g fuel obs = some l)
    (ha : g.avoid = true) (hstep : 0 < g.step) (first : ℚ) (h1 : ∃ e ∈ l, first = e.mjd - g.tol) (h2 : ∀ e ∈ l, first ≤ e.mjd - g.tol)
    (k : ℕ) (h3 : ∃ e ∈ l, first + k * g.step ≤ e.mjd) : ∀ e ∈ l, g.alt e.src (first + k * g.step) ≤ g.altMax := by
  apply C102_not_too_high g fuel obs l h ha
  rcases l with _ | ⟨e, es⟩
  · obtain ⟨e, he, _⟩ := h1; simp at he
  obtain ⟨m1, m2, m3⟩ := minT_spec (es.map (fun x => x.mjd - g.tol)) (e.mjd - g.tol)
  obtain ⟨x1, x2⟩ := maxT_ge (es.map (·.mjd)) e.mjd
  have hmin : minT (e.mjd - g.tol) (es.map (fun x => x.mjd - g.tol)) = first := by
    apply le_antisymm
    · obtain ⟨e1, he1, rfl⟩ := h1
      rcases List.mem_cons.1 he1 with rfl | he1
      · exact m1
      · exact m2 _ (List.mem_map.2 ⟨e1, he1, rfl⟩)
    · rcases m3 with m3 | m3
      · rw [m3]; exact h2 e List.mem_cons_self
      · obtain ⟨e1, he1, he⟩ := List.mem_map.1 m3
        rw [← he]; exact h2 e1 (List.mem_cons_of_mem _ he1)
  have hmax : first + k * g.step ≤ maxT e.mjd (es.map (·.mjd)) := by
    obtain ⟨e1, he1, hle⟩ := h3
    refine le_trans hle ?_
    rcases List.mem_cons.1 he1 with rfl | he1
    · exact x1
    · exact x2 _ (List.mem_map.2 ⟨e1, he1, rfl⟩)
  unfold samples arange
  dsimp only
  rw [hmin, List.mem_map]
  refine ⟨k, ?_, rfl⟩
  rw [List.mem_range]
  have : (k : ℤ) < ⌈(maxT e.mjd (es.map (·.mjd)) + g.step - first) / g.step⌉ := by
    rw [Int.lt_ceil, lt_div_iff₀ hstep]
    push_cast
    linarith
  omega

/-- The visits to be repeated, a gap and a number of steps later. -/
def atStep (g : Cfg) (obs : List Seen) (k : ℕ) : List Sched :=
  (second g obs).map (fun v => ⟨v, v.mjd + g.gaps (lastNight obs) + k * g.step, v.mjd + g.gaps (lastNight obs) + k * g.step + g.flush, g.longName⟩)

theorem atStep_later (g : Cfg) (obs : List Seen) (k : ℕ) :
    atStep g obs k = (later g)^[k] ((second g obs).map (entry g (g.gaps (lastNight obs)))) := by
  rw [later_iter, List.map_map]
  unfold atStep
  apply List.map_congr_left
  intro v _
  simp only [Function.comp, entry, Sched.mk.injEq, true_and, and_true]
  ring

theorem settle_ends (g : Cfg) (k : ℕ) : ∀ l, tooHigh g ((later g)^[k] l) = false → ∃ out, settle g (k + 1) l = some out := by
  induction k with
  | zero => intro l h; exact ⟨l, by unfold settle; rw [if_neg (by simpa using h)]⟩
  | succ k ih =>
    intro l h
    rw [Function.iterate_succ_apply] at h
    obtain ⟨out, ho⟩ := ih _ h
    by_cases ht : tooHigh g l = true
    · exact ⟨out, by unfold settle; rw [if_pos ht]; exact ho⟩
    · exact ⟨l, by unfold settle; rw [if_neg ht]⟩

/-- C102: the visits are moved by the least number of steps that keeps all sampled altitudes
within the limit, and if there is such a number the search ends. -/
theorem C102_least_shift (g : Cfg) (obs : List Seen) (ha : g.avoid = true) (k : ℕ)
    (hk : ∀ t ∈ samples g (atStep g obs k), ∀ e ∈ atStep g obs k, g.alt e.src t ≤ g.altMax)
    (hmin : ∀ j < k, ∃ t ∈ samples g (atStep g obs j), ∃ e ∈ atStep g obs j, g.altMax < g.alt e.src t) :
    ∃ fuel, planned g fuel obs = some (atStep g obs k) := by
  have hno : tooHigh g (atStep g obs k) = false := by
    unfold tooHigh
    rw [List.any_eq_false]
    intro t ht
    simp only [Bool.not_eq_true, List.any_eq_false]
    intro e he
    simpa using hk t ht e he
  have hyes : ∀ j < k, tooHigh g (atStep g obs j) = true := by
    intro j hj
    obtain ⟨t, ht, e, he, h⟩ := hmin j hj
    unfold tooHigh
    rw [List.any_eq_true]
    exact ⟨t, ht, by rw [List.any_eq_true]; exact ⟨e, he, by simpa using h⟩⟩
  refine ⟨k + 1, ?_⟩
  unfold planned
  rw [atStep_later] at hno
  rw [atStep_later]
  have hyes' : ∀ j < k, tooHigh g ((later g)^[j] ((second g obs).map (entry g (g.gaps (lastNight obs))))) = true :=
    fun j hj => by rw [← atStep_later]; exact hyes j hj
  rcases hs : (second g obs).map (entry g (g.gaps (lastNight obs))) with _ | ⟨e, es⟩
  · rw [later_iter]; rfl
  · rw [hs] at hno hyes'
    dsimp only
    rw [if_pos ha]
    obtain ⟨out, ho⟩ := settle_ends g k _ hno
    rw [ho]
    obtain ⟨i, hi, h1, h2, h3⟩ := settle_spec g (k + 1) _ out ho
    rcases lt_trichotomy i k with hlt | heq | hgt
    · have := hyes' i hlt
      rw [← h1, h2] at this; cases this
    · rw [h1, heq]
    · omega

/-- The gap of a night is in the range asked for. -/
def GapsIn (g : Cfg) (lo hi : ℚ) : Prop := ∀ n, lo ≤ g.gaps n ∧ g.gaps n ≤ hi

/-- C102: the third visit is never scheduled before the shortest gap, and not after the
longest one if the zenith is not avoided. -/
theorem C102_gap_partial (g : Cfg) (fuel : ℕ) (obs : List Seen) (l : List Sched) (lo hi : ℚ) (h : planned g fuel obs = some l)
    (hg : GapsIn g lo hi) (hstep : 0 ≤ g.step) :
    ∀ e ∈ l, lo ≤ e.mjd - e.src.mjd ∧ (g.avoid = false → e.mjd - e.src.mjd ≤ hi) := by
  obtain ⟨k, hk, _, h2⟩ := C102_scheduled g fuel obs l h
  intro e he
  obtain ⟨h3, _, _⟩ := h2 e he
  have hks : 0 ≤ (k : ℚ) * g.step := mul_nonneg (by positivity) hstep
  rw [h3]
  have := hg e.src.night
  refine ⟨by linarith [this.1], ?_⟩
  intro ha
  rw [hk ha]
  push_cast
  linarith [this.2]

/-- A survey for the witnesses: gaps of 4 hours within 2 to 5, a target that stays above the
limit for 3 hours. -/
def long0 : Cfg :=
  { blobNote := "pair", longName := "long", gaps := fun _ => 4/24, tol := 2/24, flush := 2/24, block := 1/48, avoid := true,
    altMax := 80, step := 1/48, alt := fun _ t => if t < 5/24 then 85 else 60 }

def endB : Seen := ⟨"pair, b", 3, 0, "r", 0, 0⟩

/-- C102 fails: to avoid the zenith a visit is moved beyond the longest gap. -/
theorem C102_gap_violated : GapsIn long0 (2/24) (5/24) ∧
    ∃ l, planned long0 20 [⟨"pair, a", 3, -1, "g", 0, 0⟩, endB] = some l ∧ ∃ e ∈ l, 5/24 < e.mjd - e.src.mjd := by
  refine ⟨fun n => by constructor <;> norm_num [long0], ?_⟩
  refine ⟨[{ src := endB, mjd := 7/24, flush := 9/24, note := "long" }], by decide +kernel, _, List.mem_cons_self, ?_⟩
  norm_num [endB]

/-- C102 fails: after the scheduled time altitudes are not looked at, though the visit may be
taken until the tolerance is over. -/
theorem C102_zenith_violated : ∃ (g : Cfg) (l : List Sched), planned g 20 [endB] = some l ∧ g.avoid = true ∧
    ∃ e ∈ l, ∃ t, e.mjd < t ∧ t < e.mjd + g.tol ∧ t < e.flush ∧ g.altMax < g.alt e.src t := by
  refine ⟨{ long0 with alt := fun _ t => if 11/48 < t then 85 else 60 }, [{ src := endB, mjd := 4/24, flush := 6/24, note := "long" }],
    by decide +kernel, rfl, _, List.mem_cons_self, 23/96, ?_⟩
  refine ⟨?_, ?_, ?_, ?_⟩ <;> norm_num [long0]

/-- The loop that avoids the zenith never ends for a target that is always above the limit. -/
theorem C102_endless (g : Cfg) (obs : List Seen) (v : Seen) (hv : EndsPair g obs v) (ha : g.avoid = true)
    (hstep : 0 < g.step) (htol : 0 ≤ g.tol) (hhigh : ∀ w t, g.altMax < g.alt w t) : ∀ fuel, planned g fuel obs = none := by
  have hsamp : ∀ e es, samples g (e :: es) ≠ [] := by
    intro e es
    unfold samples arange
    have hmin : minT (e.mjd - g.tol) (es.map (fun x => x.mjd - g.tol)) ≤ e.mjd - g.tol := by
      unfold minT
      generalize e.mjd - g.tol = a
      generalize es.map (fun x => x.mjd - g.tol) = l
      induction l generalizing a with
      | nil => exact le_refl _
      | cons b l ih => rw [List.foldl_cons]; exact le_trans (ih _) (min_le_left _ _)
    have hmax : e.mjd ≤ maxT e.mjd (es.map (·.mjd)) := by
      unfold maxT
      generalize e.mjd = a
      generalize es.map (·.mjd) = l
      induction l generalizing a with
      | nil => exact le_refl _
      | cons b l ih => rw [List.foldl_cons]; exact le_trans (le_max_left _ _) (ih _)
    have hpos : 0 < ⌈(maxT e.mjd (es.map (·.mjd)) + g.step - minT (e.mjd - g.tol) (es.map (fun x => x.mjd - g.tol))) / g.step⌉ := by
      rw [Int.ceil_pos]
      apply div_pos _ hstep
      linarith
    intro h
    rw [List.map_eq_nil_iff, List.range_eq_nil] at h
    omega
  have htoo : ∀ e es, tooHigh g (e :: es) = true := by
    intro e es
    unfold tooHigh
    rw [List.any_eq_true]
    obtain ⟨t, ht⟩ := List.exists_mem_of_ne_nil _ (hsamp e es)
    exact ⟨t, ht, by rw [List.any_eq_true]; exact ⟨e, List.mem_cons_self, by simpa using hhigh e.src t⟩⟩
  have hset : ∀ fuel e es, settle g fuel (e :: es) = none := by
    intro fuel
    induction fuel with
    | zero => intro e es; rfl
    | succ n ih =>
      intro e es
      unfold settle
      rw [if_pos (htoo e es)]
      unfold later
      rw [List.map_cons]
      exact ih _ _
  intro fuel
  unfold planned
  rcases hs : (second g obs).map (entry g (g.gaps (lastNight obs))) with _ | ⟨e, es⟩
  · rw [List.map_eq_nil_iff] at hs
    have := (mem_second g obs v).2 hv
    rw [hs] at this; simp at this
  · dsimp only
    rw [if_pos ha]
    exact hset fuel e es

/-- C102: the gap that was shortened at the start of the night, so that the third visit comes
before twilight, has no effect on what is scheduled. -/
theorem C102_short_gap_ignored (g : Cfg) (fuel : ℕ) (obs : List Seen) (s s' : State) (night : ℕ) (mjd rising : ℚ)
    (h : scheduleObs g fuel obs (newNight g night mjd rising s) = some s') (l : List Sched) (hl : planned g fuel obs = some l) :
    s'.script = (newNight g night mjd rising s).script ++ l := by
  unfold scheduleObs at h
  rcases obs with _ | ⟨o, os⟩
  · cases h
  · dsimp only at h
    rw [hl] at h
    cases h
    rfl

/-- C102 fails: the night ends in three hours, the third visit is scheduled in seven. -/
theorem C102_short_gap_violated : ∃ s', scheduleObs { long0 with avoid := false } 1 [endB] (newNight long0 3 0 (3/24) new) = some s' ∧
    (newNight long0 3 0 (3/24) new).gap = 3/24 - 1/48 ∧ ∃ e ∈ s'.script, 3/24 < e.mjd := by
  refine ⟨{ night := 3, gap := 4/24, script := [{ src := endB, mjd := 4/24, flush := 6/24, note := "long" }] }, ?_, ?_, ?_⟩
  · decide +kernel
  · decide +kernel
  · exact ⟨_, List.mem_cons_self, by norm_num⟩

/-- C102: what has been scheduled stays until the night changes. -/
theorem C102_kept (g : Cfg) (night : ℕ) (mjd rising : ℚ) (s : State) (h : s.night = night) :
    newNight g night mjd rising s = s := by
  unfold newNight; rw [if_neg (by simp [h])]

/-- C102: and is gone when it changes. -/
theorem C102_cleared (g : Cfg) (night : ℕ) (mjd rising : ℚ) (s : State) (h : s.night ≠ night) :
    (newNight g night mjd rising s).script = [] := by
  unfold newNight; rw [if_pos (by exact fun e => h e.symm)]

/-- A survey started again in the middle of the night and given the visits so far is ready for
the same third visits as one that has been running. -/
def Restartable (g : Cfg) (fuel : ℕ) (obs : List Seen) (night : ℕ) (mjd0 mjd rising : ℚ) : Prop :=
  (scheduleObs g fuel obs (newNight g night mjd0 rising new)).map (fun s => (newNight g night mjd rising s).script) =
    (scheduleObs g fuel obs new).map (fun s => (newNight g night mjd rising s).script)

/-- C102 fails: the first reward after a restart clears the script that was just restored. -/
theorem C102_restart_violated : ¬ Restartable { long0 with avoid := false } 1 [endB] 3 (-1/24) (1/24) 1 ∧
    (scheduleObs { long0 with avoid := false } 1 [endB] new).map
      (fun s => (newNight { long0 with avoid := false } 3 (1/24) 1 s).script) = some [] := by
  unfold Restartable
  constructor <;> decide +kernel

/-- C102: the reward is the larger of the two. -/
theorem C102_reward (r1 r2 : XReal) : (reward r1 r2 = .nan ↔ r1 = .nan ∧ r2 = .nan) ∧
    (reward r1 r2 ≠ .nan → (reward r1 r2 = r1 ∨ reward r1 r2 = r2) ∧
      (r1 = .nan ∨ XReal.leB r1 (reward r1 r2) = true) ∧ (r2 = .nan ∨ XReal.leB r2 (reward r1 r2) = true)) := by
  unfold reward
  rcases hm : XReal.nanmax [r1, r2] with _ | m
  · have := XReal.nanmax_none hm; simp at this
  · simp only [Option.getD_some]
    rcases XReal.nanmax_max hm with ⟨e, h2⟩ | ⟨h1, h2, h3⟩
    · refine ⟨⟨fun _ => ⟨h2 r1 (by simp), h2 r2 (by simp)⟩, fun _ => e⟩, fun h => absurd e h⟩
    · refine ⟨⟨fun e => absurd e h1, ?_⟩, fun _ => ⟨by simpa using h2, h3 r1 (by simp), h3 r2 (by simp)⟩⟩
      rintro ⟨e1, e2⟩
      simp [e1, e2] at h2
      exact absurd h2 h1

/-- C102: a script that is ready comes before the blob. -/
theorem C102_script_first {α : Type} (r2 : XReal) (x : α) (blob : Option α) (h : r2 ≠ .ninf) (hn : r2 ≠ .nan) :
    generate r2 (some x) blob = some x := by
  unfold generate; rw [if_neg (by tauto)]

example : planned { long0 with avoid := false } 1 [⟨"pair, a", 3, -1, "g", 0, 0⟩, endB, ⟨"pair, b", 2, -2, "r", 0, 0⟩] =
    some [{ src := endB, mjd := 4/24, flush := 6/24, note := "long" }] := by decide +kernel
example : planned long0 20 [endB] = some (atStep long0 [endB] 6) := by decide +kernel
example : EndsPair long0 [⟨"pair, a", 3, -1, "g", 0, 0⟩, endB] endB := by
  refine ⟨by simp, rfl, ?_⟩
  intro w hw
  simp only [List.mem_cons, List.not_mem_nil, or_false] at hw
  rcases hw with rfl | rfl <;> decide

end Verif
