import Verif.Props.SimOptions
import Verif.Lemmas.SimRelate

/-!
Property C264: settings that a simulation makes no use of do not change it.
-/

namespace Verif

open Sim

section
variable {W V C B : Type}

/-- The state after a pass. -/
def stAfter : Pass W V → Sim.St W V
  | .again s => s
  | .brk s => s
  | .gaveUp s => s
  | .indexError s => s

theorem endOfPass_numbers (E : Sim.Env W V C B) (cfg : Cfg) (nn : Bool) (s : Sim.St W V) :
    (stAfter (endOfPass E cfg nn s)).nskip = s.nskip ∧ (stAfter (endOfPass E cfg nn s)).counter = s.counter := by
  unfold endOfPass
  dsimp only
  cases cfg.visitLimit with
  | none => exact ⟨rfl, rfl⟩
  | some n =>
    dsimp only
    by_cases h : (s.counter : ℤ) = n
    · rw [if_pos h]; exact ⟨rfl, rfl⟩
    · rw [if_neg h]; exact ⟨rfl, rfl⟩

theorem completed_numbers (E : Sim.Env W V C B) (cfg : Cfg) (nn : Bool) (s : Sim.St W V) (v : V) :
    (stAfter (completedPass E cfg nn s v)).nskip = s.nskip ∧ s.counter ≤ (stAfter (completedPass E cfg nn s v)).counter := by
  unfold completedPass
  dsimp only
  cases store cfg s.buf s.counter v with
  | none => exact ⟨rfl, le_rfl⟩
  | some b =>
    have h := endOfPass_numbers E cfg nn { s with w := E.bandAdd (E.add (addOverhead E cfg s.w v) v) v, buf := b, counter := s.counter + 1 }
    exact ⟨h.1, by rw [h.2]; exact Nat.le_succ _⟩

theorem rejected_numbers (E : Sim.Env W V C B) (cfg : Cfg) (nn : Bool) (s : Sim.St W V) :
    (stAfter (rejectedPass E cfg nn s)).nskip = s.nskip ∧ s.counter ≤ (stAfter (rejectedPass E cfg nn s)).counter := by
  unfold rejectedPass
  dsimp only
  split_ifs
  · exact ⟨rfl, le_rfl⟩
  · have h := endOfPass_numbers E cfg nn { s with w := E.flush s.w, lastFlush := E.clock (E.flush s.w) }
    exact ⟨h.1, h.2.ge⟩

theorem skip_numbers (E : Sim.Env W V C B) (cfg : Cfg) (s : Sim.St W V) :
    (stAfter (skipPass E cfg s)).nskip = s.nskip + 1 ∧ (stAfter (skipPass E cfg s)).counter = s.counter := by
  unfold skipPass
  dsimp only
  split_ifs <;> exact ⟨rfl, rfl⟩

/-- A pass that does not step on is the same whatever the step; the numbers of steps and visits do not become less. -/
theorem pass_step (E : Sim.Env W V C B) (cfg : Cfg) (x : ℚ) (s : Sim.St W V) :
    s.nskip ≤ (stAfter (pass E cfg s)).nskip ∧ s.counter ≤ (stAfter (pass E cfg s)).counter
      ∧ ((stAfter (pass E cfg s)).nskip = s.nskip → pass E { cfg with stepNone := x } s = pass E cfg s) := by
  have hr : refresh E { cfg with stepNone := x } s.w = refresh E cfg s.w := rfl
  unfold pass
  dsimp only
  rw [hr]
  rcases E.request (refresh E cfg s.w) (E.clock (refresh E cfg s.w)) with ⟨u, _ | v⟩
  · have h := skip_numbers E cfg { s with w := u }
    dsimp only
    refine ⟨by rw [h.1]; exact Nat.le_succ _, h.2.ge, fun h2 => ?_⟩
    rw [h.1] at h2
    exact absurd h2 (Nat.succ_ne_self _)
  · dsimp only
    rcases E.observe u v with ⟨y, _ | v', nn⟩
    · have h := rejected_numbers E cfg nn { s with w := y }
      exact ⟨h.1.ge, h.2, fun _ => rfl⟩
    · have h := completed_numbers E cfg nn { s with w := y } v'
      exact ⟨h.1.ge, h.2, fun _ => rfl⟩

theorem loop_grows (E : Sim.Env W V C B) (cfg : Cfg) (n : ℕ) : ∀ s : Sim.St W V, s.nskip ≤ (loop E cfg n s).st.nskip ∧ s.counter ≤ (loop E cfg n s).st.counter := by
  induction n with
  | zero => intro s; unfold loop; split_ifs <;> exact ⟨le_rfl, le_rfl⟩
  | succ n ih =>
    intro s
    have h := pass_step E cfg 0 s
    unfold loop
    split_ifs
    · cases hp : pass E cfg s with
      | again s' =>
        rw [hp] at h
        exact ⟨h.1.trans (ih s').1, h.2.1.trans (ih s').2⟩
      | brk s' => rw [hp] at h; exact ⟨h.1, h.2.1⟩
      | gaveUp s' => rw [hp] at h; exact ⟨h.1, h.2.1⟩
      | indexError s' => rw [hp] at h; exact ⟨h.1, h.2.1⟩
    · exact ⟨le_rfl, le_rfl⟩

theorem loop_step (E : Sim.Env W V C B) (cfg : Cfg) (x : ℚ) (n : ℕ) : ∀ s : Sim.St W V, (loop E cfg n s).st.nskip = s.nskip →
    loop E { cfg with stepNone := x } n s = loop E cfg n s := by
  induction n with
  | zero => intro s _; rfl
  | succ n ih =>
    intro s hs
    have h := pass_step E cfg x s
    unfold loop at hs ⊢
    split_ifs at hs ⊢
    · cases hp : pass E cfg s with
      | again s' =>
        rw [hp] at h hs
        dsimp only [stAfter] at h hs
        have hg := (loop_grows E cfg n s').1
        have e : s'.nskip = s.nskip := by omega
        rw [h.2.2 e]
        exact ih s' (by omega)
      | brk s' => rw [hp] at h hs; rw [h.2.2 hs]
      | gaveUp s' => rw [hp] at h hs; rw [h.2.2 hs]
      | indexError s' => rw [hp] at h hs; rw [h.2.2 hs]
    · rfl

/-- C264: a simulation in which there always was something to observe is the same, in everything, whatever the step that is made when there is nothing. -/
theorem C264_step (E : Sim.Env W V C B) (cfg : Cfg) (n : ℕ) (w : W) (h : (run (V := V) E cfg n w).st.nskip = 0) (x : ℚ) :
    run (V := V) E { cfg with stepNone := x } n w = run E cfg n w :=
  loop_step E cfg x n (start E cfg w) h

/-- C264: overheads of nothing are as none. -/
theorem C264_overhead (E : Sim.Env W V C B) (hE : ∀ w v, E.overhead w v = (w, 0)) (hset : ∀ w, E.setClock w (E.clock w) = w) (cfg : Cfg) (n : ℕ) (w : W) (b : Bool) :
    run (V := V) E { cfg with useOverhead := b } n w = run E { cfg with useOverhead := false } n w := by
  have ha : ∀ w v, addOverhead E { cfg with useOverhead := b } w v = addOverhead E { cfg with useOverhead := false } w v := by
    intro w v
    unfold addOverhead
    cases b
    · rfl
    · dsimp only
      rw [if_pos rfl, if_neg (by simp), hE]
      dsimp only
      rw [zero_div, add_zero, hset]
  have hp : ∀ s : Sim.St W V, pass E { cfg with useOverhead := b } s = pass E { cfg with useOverhead := false } s := by
    intro s
    unfold pass completedPass
    simp only [ha]
    rfl
  have hl : ∀ (n : ℕ) (s : Sim.St W V), loop E { cfg with useOverhead := b } n s = loop E { cfg with useOverhead := false } n s := by
    intro n
    induction n with
    | zero => intro s; rfl
    | succ n ih =>
      intro s
      unfold loop
      rw [hp]
      cases pass E { cfg with useOverhead := false } s with
      | again s' => dsimp only; rw [ih]
      | _ => rfl
  exact hl n _

/-- C264: when the queue never is good without new conditions, it does not matter whether conditions are to be renewed before each visit. -/
theorem C264_update (E : Sim.Env W V C B) (hE : ∀ w x, (E.check w x).2 = false) (cfg : Cfg) (n : ℕ) (w : W) (b : Bool) :
    run (V := V) E { cfg with updateEvery := b } n w = run E cfg n w := by
  have hr : ∀ w, refresh E { cfg with updateEvery := b } w = refresh E cfg w := by
    intro w
    unfold refresh
    simp only [hE, Bool.false_eq_true, if_false, Bool.not_true, Bool.and_false]
  have hp : ∀ s : Sim.St W V, pass E { cfg with updateEvery := b } s = pass E cfg s := by
    intro s
    unfold pass
    simp only [hr]
    rfl
  have hl : ∀ (n : ℕ) (s : Sim.St W V), loop E { cfg with updateEvery := b } n s = loop E cfg n s := by
    intro n
    induction n with
    | zero => intro s; rfl
    | succ n ih =>
      intro s
      unfold loop
      rw [hp]
      cases pass E cfg s with
      | again s' => dsimp only; rw [ih]
      | _ => rfl
  exact hl n _

theorem endOfPass_limit (E : Sim.Env W V C B) (cfg : Cfg) (hl : cfg.visitLimit = none) (L : ℤ) (nn : Bool) (s : Sim.St W V) (h : (s.counter : ℤ) < L) :
    endOfPass E { cfg with visitLimit := some L } nn s = endOfPass E cfg nn s := by
  unfold endOfPass
  dsimp only
  rw [hl, if_neg h.ne]

theorem pass_limit (E : Sim.Env W V C B) (cfg : Cfg) (hl : cfg.visitLimit = none) (L : ℤ) (s : Sim.St W V) (h : ((stAfter (pass E cfg s)).counter : ℤ) < L) :
    pass E { cfg with visitLimit := some L } s = pass E cfg s := by
  have hr : refresh E { cfg with visitLimit := some L } s.w = refresh E cfg s.w := rfl
  unfold pass at h ⊢
  dsimp only at h ⊢
  rw [hr]
  generalize E.request (refresh E cfg s.w) (E.clock (refresh E cfg s.w)) = r at h
  obtain ⟨u, _ | v⟩ := r
  · rfl
  · dsimp only at h ⊢
    generalize E.observe u v = o at h
    obtain ⟨y, _ | v', nn⟩ := o
    · dsimp only at h ⊢
      unfold rejectedPass at h ⊢
      dsimp only at h ⊢
      split_ifs at h ⊢
      · rfl
      · rw [(endOfPass_numbers E cfg nn _).2] at h
        exact endOfPass_limit E cfg hl L nn _ h
    · dsimp only at h ⊢
      unfold completedPass at h ⊢
      dsimp only at h ⊢
      have ha : addOverhead E { cfg with visitLimit := some L } y v' = addOverhead E cfg y v' := rfl
      have hs : store { cfg with visitLimit := some L } s.buf s.counter v' = store cfg s.buf s.counter v' := rfl
      rw [ha, hs]
      generalize store cfg s.buf s.counter v' = b at h
      cases b with
      | none => rfl
      | some b =>
        dsimp only at h ⊢
        rw [(endOfPass_numbers E cfg nn _).2] at h
        exact endOfPass_limit E cfg hl L nn _ h

/-- C264: a limit of visits that is not reached changes nothing. -/
theorem C264_limit (E : Sim.Env W V C B) (cfg : Cfg) (hl : cfg.visitLimit = none) (n : ℕ) (w : W) (L : ℤ) (h : ((run (V := V) E cfg n w).st.counter : ℤ) < L) :
    run (V := V) E { cfg with visitLimit := some L } n w = run E cfg n w := by
  have key : ∀ (n : ℕ) (s : Sim.St W V), ((loop E cfg n s).st.counter : ℤ) < L → loop E { cfg with visitLimit := some L } n s = loop E cfg n s := by
    intro n
    induction n with
    | zero => intro s _; rfl
    | succ n ih =>
      intro s hs
      have h := pass_limit E cfg hl L s
      unfold loop at hs ⊢
      split_ifs at hs ⊢
      · cases hp : pass E cfg s with
        | again s' =>
          rw [hp] at h hs
          dsimp only [stAfter] at h hs
          have hg := (loop_grows E cfg n s').2
          rw [h (by omega)]
          exact ih s' hs
        | brk s' => rw [hp] at h hs; rw [h hs]
        | gaveUp s' => rw [hp] at h hs; rw [h hs]
        | indexError s' => rw [hp] at h hs; rw [h hs]
      · rfl
  exact key n (start E cfg w) h

end

/-- A simulation with two visits and one turned down: it makes no step, has overheads of nothing, and does not reach a limit of three. -/
example : (run toySim { duration := 1 / 4, startSize := 1, appendSize := 1 } 9 ⟨0, [.ok (1 / 8), .reject (1 / 100), .ok (1 / 8)], 0⟩).st.nskip = 0
    ∧ (run toySim { duration := 1 / 4, startSize := 1, appendSize := 1 } 9 ⟨0, [.ok (1 / 8), .reject (1 / 100), .ok (1 / 8)], 0⟩).st.counter = 2
    ∧ (∀ w v, toySim.overhead w v = (w, 0)) ∧ (∀ w, toySim.setClock w (toySim.clock w) = w) := by
  exact ⟨by decide +kernel, by decide +kernel, fun _ _ => rfl, fun _ => rfl⟩

/-- A scheduler whose queue never is good without new conditions. -/
example : ∀ w x, (({ toySim with check := fun w _ => (w, false) } : Sim.Env ToyW ℕ Unit Unit).check w x).2 = false := fun _ _ => rfl

/-- Where there is nothing to observe the step matters. -/
theorem C264_step_needed : (run toySim { duration := 1 / 4, startSize := 1, appendSize := 1 } 9 ⟨0, [.nothing, .ok (1 / 4)], 0⟩).summary = ("finished", [some 0])
    ∧ (run toySim { duration := 1 / 4, startSize := 1, appendSize := 1, stepNone := 720 } 9 ⟨0, [.nothing, .ok (1 / 4)], 0⟩).summary = ("finished", []) := by
  decide +kernel

end Verif
