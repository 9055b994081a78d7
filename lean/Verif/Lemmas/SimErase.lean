import Verif.Lemmas.SimRunner

/-! Recording the calls does not change the simulation. -/

namespace Verif.Sim
variable {W V C B : Type} (E : Env W V C B)

theorem updateNow_erase (w : W × List (Ev V C B)) : (updateNow E.recorded w).1 = updateNow E w.1 := rfl
theorem mountNow_erase (w : W × List (Ev V C B)) : (mountNow E.recorded w).1 = mountNow E w.1 := rfl

theorem refresh_erase (cfg : Cfg) (w : W × List (Ev V C B)) :
    (refresh E.recorded cfg w).1 = refresh E cfg w.1 := by
  unfold refresh
  have h0 : E.recorded.hasConds w = E.hasConds w.1 := rfl
  rw [h0]
  cases E.hasConds w.1
  · simp only [Bool.false_eq_true, if_false]
    set w1 := updateNow E.recorded w
    have hw1 : updateNow E w.1 = w1.1 := rfl
    rw [hw1]
    have h1 : (E.recorded.check w1 (E.recorded.clock w1)).2 = (E.check w1.1 (E.clock w1.1)).2 := rfl
    rw [h1]
    cases (E.check w1.1 (E.clock w1.1)).2 <;> cases cfg.updateEvery <;> rfl
  · simp only [if_true]
    have h1 : (E.recorded.check w (E.recorded.clock w)).2 = (E.check w.1 (E.clock w.1)).2 := rfl
    rw [h1]
    cases (E.check w.1 (E.clock w.1)).2 <;> cases cfg.updateEvery <;> rfl

theorem endOfPass_erase (cfg : Cfg) (nn : Bool) (s : St (W × List (Ev V C B)) V) :
    (endOfPass E.recorded cfg nn s).erase = endOfPass E cfg nn s.erase := by
  unfold endOfPass
  cases nn <;> cases hv : cfg.visitLimit with
  | none => rfl
  | some n =>
    have hc : s.erase.counter = s.counter := rfl
    by_cases h : (s.counter : ℤ) = n <;> simp only [h, hc, if_true, if_false] <;> rfl

theorem skipPass_erase (cfg : Cfg) (s : St (W × List (Ev V C B)) V) :
    (skipPass E.recorded cfg s).erase = skipPass E cfg s.erase := by
  unfold skipPass
  dsimp only
  set w := updateNow E.recorded (E.recorded.setClock s.w (E.recorded.clock s.w + cfg.step))
  have hw : updateNow E (E.setClock s.erase.w (E.clock s.erase.w + cfg.step)) = w.1 := rfl
  rw [hw]
  have hc : E.recorded.clock w = E.clock w.1 := rfl
  have he : s.erase.endMjd = s.endMjd := rfl
  rw [hc, he]
  split_ifs <;> rfl

theorem addOverhead_erase (cfg : Cfg) (w : W × List (Ev V C B)) (v : V) :
    (addOverhead E.recorded cfg w v).1 = addOverhead E cfg w.1 v := by
  unfold addOverhead
  split_ifs <;> rfl

theorem completedPass_erase (cfg : Cfg) (nn : Bool) (s : St (W × List (Ev V C B)) V) (v : V) :
    (completedPass E.recorded cfg nn s v).erase = completedPass E cfg nn s.erase v := by
  unfold completedPass
  dsimp only
  rw [show s.erase.w = s.w.1 from rfl, ← addOverhead_erase, show s.erase.buf = s.buf from rfl,
    show s.erase.counter = s.counter from rfl]
  cases store cfg s.buf s.counter v with
  | none => rfl
  | some b => exact endOfPass_erase E cfg nn _

theorem rejectedPass_erase (cfg : Cfg) (nn : Bool) (s : St (W × List (Ev V C B)) V) :
    (rejectedPass E.recorded cfg nn s).erase = rejectedPass E cfg nn s.erase := by
  unfold rejectedPass
  have hc : E.recorded.clock s.w = E.clock s.erase.w := rfl
  have hl : s.erase.lastFlush = s.lastFlush := rfl
  rw [hc, hl]
  split_ifs
  · rfl
  · exact endOfPass_erase E cfg nn _

theorem pass_erase (cfg : Cfg) (s : St (W × List (Ev V C B)) V) :
    (pass E.recorded cfg s).erase = pass E cfg s.erase := by
  rcases pass_shape E cfg s _ rfl with ⟨u, hu, hp⟩ | ⟨u, v, x, v', nn, hu, hx, hp⟩ | ⟨u, v, x, nn, hu, hx, hp⟩
  all_goals
    rw [hp]
    unfold pass
    dsimp only
    rw [show s.erase.w = s.w.1 from rfl, ← refresh_erase, hu]
    dsimp only
  · exact skipPass_erase E cfg _
  · rw [hx]; exact completedPass_erase E cfg nn _ _
  · rw [hx]; exact rejectedPass_erase E cfg nn _

theorem loop_erase (cfg : Cfg) (n : ℕ) (s : St (W × List (Ev V C B)) V) :
    (loop E.recorded cfg n s).erase = loop E cfg n s.erase := by
  induction n generalizing s with
  | zero =>
    unfold loop
    rw [show s.erase.mjd = s.mjd from rfl, show s.erase.endMjd = s.endMjd from rfl]
    split_ifs <;> rfl
  | succ n ih =>
    unfold loop
    rw [show s.erase.mjd = s.mjd from rfl, show s.erase.endMjd = s.endMjd from rfl, ← pass_erase]
    split_ifs
    · cases pass E.recorded cfg s with
      | again s' => exact ih s'
      | brk s' => rfl
      | gaveUp s' => rfl
      | indexError s' => rfl
    · rfl

theorem start_erase (cfg : Cfg) (w : W) (l : List (Ev V C B)) :
    (start (V := V) E.recorded cfg (w, l)).erase = start E cfg w := by
  unfold start
  cases cfg.simStart <;> rfl

/-- Recording does not change the run. -/
theorem run_erase (cfg : Cfg) (n : ℕ) (w : W) (l : List (Ev V C B)) :
    (run (V := V) E.recorded cfg n (w, l)).erase = run E cfg n w := by
  unfold run
  rw [loop_erase, start_erase]

end Verif.Sim
