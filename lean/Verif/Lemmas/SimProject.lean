import Verif.Lemmas.SimRunner

/-!
A simulation whose world carries more than another one's: if the calls agree on the common part, so do the simulations.
-/

namespace Verif.Sim
variable {W W' V C B : Type}

/-- The common part of the calls. -/
structure Project (E' : Env W' V C B) (E : Env W V C B) (π : W' → W) : Prop where
  clock : ∀ w, E.clock (π w) = E'.clock w
  set : ∀ w x, E.setClock (π w) x = π (E'.setClock w x)
  conds : ∀ w, E.conds (π w) = (π (E'.conds w).1, (E'.conds w).2)
  hasConds : ∀ w, E.hasConds (π w) = E'.hasConds w
  check : ∀ w x, E.check (π w) x = (π (E'.check w x).1, (E'.check w x).2)
  update : ∀ w, E.update (π (E'.conds w).1) (E'.conds w).2 = π (E'.update (E'.conds w).1 (E'.conds w).2)
  request : ∀ w x, E.request (π w) x = (π (E'.request w x).1, (E'.request w x).2)
  observe : ∀ w v, E.observe (π w) v = (π (E'.observe w v).1, (E'.observe w v).2)
  overhead : ∀ w v, E.overhead (π w) v = (π (E'.overhead w v).1, (E'.overhead w v).2)
  add : ∀ w v, E.add (π w) v = π (E'.add w v)
  bandAdd : ∀ w v, E.bandAdd (π w) v = π (E'.bandAdd w v)
  flush : ∀ w, E.flush (π w) = π (E'.flush w)
  bands : ∀ w c, E.bands (π w) c = (π (E'.bands w c).1, (E'.bands w c).2)
  mount : ∀ w b, E.mount (π w) b = π (E'.mount w b)

def St.map (π : W' → W) (s : St W' V) : St W V := { w := π s.w, mjd := s.mjd, endMjd := s.endMjd, lastFlush := s.lastFlush, buf := s.buf, counter := s.counter, nskip := s.nskip }

def Pass.map (π : W' → W) : Pass W' V → Pass W V
  | .again s => .again (s.map π)
  | .brk s => .brk (s.map π)
  | .gaveUp s => .gaveUp (s.map π)
  | .indexError s => .indexError (s.map π)

def Out.map (π : W' → W) : Out W' V → Out W V
  | .finished s => .finished (s.map π)
  | .gaveUp s => .gaveUp (s.map π)
  | .indexError s => .indexError (s.map π)
  | .running s => .running (s.map π)

variable {E' : Env W' V C B} {E : Env W V C B} {π : W' → W}

theorem updateNow_project (P : Project E' E π) (w : W') : updateNow E (π w) = π (updateNow E' w) := by
  unfold updateNow; simp only [P.conds, P.update]

theorem mountNow_project (P : Project E' E π) (w : W') : mountNow E (π w) = π (mountNow E' w) := by
  unfold mountNow; simp only [P.conds, P.bands, P.mount]

theorem refresh_project (P : Project E' E π) (cfg : Cfg) (w : W') : refresh E cfg (π w) = π (refresh E' cfg w) := by
  unfold refresh
  rw [P.hasConds]
  cases E'.hasConds w <;> dsimp only
  · simp only [Bool.false_eq_true, if_false, updateNow_project P, P.clock, P.check]
    cases (E'.check (updateNow E' w) (E'.clock (updateNow E' w))).2 <;> cases cfg.updateEvery <;> simp [updateNow_project P]
  · simp only [if_true, P.clock, P.check]
    cases (E'.check w (E'.clock w)).2 <;> cases cfg.updateEvery <;> simp [updateNow_project P]

theorem endOfPass_project (P : Project E' E π) (cfg : Cfg) (nn : Bool) (s : St W' V) :
    endOfPass E cfg nn (s.map π) = (endOfPass E' cfg nn s).map π := by
  unfold endOfPass
  have h : (if nn then mountNow E (s.map π).w else (s.map π).w) = π (if nn then mountNow E' s.w else s.w) := by
    cases nn
    · rfl
    · exact mountNow_project P _
  dsimp only
  rw [h, P.clock]
  cases cfg.visitLimit with
  | none => rfl
  | some n =>
    dsimp only
    by_cases hc : (s.counter : ℤ) = n
    · rw [if_pos hc, if_pos (show ((s.map π).counter : ℤ) = n from hc)]; rfl
    · rw [if_neg hc, if_neg (show ¬ ((s.map π).counter : ℤ) = n from hc)]; rfl

theorem addOverhead_project (P : Project E' E π) (cfg : Cfg) (w : W') (v : V) : addOverhead E cfg (π w) v = π (addOverhead E' cfg w v) := by
  unfold addOverhead
  split_ifs
  · simp only [P.overhead, P.clock, P.set]
  · rfl

theorem pass_project (P : Project E' E π) (cfg : Cfg) (s : St W' V) : pass E cfg (s.map π) = (pass E' cfg s).map π := by
  unfold pass
  have h1 : refresh E cfg (s.map π).w = π (refresh E' cfg s.w) := refresh_project P cfg s.w
  dsimp only
  rw [h1, P.clock, P.request]
  rcases E'.request (refresh E' cfg s.w) (E'.clock (refresh E' cfg s.w)) with ⟨u, _ | v⟩
  · dsimp only
    unfold skipPass
    simp only [P.clock, P.set, updateNow_project P]
    show (if s.endMjd < _ then _ else _) = _
    split_ifs <;> rfl
  · dsimp only
    rw [P.observe]
    rcases E'.observe u v with ⟨x, _ | v', nn⟩
    · dsimp only
      unfold rejectedPass
      simp only [P.clock, P.flush]
      show (if _ = s.lastFlush then _ else _) = _
      split_ifs
      · rfl
      · exact endOfPass_project P cfg nn { s with w := E'.flush x, lastFlush := E'.clock (E'.flush x) }
    · dsimp only
      unfold completedPass
      simp only [addOverhead_project P, P.add, P.bandAdd]
      show (match store cfg s.buf s.counter v' with | none => _ | some buf => _) = _
      cases store cfg s.buf s.counter v' with
      | none => rfl
      | some b => exact endOfPass_project P cfg nn { s with w := E'.bandAdd (E'.add (addOverhead E' cfg x v') v') v', buf := b, counter := s.counter + 1 }

theorem loop_project (P : Project E' E π) (cfg : Cfg) (n : ℕ) (s : St W' V) : loop E cfg n (s.map π) = (loop E' cfg n s).map π := by
  induction n generalizing s with
  | zero =>
    unfold loop
    show (if s.mjd < s.endMjd then _ else _) = _
    split_ifs <;> rfl
  | succ n ih =>
    unfold loop
    show (if s.mjd < s.endMjd then _ else _) = _
    split_ifs
    · rw [pass_project P]
      cases pass E' cfg s with
      | again s' => exact ih s'
      | _ => rfl
    · rfl

/-- The simulations agree on the common part. -/
theorem run_project (P : Project E' E π) (cfg : Cfg) (n : ℕ) (w : W') : run (V := V) E cfg n (π w) = (run E' cfg n w).map π := by
  unfold run
  have h : start (V := V) E cfg (π w) = (start E' cfg w).map π := by
    unfold start
    cases cfg.simStart with
    | none => simp only [P.clock, mountNow_project P]; rfl
    | some m => simp only [P.set, mountNow_project P]; rfl
  rw [h]
  exact loop_project P cfg n _

end Verif.Sim
