import Verif.Lemmas.SimRename
import Verif.Lemmas.SimUntil

/-!
Two simulations whose worlds, visits and conditions are translated into each other, with clocks that differ by a fixed time: the simulations are translations of each
other. The loop marks "nothing flushed so far" with the time -1, so the clocks are taken to be later than that.
-/

namespace Verif.Sim
variable {W W' V V' C C' B : Type}

/-- The calls of `E` on translated worlds, visits and conditions, with times later by `d`, are the translations of those of `E'`;
visits asked for are translated by `ρ₀`, completed ones by `ρ`. -/
structure Shift (E' : Env W' V' C' B) (E : Env W V C B) (π : W' → W) (ρ₀ ρ : V' → V) (χ : C' → C) (d : ℚ) : Prop where
  clock : ∀ w, E.clock (π w) = E'.clock w + d
  set : ∀ w x, E.setClock (π w) (x + d) = π (E'.setClock w x)
  conds : ∀ w, E.conds (π w) = (π (E'.conds w).1, χ (E'.conds w).2)
  hasConds : ∀ w, E.hasConds (π w) = E'.hasConds w
  check : ∀ w x, E.check (π w) (x + d) = (π (E'.check w x).1, (E'.check w x).2)
  update : ∀ w c, E.update (π w) (χ c) = π (E'.update w c)
  request : ∀ w x, E.request (π w) (x + d) = (π (E'.request w x).1, (E'.request w x).2.map ρ₀)
  observe : ∀ w v, E.observe (π w) (ρ₀ v) = (π (E'.observe w v).1, (E'.observe w v).2.1.map ρ, (E'.observe w v).2.2)
  overhead : ∀ w v, E.overhead (π w) (ρ v) = (π (E'.overhead w v).1, (E'.overhead w v).2)
  add : ∀ w v, E.add (π w) (ρ v) = π (E'.add w v)
  bandAdd : ∀ w v, E.bandAdd (π w) (ρ v) = π (E'.bandAdd w v)
  flush : ∀ w, E.flush (π w) = π (E'.flush w)
  bands : ∀ w c, E.bands (π w) (χ c) = (π (E'.bands w c).1, (E'.bands w c).2)
  mount : ∀ w b, E.mount (π w) b = π (E'.mount w b)

/-- The time of the last flush; -1 stands for none. -/
def shiftFlush (d x : ℚ) : ℚ := if x = -1 then -1 else x + d

def St.shift (π : W' → W) (ρ : V' → V) (d : ℚ) (s : St W' V') : St W V :=
  { w := π s.w, mjd := s.mjd + d, endMjd := s.endMjd + d, lastFlush := shiftFlush d s.lastFlush, buf := s.buf.map (Option.map ρ), counter := s.counter, nskip := s.nskip }

def Pass.shift (π : W' → W) (ρ : V' → V) (d : ℚ) : Pass W' V' → Pass W V
  | .again s => .again (s.shift π ρ d)
  | .brk s => .brk (s.shift π ρ d)
  | .gaveUp s => .gaveUp (s.shift π ρ d)
  | .indexError s => .indexError (s.shift π ρ d)

def Out.shift (π : W' → W) (ρ : V' → V) (d : ℚ) : Out W' V' → Out W V
  | .finished s => .finished (s.shift π ρ d)
  | .gaveUp s => .gaveUp (s.shift π ρ d)
  | .indexError s => .indexError (s.shift π ρ d)
  | .running s => .running (s.shift π ρ d)

/-- The configuration with a start later by `d`. -/
def Cfg.shift (d : ℚ) (cfg : Cfg) : Cfg := { cfg with simStart := cfg.simStart.map (· + d) }

variable {E' : Env W' V' C' B} {E : Env W V C B} {π : W' → W} {ρ₀ ρ : V' → V} {χ : C' → C} {d : ℚ}

theorem updateNow_shift (P : Shift E' E π ρ₀ ρ χ d) (w : W') : updateNow E (π w) = π (updateNow E' w) := by
  unfold updateNow; simp only [P.conds, P.update]

theorem mountNow_shift (P : Shift E' E π ρ₀ ρ χ d) (w : W') : mountNow E (π w) = π (mountNow E' w) := by
  unfold mountNow; simp only [P.conds, P.bands, P.mount]

theorem refresh_shift (P : Shift E' E π ρ₀ ρ χ d) (cfg : Cfg) (w : W') : refresh E (cfg.shift d) (π w) = π (refresh E' cfg w) := by
  unfold refresh
  rw [P.hasConds]
  show (if cfg.updateEvery && _ then _ else _) = _
  cases E'.hasConds w <;> dsimp only
  · simp only [Bool.false_eq_true, if_false, updateNow_shift P, P.clock, P.check]
    cases (E'.check (updateNow E' w) (E'.clock (updateNow E' w))).2 <;> cases cfg.updateEvery <;> simp [updateNow_shift P]
  · simp only [if_true, P.clock, P.check]
    cases (E'.check w (E'.clock w)).2 <;> cases cfg.updateEvery <;> simp [updateNow_shift P]

theorem endOfPass_shift (P : Shift E' E π ρ₀ ρ χ d) (cfg : Cfg) (nn : Bool) (s : St W' V') :
    endOfPass E (cfg.shift d) nn (s.shift π ρ d) = (endOfPass E' cfg nn s).shift π ρ d := by
  unfold endOfPass
  have h : (if nn then mountNow E (s.shift π ρ d).w else (s.shift π ρ d).w) = π (if nn then mountNow E' s.w else s.w) := by
    cases nn
    · rfl
    · exact mountNow_shift P _
  dsimp only
  rw [h, P.clock]
  show (match cfg.visitLimit with | some n => _ | none => _) = _
  cases cfg.visitLimit with
  | none => rfl
  | some n =>
    dsimp only
    by_cases hc : (s.counter : ℤ) = n
    · rw [if_pos hc, if_pos (show ((s.shift π ρ d).counter : ℤ) = n from hc)]; rfl
    · rw [if_neg hc, if_neg (show ¬ ((s.shift π ρ d).counter : ℤ) = n from hc)]; rfl

theorem addOverhead_shift (P : Shift E' E π ρ₀ ρ χ d) (cfg : Cfg) (w : W') (v : V') : addOverhead E (cfg.shift d) (π w) (ρ v) = π (addOverhead E' cfg w v) := by
  unfold addOverhead
  show (if cfg.useOverhead then _ else _) = _
  split_ifs
  · simp only [P.overhead, P.clock]
    rw [add_right_comm, P.set]
  · rfl

theorem pass_shift (P : Shift E' E π ρ₀ ρ χ d) (K : Contract E') (cfg : Cfg) (s : St W' V') (h0 : -1 < E'.clock s.w) (h1 : -1 < E'.clock s.w + d) :
    pass E (cfg.shift d) (s.shift π ρ d) = (pass E' cfg s).shift π ρ d := by
  unfold pass
  have hr : refresh E (cfg.shift d) (s.shift π ρ d).w = π (refresh E' cfg s.w) := refresh_shift P cfg s.w
  have hck := refresh_clock K cfg s.w
  have hrq := K.request (refresh E' cfg s.w) (E'.clock (refresh E' cfg s.w))
  dsimp only
  rw [hr, P.clock, P.request]
  generalize E'.request (refresh E' cfg s.w) (E'.clock (refresh E' cfg s.w)) = r at hrq
  obtain ⟨u, _ | v⟩ := r
  · dsimp only [Option.map_none]
    unfold skipPass
    dsimp only
    have hs : (cfg.shift d).step = cfg.step := rfl
    rw [P.clock, hs, add_right_comm, P.set, updateNow_shift P, P.clock]
    show (if s.endMjd + d < _ then _ else _) = _
    simp only [add_lt_add_iff_right]
    split_ifs <;> rfl
  · dsimp only [Option.map_some]
    rw [P.observe]
    have hob := K.observe u v
    generalize E'.observe u v = o at hob
    obtain ⟨x, _ | v', nn⟩ := o
    · dsimp only [Option.map_none]
      dsimp only at hob hrq
      unfold rejectedPass
      dsimp only
      rw [P.clock, P.flush, P.clock]
      have hf := K.flush x
      have e1 : (E'.clock x + d = (s.shift π ρ d).lastFlush) ↔ E'.clock x = s.lastFlush := by
        show E'.clock x + d = shiftFlush d s.lastFlush ↔ _
        unfold shiftFlush
        split_ifs with hl
        · rw [hl]
          constructor
          · intro h; linarith
          · intro h; linarith
        · exact add_left_inj d
      by_cases hg : E'.clock x = s.lastFlush
      · rw [if_pos (e1.2 hg), if_pos hg]; rfl
      · rw [if_neg (fun h => hg (e1.1 h)), if_neg hg]
        have e2 := endOfPass_shift P cfg nn { s with w := E'.flush x, lastFlush := E'.clock (E'.flush x) }
        rw [← e2]
        congr 1
        unfold St.shift shiftFlush
        dsimp only
        rw [if_neg (by rw [hf]; intro h; linarith)]
    · dsimp only [Option.map_some]
      unfold completedPass
      simp only [addOverhead_shift P, P.add, P.bandAdd]
      show (match store cfg (s.buf.map (Option.map ρ)) s.counter (ρ v') with | none => _ | some buf => _) = _
      rw [store_rename]
      cases store cfg s.buf s.counter v' with
      | none => rfl
      | some b => exact endOfPass_shift P cfg nn { s with w := E'.bandAdd (E'.add (addOverhead E' cfg x v') v') v', buf := b, counter := s.counter + 1 }

theorem endOfPass_onward (K : Contract E) {cfg : Cfg} {nn : Bool} {s s' : St W V} (h : endOfPass E cfg nn s = .again s') : E.clock s'.w = E.clock s.w := by
  have hm : E.clock (if nn then mountNow E s.w else s.w) = E.clock s.w := by
    cases nn
    · rfl
    · exact mountNow_clock K _
  unfold endOfPass at h
  dsimp only at h
  generalize (if nn then mountNow E s.w else s.w) = u at h hm
  cases hl : cfg.visitLimit with
  | none => rw [hl] at h; cases h; exact hm
  | some n =>
    rw [hl] at h
    dsimp only at h
    split_ifs at h
    cases h
    exact hm

theorem pass_onward (K : Contract E) {cfg : Cfg} (hst : 0 ≤ cfg.stepNone) {s s' : St W V} (h : pass E cfg s = .again s') : E.clock s.w ≤ E.clock s'.w := by
  unfold pass at h
  have hck := refresh_clock K cfg s.w
  have hrq := K.request (refresh E cfg s.w) (E.clock (refresh E cfg s.w))
  dsimp only at h
  generalize E.request (refresh E cfg s.w) (E.clock (refresh E cfg s.w)) = r at hrq h
  obtain ⟨u, _ | v⟩ := r
  · dsimp only at h hrq
    unfold skipPass at h
    dsimp only at h
    split_ifs at h
    cases h
    have hs : 0 ≤ cfg.step := by unfold Cfg.step; positivity
    dsimp only
    rw [updateNow_clock K, K.set, hrq, hck]
    linarith
  · dsimp only at h hrq
    have hob := K.observe u v
    generalize E.observe u v = o at hob h
    obtain ⟨x, _ | v', nn⟩ := o
    · dsimp only at hob h
      unfold rejectedPass at h
      dsimp only at h
      split_ifs at h
      have := endOfPass_onward K h
      dsimp only at this
      rw [this, K.flush]
      linarith
    · dsimp only at hob h
      unfold completedPass at h
      dsimp only at h
      cases hst : store cfg s.buf s.counter v' with
      | none => rw [hst] at h; cases h
      | some b =>
        rw [hst] at h
        have := endOfPass_onward K h
        dsimp only at this
        have ha := addOverhead_clock K cfg x v'
        rw [this, K.bandAdd, K.add]
        linarith

theorem loop_shift (P : Shift E' E π ρ₀ ρ χ d) (K : Contract E') (cfg : Cfg) (hst : 0 ≤ cfg.stepNone) (n : ℕ) (s : St W' V') (h0 : -1 < E'.clock s.w) (h1 : -1 < E'.clock s.w + d) :
    loop E (cfg.shift d) n (s.shift π ρ d) = (loop E' cfg n s).shift π ρ d := by
  induction n generalizing s with
  | zero =>
    unfold loop
    show (if s.mjd + d < s.endMjd + d then _ else _) = _
    simp only [add_lt_add_iff_right]
    split_ifs <;> rfl
  | succ n ih =>
    unfold loop
    show (if s.mjd + d < s.endMjd + d then _ else _) = _
    simp only [add_lt_add_iff_right]
    split_ifs
    · rw [pass_shift P K cfg s h0 h1]
      cases hp : pass E' cfg s with
      | again s' =>
        have := pass_onward K hst hp
        exact ih s' (by linarith) (by linarith)
      | _ => rfl
    · rfl

/-- When a simulation begins. -/
def begins (E : Env W V C B) (cfg : Cfg) (w : W) : ℚ := cfg.simStart.getD (E.clock w)

/-- The simulations are translations of each other. -/
theorem run_shift (P : Shift E' E π ρ₀ ρ χ d) (K : Contract E') (cfg : Cfg) (hst : 0 ≤ cfg.stepNone) (n : ℕ) (w : W') (h0 : -1 < begins E' cfg w) (h1 : -1 < begins E' cfg w + d) :
    run (V := V) E (cfg.shift d) n (π w) = (run (V := V') E' cfg n w).shift π ρ d := by
  unfold run
  have h : start (V := V) E (cfg.shift d) (π w) = (start (V := V') E' cfg w).shift π ρ d := by
    unfold start St.shift Cfg.shift shiftFlush
    cases cfg.simStart with
    | none => simp only [Option.map_none, P.clock, mountNow_shift P, List.map_replicate, add_right_comm, if_true]
    | some m => simp only [Option.map_some, P.set, mountNow_shift P, List.map_replicate, Option.map_none, add_right_comm, if_true]
  have hc : E'.clock (start (V := V') E' cfg w).w = begins E' cfg w := by
    unfold start begins
    cases cfg.simStart with
    | none => simp only [mountNow_clock K, Option.getD_none]
    | some m => simp only [mountNow_clock K, K.set, Option.getD_some]
  rw [h]
  exact loop_shift P K cfg hst n _ (by rw [hc]; exact h0) (by rw [hc]; exact h1)

theorem shift_kind (o : Out W' V') : (o.shift π ρ d).kind = o.kind := by cases o <;> rfl

theorem shift_st (o : Out W' V') : (o.shift π ρ d).st = o.st.shift π ρ d := by cases o <;> rfl

theorem shift_result (s : St W' V') : (s.shift π ρ d).result = s.result.map (Option.map ρ) := by
  unfold St.result St.shift
  rw [List.map_take]

end Verif.Sim
