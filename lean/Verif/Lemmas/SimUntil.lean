import Verif.Lemmas.SimKeeps

/-!
Two simulations with the same calls, but for conditions and observations that may differ from a time on: the visits that are over before that time are the same.
-/

namespace Verif.Sim
variable {W V C B : Type}

/-- The same scheduler with other conditions and observations. -/
abbrev Env.later (E : Env W V C B) (co : W → W × C) (ob : W → V → W × Option V × Bool) : Env W V C B := { E with conds := co, observe := ob }

/-- The visits stored that are over before `T`; `stop` is when a visit is over. -/
def early (stop : V → ℚ) (T : ℚ) (s : St W V) : List V := (s.result.filterMap id).filter fun v => decide (stop v < T)

/-- What never ends once it holds. -/
structure Lasting (E : Env W V C B) (bad : W → Prop) : Prop where
  set : ∀ w x, bad w → bad (E.setClock w x)
  conds : ∀ w, bad w → bad (E.conds w).1
  check : ∀ w x, bad w → bad (E.check w x).1
  update : ∀ w c, bad w → bad (E.update w c)
  request : ∀ w x, bad w → bad (E.request w x).1
  observe : ∀ w v, bad w → bad (E.observe w v).1
  overhead : ∀ w v, bad w → bad (E.overhead w v).1
  add : ∀ w v, bad w → bad (E.add w v)
  bandAdd : ∀ w v, bad w → bad (E.bandAdd w v)
  flush : ∀ w, bad w → bad (E.flush w)
  bands : ∀ w c, bad w → bad (E.bands w c).1
  mount : ∀ w b, bad w → bad (E.mount w b)

/-- The pass after the visit was observed. -/
def after (E : Env W V C B) (cfg : Cfg) (s : St W V) (o : W × Option V × Bool) : Pass W V :=
  match o.2.1 with
  | some v' => completedPass E cfg o.2.2 { s with w := o.1 } v'
  | none => rejectedPass E cfg o.2.2 { s with w := o.1 }

theorem pass_after (E : Env W V C B) (cfg : Cfg) (s : St W V) : pass E cfg s =
    match (E.request (refresh E cfg s.w) (E.clock (refresh E cfg s.w))).2 with
    | none => skipPass E cfg { s with w := (E.request (refresh E cfg s.w) (E.clock (refresh E cfg s.w))).1 }
    | some v => after E cfg s (E.observe (E.request (refresh E cfg s.w) (E.clock (refresh E cfg s.w))).1 v) := rfl

theorem store_take {cfg : Cfg} {buf b : List (Option V)} {n : ℕ} {v : V} (h : store cfg buf n v = some b) : b.take (n + 1) = buf.take n ++ [some v] := by
  unfold store at h
  split_ifs at h with h1
  have hs : (buf.set n (some v)).take (n + 1) = buf.take n ++ [some v] := by
    rw [List.take_set, List.take_add_one, List.getElem?_eq_getElem h1, List.set_append, if_neg (by simp), Option.toList_some]
    simp [Nat.min_eq_left h1.le]
  dsimp only at h
  split_ifs at h with h2
  · cases h
    rw [List.take_append_of_le_length (by omega)]
    exact hs
  · cases h
    exact hs

section
variable {E : Env W V C B} {bad : W → Prop} {stop : V → ℚ} {T : ℚ} {cfg : Cfg}

theorem updateNow_bad (h : Lasting E bad) {w : W} (hw : bad w) : bad (updateNow E w) := h.update _ _ (h.conds _ hw)

theorem mountNow_bad (h : Lasting E bad) {w : W} (hw : bad w) : bad (mountNow E w) := h.mount _ _ (h.bands _ _ (h.conds _ hw))

theorem endOfPass_bad (h : Lasting E bad) (nn : Bool) {s : St W V} (hw : bad s.w) : bad (endOfPass E cfg nn s).st.w := by
  rw [endOfPass_st]
  dsimp only
  split_ifs
  · exact mountNow_bad h hw
  · exact hw

theorem after_bad (h : Lasting E bad) (s : St W V) {o : W × Option V × Bool} (hw : bad o.1) : bad (after E cfg s o).st.w := by
  obtain ⟨x, _ | v', nn⟩ := o
  · unfold after rejectedPass
    dsimp only
    split_ifs
    · exact hw
    · exact endOfPass_bad h nn (h.flush _ hw)
  · unfold after completedPass
    dsimp only
    have h1 : bad (addOverhead E cfg x v') := by
      unfold addOverhead
      split_ifs
      · exact h.set _ _ (h.overhead _ _ hw)
      · exact hw
    cases store cfg s.buf s.counter v' with
    | none => exact h.add _ _ h1
    | some b => exact endOfPass_bad h nn (h.bandAdd _ _ (h.add _ _ h1))

theorem pass_bad (h : Lasting E bad) {s : St W V} (hw : bad s.w) : bad (pass E cfg s).st.w := by
  have hf : bad (refresh E cfg s.w) := refresh_keeps h.conds h.check h.update _ hw
  rw [pass_after]
  generalize refresh E cfg s.w = w at hf
  have hr := h.request w (E.clock w) hf
  generalize E.request w (E.clock w) = r at hr
  obtain ⟨u, _ | v⟩ := r
  · dsimp only
    unfold skipPass
    dsimp only
    split_ifs <;> exact updateNow_bad h (h.set _ _ hr)
  · exact after_bad h s (h.observe _ _ hr)

theorem loop_bad (h : Lasting E bad) (n : ℕ) {s : St W V} (hw : bad s.w) : bad (loop E cfg n s).st.w := by
  refine loop_inv (P := fun s : St W V => bad s.w) (Q := fun o : Out W V => bad o.st.w) ?_ ?_ ?_ ?_ ?_ ?_ n s hw
  iterate 4
    intro s s' hs _ hp
    have := pass_bad (cfg := cfg) h hs
    rw [hp] at this
    exact this
  · intro s hs _; exact hs
  · intro s hs _; exact hs

theorem endOfPass_late (K : Contract E) (nn : Bool) {s : St W V} (hT : T ≤ E.clock s.w) :
    T ≤ E.clock (endOfPass E cfg nn s).st.w ∧ early stop T (endOfPass E cfg nn s).st = early stop T s := by
  rw [endOfPass_st]
  refine ⟨?_, rfl⟩
  dsimp only
  split_ifs
  · rw [mountNow_clock K]; exact hT
  · exact hT

theorem addOverhead_clock (K : Contract E) (cfg : Cfg) (w : W) (v : V) : E.clock w ≤ E.clock (addOverhead E cfg w v) := by
  unfold addOverhead
  split_ifs
  · have := K.overhead w v
    have h2 : 0 ≤ (E.overhead w v).2 / 86400 := div_nonneg this.2 (by norm_num)
    rw [K.set, this.1]
    linarith
  · exact le_rfl

theorem early_snoc {s : St W V} {b : List (Option V)} {v : V} (hs : store cfg s.buf s.counter v = some b) (w : W) :
    early stop T { s with w := w, buf := b, counter := s.counter + 1 } = early stop T s ++ [v].filter fun v => decide (stop v < T) := by
  unfold early St.result
  dsimp only
  rw [store_take hs, List.filterMap_append, List.filter_append]
  rfl

theorem after_late (K : Contract E) (s : St W V) {o : W × Option V × Bool} (hT : T ≤ E.clock o.1) (hv : ∀ v ∈ o.2.1, T ≤ stop v) :
    T ≤ E.clock (after E cfg s o).st.w ∧ early stop T (after E cfg s o).st = early stop T s := by
  obtain ⟨x, _ | v', nn⟩ := o
  · unfold after rejectedPass
    dsimp only
    split_ifs
    · exact ⟨hT, rfl⟩
    · exact endOfPass_late K nn (s := { s with w := E.flush x, lastFlush := E.clock (E.flush x) }) (by dsimp only; rw [K.flush]; exact hT)
  · unfold after completedPass
    dsimp only
    have h1 : T ≤ E.clock (addOverhead E cfg x v') := le_trans hT (addOverhead_clock K cfg x v')
    cases hs : store cfg s.buf s.counter v' with
    | none => exact ⟨by show T ≤ E.clock (E.add _ _); rw [K.add]; exact h1, rfl⟩
    | some b =>
      have h2 := endOfPass_late (cfg := cfg) (stop := stop) (T := T) K nn (s := { s with w := E.bandAdd (E.add (addOverhead E cfg x v') v') v', buf := b, counter := s.counter + 1 })
        (by dsimp only; rw [K.bandAdd, K.add]; exact h1)
      refine ⟨h2.1, h2.2.trans ?_⟩
      rw [early_snoc hs]
      have : ¬ stop v' < T := not_lt.2 (hv v' rfl)
      simp [this]

theorem pass_late (K : Contract E) (hstep : 0 ≤ cfg.stepNone) (hobs : ∀ w v, ∀ v' ∈ (E.observe w v).2.1, E.clock w ≤ stop v') {s : St W V} (hT : T ≤ E.clock s.w) :
    T ≤ E.clock (pass E cfg s).st.w ∧ early stop T (pass E cfg s).st = early stop T s := by
  have hf : T ≤ E.clock (refresh E cfg s.w) := by rw [refresh_clock K]; exact hT
  rw [pass_after]
  generalize refresh E cfg s.w = w at hf
  have hr : T ≤ E.clock (E.request w (E.clock w)).1 := by rw [K.request]; exact hf
  generalize E.request w (E.clock w) = r at hr
  obtain ⟨u, _ | v⟩ := r
  · dsimp only
    unfold skipPass
    dsimp only
    have h1 : T ≤ E.clock (updateNow E (E.setClock u (E.clock u + cfg.step))) := by
      rw [updateNow_clock K, K.set]
      have : 0 ≤ cfg.step := by unfold Cfg.step; positivity
      have hr' : T ≤ E.clock u := hr
      linarith
    split_ifs <;> exact ⟨h1, rfl⟩
  · exact after_late K s (le_trans hr (K.observe _ _)) (fun v' hv' => le_trans hr (hobs _ _ v' hv'))

theorem loop_late (K : Contract E) (hstep : 0 ≤ cfg.stepNone) (hobs : ∀ w v, ∀ v' ∈ (E.observe w v).2.1, E.clock w ≤ stop v') (n : ℕ) {s : St W V}
    (hT : T ≤ E.clock s.w) : early stop T (loop E cfg n s).st = early stop T s := by
  have := loop_inv (E := E) (cfg := cfg) (P := fun s' : St W V => T ≤ E.clock s'.w ∧ early stop T s' = early stop T s)
    (Q := fun o : Out W V => T ≤ E.clock o.st.w ∧ early stop T o.st = early stop T s) ?_ ?_ ?_ ?_ (fun s hs _ => hs) (fun s hs _ => hs) n s ⟨hT, rfl⟩
  · exact this.2
  iterate 4
    intro s1 s' hs _ hp
    have := pass_late (cfg := cfg) (stop := stop) K hstep hobs hs.1
    rw [hp, hs.2] at this
    exact this

end

section
variable {E : Env W V C B} {co : W → W × C} {ob : W → V → W × Option V × Bool} {bad : W → Prop} {stop : V → ℚ} {T : ℚ} {cfg : Cfg}

/-- The two simulations have the same conditions and observations before `T`; observations that differ end at `T` or later, or something bad has happened. -/
structure Until (E : Env W V C B) (co : W → W × C) (ob : W → V → W × Option V × Bool) (bad : W → Prop) (stop : V → ℚ) (T : ℚ) : Prop where
  one : Contract E
  two : Contract (E.later co ob)
  lastingOne : Lasting E bad
  lastingTwo : Lasting (E.later co ob) bad
  stopOne : ∀ w v, ∀ v' ∈ (E.observe w v).2.1, E.clock w ≤ stop v'
  stopTwo : ∀ w v, ∀ v' ∈ (ob w v).2.1, E.clock w ≤ stop v'
  conds : ∀ w, E.clock w < T → co w = E.conds w
  observe : ∀ w v, E.clock w < T → ob w v = E.observe w v ∨ bad (E.observe w v).1 ∨ bad (ob w v).1
    ∨ ((T ≤ E.clock (E.observe w v).1 ∧ ∀ v' ∈ (E.observe w v).2.1, T ≤ stop v') ∧ T ≤ E.clock (ob w v).1 ∧ ∀ v' ∈ (ob w v).2.1, T ≤ stop v')

/-- How two passes may end. -/
def Apart (E : Env W V C B) (bad : W → Prop) (stop : V → ℚ) (T : ℚ) (p p' : Pass W V) : Prop :=
  p' = p ∨ bad p.st.w ∨ bad p'.st.w ∨ (T ≤ E.clock p.st.w ∧ T ≤ E.clock p'.st.w ∧ early stop T p'.st = early stop T p.st)

theorem updateNow_until (U : Until E co ob bad stop T) {w : W} (h : E.clock w < T) : updateNow (E.later co ob) w = updateNow E w := by
  show E.update (co w).1 (co w).2 = _
  rw [U.conds w h]
  rfl

theorem mountNow_until (U : Until E co ob bad stop T) {w : W} (h : E.clock w < T) : mountNow (E.later co ob) w = mountNow E w := by
  show E.mount (E.bands (co w).1 (co w).2).1 (E.bands (co w).1 (co w).2).2 = _
  rw [U.conds w h]
  rfl

theorem refresh_until (U : Until E co ob bad stop T) (cfg : Cfg) {w : W} (h : E.clock w < T) : refresh (E.later co ob) cfg w = refresh E cfg w := by
  have hu : E.clock (updateNow E w) < T := by rw [updateNow_clock U.one]; exact h
  unfold refresh
  dsimp only
  by_cases h1 : E.hasConds w <;> simp only [h1, if_true, if_false, Bool.false_eq_true]
  · have hc : E.clock (E.check w (E.clock w)).1 < T := by rw [U.one.check]; exact h
    rw [updateNow_until U hc]
    by_cases h2 : (E.check w (E.clock w)).2 <;> simp only [h2, if_true, if_false, Bool.false_eq_true, Bool.not_true, Bool.and_false, Bool.not_false, Bool.and_true]
    rw [updateNow_until U hc]
  · rw [updateNow_until U h]
    have hc : E.clock (E.check (updateNow E w) (E.clock (updateNow E w))).1 < T := by rw [U.one.check]; exact hu
    rw [updateNow_until U hc]
    by_cases h2 : (E.check (updateNow E w) (E.clock (updateNow E w))).2 <;> simp only [h2, if_true, if_false, Bool.false_eq_true, Bool.not_true, Bool.and_false]

theorem endOfPass_until (U : Until E co ob bad stop T) (nn : Bool) (s : St W V) : Apart E bad stop T (endOfPass E cfg nn s) (endOfPass (E.later co ob) cfg nn s) := by
  by_cases h : E.clock s.w < T
  · left
    unfold endOfPass
    dsimp only
    rw [mountNow_until U h]
  · right; right; right
    have h1 := endOfPass_late (cfg := cfg) (stop := stop) U.one nn (not_lt.1 h)
    have h2 := endOfPass_late (cfg := cfg) (stop := stop) U.two nn (s := s) (not_lt.1 h)
    exact ⟨h1.1, h2.1, h2.2.trans h1.2.symm⟩

theorem after_until (U : Until E co ob bad stop T) (s : St W V) (o : W × Option V × Bool) : Apart E bad stop T (after E cfg s o) (after (E.later co ob) cfg s o) := by
  obtain ⟨x, _ | v', nn⟩ := o
  · unfold after rejectedPass
    dsimp only
    split_ifs
    · exact .inl rfl
    · exact endOfPass_until U nn _
  · unfold after completedPass
    dsimp only
    rw [show addOverhead (E.later co ob) cfg x v' = addOverhead E cfg x v' from rfl]
    cases store cfg s.buf s.counter v' with
    | none => exact .inl rfl
    | some b => exact endOfPass_until U nn _

theorem pass_until (U : Until E co ob bad stop T) (s : St W V) (hT : E.clock s.w < T) : Apart E bad stop T (pass E cfg s) (pass (E.later co ob) cfg s) := by
  rw [pass_after, pass_after, refresh_until U cfg hT]
  have hf : E.clock (refresh E cfg s.w) < T := by rw [refresh_clock U.one]; exact hT
  generalize refresh E cfg s.w = w at hf
  have hr : E.clock (E.request w (E.clock w)).1 < T := by rw [U.one.request]; exact hf
  show Apart E bad stop T _ (match (E.request w (E.clock w)).2 with
    | none => skipPass (E.later co ob) cfg { s with w := (E.request w (E.clock w)).1 }
    | some v => after (E.later co ob) cfg s (ob (E.request w (E.clock w)).1 v))
  generalize E.request w (E.clock w) = r at hr
  obtain ⟨u, _ | v⟩ := r
  · dsimp only
    unfold skipPass
    dsimp only
    by_cases h : E.clock u + cfg.step < T
    · left
      rw [updateNow_until U (by rw [U.one.set]; exact h)]
    · right; right; right
      have h1 : T ≤ E.clock (updateNow E (E.setClock u (E.clock u + cfg.step))) := by rw [updateNow_clock U.one, U.one.set]; exact not_lt.1 h
      have h2 : T ≤ E.clock (updateNow (E.later co ob) (E.setClock u (E.clock u + cfg.step))) := by
        have e := updateNow_clock U.two (E.setClock u (E.clock u + cfg.step))
        have e' : E.clock (updateNow (E.later co ob) (E.setClock u (E.clock u + cfg.step))) = E.clock (E.setClock u (E.clock u + cfg.step)) := e
        rw [e', U.one.set]
        exact not_lt.1 h
      refine ⟨?_, ?_, ?_⟩
      · split_ifs <;> exact h1
      · split_ifs <;> exact h2
      · split_ifs <;> rfl
  · dsimp only at hr ⊢
    rcases U.observe u v hr with h | h | h | ⟨⟨h1, h2⟩, h3, h4⟩
    · rw [h]
      exact after_until U s _
    · exact .inr (.inl (after_bad U.lastingOne s h))
    · exact .inr (.inr (.inl (after_bad U.lastingTwo s h)))
    · have a := after_late (cfg := cfg) (stop := stop) U.one s h1 h2
      have b := after_late (cfg := cfg) (stop := stop) U.two s (o := ob u v) h3 h4
      exact .inr (.inr (.inr ⟨a.1, b.1, b.2.trans a.2.symm⟩))

/-- What follows a pass. -/
def ending (E : Env W V C B) (cfg : Cfg) (n : ℕ) : Pass W V → Out W V
  | .again s' => loop E cfg n s'
  | .brk s' => .finished s'
  | .gaveUp s' => .gaveUp s'
  | .indexError s' => .indexError s'

theorem loop_ending (E : Env W V C B) (cfg : Cfg) (n : ℕ) (s : St W V) :
    loop E cfg (n + 1) s = if s.mjd < s.endMjd then ending E cfg n (pass E cfg s) else .finished s := by
  rw [loop]
  split_ifs
  · cases pass E cfg s <;> rfl
  · rfl

theorem ending_bad {E : Env W V C B} (h : Lasting E bad) (n : ℕ) {p : Pass W V} (hp : bad p.st.w) : bad (ending E cfg n p).st.w := by
  cases p with
  | again s => exact loop_bad h n hp
  | _ => exact hp

theorem ending_late {E : Env W V C B} (K : Contract E) (hstep : 0 ≤ cfg.stepNone) (hobs : ∀ w v, ∀ v' ∈ (E.observe w v).2.1, E.clock w ≤ stop v') (n : ℕ) {p : Pass W V}
    (hT : T ≤ E.clock p.st.w) : early stop T (ending E cfg n p).st = early stop T p.st := by
  cases p with
  | again s => exact loop_late K hstep hobs n hT
  | _ => rfl

theorem loop_until (U : Until E co ob bad stop T) (hstep : 0 ≤ cfg.stepNone) (n : ℕ) (s : St W V) :
    bad (loop E cfg n s).st.w ∨ bad (loop (E.later co ob) cfg n s).st.w ∨ early stop T (loop (E.later co ob) cfg n s).st = early stop T (loop E cfg n s).st := by
  induction n generalizing s with
  | zero =>
    right; right
    rw [loop, loop]
  | succ n ih =>
    by_cases hT : E.clock s.w < T
    · rw [loop_ending, loop_ending]
      split_ifs
      · rcases pass_until (cfg := cfg) U s hT with h | h | h | ⟨h1, h2, h3⟩
        · rw [h]
          cases pass E cfg s with
          | again s' => exact ih s'
          | _ => exact .inr (.inr rfl)
        · exact .inl (ending_bad U.lastingOne n h)
        · exact .inr (.inl (ending_bad U.lastingTwo n h))
        · right; right
          rw [ending_late U.one hstep U.stopOne n h1, ending_late U.two hstep U.stopTwo n h2, h3]
      · exact .inr (.inr rfl)
    · right; right
      rw [loop_late U.one hstep U.stopOne _ (not_lt.1 hT), loop_late U.two hstep U.stopTwo _ (s := s) (not_lt.1 hT)]

/-- Visits that are over before `T` are the same in both simulations, unless something bad happens in one of them. -/
theorem run_until (U : Until E co ob bad stop T) (hstep : 0 ≤ cfg.stepNone) (n : ℕ) (w : W) :
    bad (run (V := V) E cfg n w).st.w ∨ bad (run (V := V) (E.later co ob) cfg n w).st.w
      ∨ early stop T (run (V := V) (E.later co ob) cfg n w).st = early stop T (run (V := V) E cfg n w).st := by
  by_cases h : E.clock (match cfg.simStart with | none => w | some m => E.setClock w m) < T
  · have hs : start (V := V) (E.later co ob) cfg w = start E cfg w := by
      have hm := mountNow_until U h
      unfold start
      cases hc : cfg.simStart <;> rw [hc] at hm <;> dsimp only at hm ⊢ <;> rw [hm]
    unfold run
    rw [hs]
    exact loop_until U hstep n _
  · right; right
    have h1 : T ≤ E.clock (start (V := V) E cfg w).w := by
      show T ≤ E.clock (mountNow E _)
      rw [mountNow_clock U.one]
      exact not_lt.1 h
    have h2 : T ≤ (E.later co ob).clock (start (V := V) (E.later co ob) cfg w).w := by
      show T ≤ (E.later co ob).clock (mountNow (E.later co ob) _)
      rw [mountNow_clock U.two]
      exact not_lt.1 h
    unfold run
    rw [loop_late U.one hstep U.stopOne n h1, loop_late U.two hstep U.stopTwo n h2]
    rfl

end

end Verif.Sim
