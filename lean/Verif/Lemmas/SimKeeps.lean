import Verif.Lemmas.SimClock
import Mathlib.Tactic.Linarith
import Mathlib.Tactic.Positivity

/-!
A rule for invariants of a whole simulation: what each call keeps, the simulation keeps.
-/

namespace Verif.Sim

variable {W V C B : Type}

/-- What the calls do to four predicates: `P` between calls, `F` before a request, `R v` after a request that gave `v`, and `T v` after
`v` was completed and before the scheduler is told. -/
structure Keeps (E : Env W V C B) (cfg : Cfg) (P F : W → Prop) (R T : V → W → Prop) : Prop where
  conds : ∀ w, P w → P (E.conds w).1
  check : ∀ w x, P w → P (E.check w x).1
  update : ∀ w c, P w → P (E.update w c)
  set : ∀ w x, P w → E.clock w ≤ x → P (E.setClock w x)
  bandAdd : ∀ w v, P w → P (E.bandAdd w v)
  flush : ∀ w, P w → P (E.flush w)
  bands : ∀ w c, P w → P (E.bands w c).1
  mount : ∀ w b, P w → P (E.mount w b)
  fresh : ∀ w, P w → F (refresh E cfg w)
  nothing : ∀ w u, F w → E.request w (E.clock w) = (u, none) → P u
  given : ∀ w u v, F w → E.request w (E.clock w) = (u, some v) → R v u
  rejected : ∀ w v x nn, R v w → E.observe w v = (x, none, nn) → P x
  completed : ∀ w v x v' nn, R v w → E.observe w v = (x, some v', nn) → T v' x
  overhead : ∀ w v, T v w → T v (E.overhead w v).1
  setDone : ∀ w v x, T v w → E.clock w ≤ x → T v (E.setClock w x)
  add : ∀ w v, T v w → P (E.add w v)

/-- The same, where new conditions are given only as the loop does it: those just made. -/
structure KeepsNow (E : Env W V C B) (cfg : Cfg) (P F : W → Prop) (R T : V → W → Prop) : Prop where
  conds : ∀ w, P w → P (E.conds w).1
  check : ∀ w x, P w → P (E.check w x).1
  now : ∀ w, P w → P (updateNow E w)
  set : ∀ w x, P w → E.clock w ≤ x → P (E.setClock w x)
  bandAdd : ∀ w v, P w → P (E.bandAdd w v)
  flush : ∀ w, P w → P (E.flush w)
  bands : ∀ w c, P w → P (E.bands w c).1
  mount : ∀ w b, P w → P (E.mount w b)
  fresh : ∀ w, P w → F (refresh E cfg w)
  nothing : ∀ w u, F w → E.request w (E.clock w) = (u, none) → P u
  given : ∀ w u v, F w → E.request w (E.clock w) = (u, some v) → R v u
  rejected : ∀ w v x nn, R v w → E.observe w v = (x, none, nn) → P x
  completed : ∀ w v x v' nn, R v w → E.observe w v = (x, some v', nn) → T v' x
  overhead : ∀ w v, T v w → T v (E.overhead w v).1
  setDone : ∀ w v x, T v w → E.clock w ≤ x → T v (E.setClock w x)
  add : ∀ w v, T v w → P (E.add w v)

variable {E : Env W V C B} {cfg : Cfg} {P F : W → Prop} {R T : V → W → Prop}

theorem updateNow_keeps (hc : ∀ w, P w → P (E.conds w).1) (hu : ∀ w c, P w → P (E.update w c)) {w : W} (h : P w) :
    P (updateNow E w) := hu _ _ (hc _ h)

theorem Keeps.toNow (k : Keeps E cfg P F R T) : KeepsNow E cfg P F R T :=
  ⟨k.conds, k.check, fun _ h => updateNow_keeps k.conds k.update h, k.set, k.bandAdd, k.flush, k.bands, k.mount, k.fresh, k.nothing, k.given, k.rejected,
    k.completed, k.overhead, k.setDone, k.add⟩

theorem mountNow_keeps (k : KeepsNow E cfg P F R T) {w : W} (h : P w) : P (mountNow E w) := k.mount _ _ (k.bands _ _ (k.conds _ h))

/-- What the refreshing of conditions keeps. -/
theorem refresh_keeps_now (hk : ∀ w x, P w → P (E.check w x).1) (hn : ∀ w, P w → P (updateNow E w)) (w : W) (h : P w) : P (refresh E cfg w) := by
  unfold refresh
  dsimp only
  by_cases h1 : E.hasConds w <;> simp only [h1, if_true, if_false, Bool.false_eq_true]
  · by_cases h2 : (E.check w (E.clock w)).2 <;> simp only [h2, if_true, if_false, Bool.false_eq_true]
    · split_ifs
      · exact hn _ (hk _ _ h)
      · exact hk _ _ h
    · split_ifs
      · exact hn _ (hn _ (hk _ _ h))
      · exact hn _ (hk _ _ h)
  · by_cases h2 : (E.check (updateNow E w) (E.clock (updateNow E w))).2 <;> simp only [h2, if_true, if_false, Bool.false_eq_true]
    · split_ifs
      · exact hn _ (hk _ _ (hn _ h))
      · exact hk _ _ (hn _ h)
    · split_ifs
      · exact hn _ (hn _ (hk _ _ (hn _ h)))
      · exact hn _ (hk _ _ (hn _ h))

theorem refresh_keeps (hc : ∀ w, P w → P (E.conds w).1) (hk : ∀ w x, P w → P (E.check w x).1) (hu : ∀ w c, P w → P (E.update w c))
    (w : W) (h : P w) : P (refresh E cfg w) := refresh_keeps_now hk (fun _ h => updateNow_keeps hc hu h) w h

theorem endOfPass_keeps (k : KeepsNow E cfg P F R T) (nn : Bool) (s : St W V) (h : P s.w) : P (endOfPass E cfg nn s).st.w := by
  rw [endOfPass_st]
  dsimp only
  split_ifs
  · exact mountNow_keeps k h
  · exact h

theorem addOverhead_keeps (K : Contract E) (k : KeepsNow E cfg P F R T) (w : W) (v : V) (h : T v w) : T v (addOverhead E cfg w v) := by
  unfold addOverhead
  split_ifs
  · refine k.setDone _ _ _ (k.overhead _ _ h) ?_
    have := (K.overhead w v).2
    have h2 : 0 ≤ (E.overhead w v).2 / 86400 := by positivity
    linarith
  · exact h

theorem pass_keeps (K : Contract E) (hstep : 0 ≤ cfg.stepNone) (k : KeepsNow E cfg P F R T) (s : St W V) (h : P s.w) :
    P (pass E cfg s).st.w := by
  have hF := k.fresh s.w h
  unfold pass
  dsimp only
  generalize refresh E cfg s.w = w at hF
  rcases hr : E.request w (E.clock w) with ⟨u, _ | v⟩
  · have hu := k.nothing w u hF hr
    dsimp only
    have hq : P (updateNow E (E.setClock u (E.clock u + cfg.step))) := by
      refine k.now _ (k.set _ _ hu ?_)
      have : 0 ≤ cfg.step := by unfold Cfg.step; positivity
      linarith
    unfold skipPass
    dsimp only
    split_ifs <;> exact hq
  · have hu := k.given w u v hF hr
    dsimp only
    rcases ho : E.observe u v with ⟨x, _ | v', nn⟩
    · have hx := k.rejected u v x nn hu ho
      dsimp only
      unfold rejectedPass
      dsimp only
      split_ifs
      · exact hx
      · exact endOfPass_keeps k nn _ (k.flush _ hx)
    · have hx := k.completed u v x v' nn hu ho
      have ha := k.add _ _ (addOverhead_keeps K k x v' hx)
      dsimp only
      unfold completedPass
      dsimp only
      cases store cfg s.buf s.counter v' with
      | none => exact ha
      | some b => exact endOfPass_keeps k nn _ (k.bandAdd _ _ ha)

/-- What every call keeps holds at the end of the simulation, however it ends. -/
theorem run_keeps_now (K : Contract E) (hstep : 0 ≤ cfg.stepNone) (k : KeepsNow E cfg P F R T) (fuel : ℕ) (w : W)
    (h0 : cfg.simStart = none → P w) (h1 : ∀ m, cfg.simStart = some m → P (E.setClock w m)) :
    P (run (V := V) E cfg fuel w).st.w := by
  refine loop_inv (P := fun s : St W V => P s.w) (Q := fun o : Out W V => P o.st.w) ?_ ?_ ?_ ?_ ?_ ?_ fuel _ ?_
  iterate 4
    intro s s' hs _ hp
    have := pass_keeps K hstep k s hs
    rw [hp] at this
    exact this
  · intro s hs _; exact hs
  · intro s hs _; exact hs
  · unfold start
    cases hm : cfg.simStart with
    | none => exact mountNow_keeps k (h0 hm)
    | some m => exact mountNow_keeps k (h1 m hm)

/-- What every call keeps holds at the end of the simulation, however it ends. -/
theorem run_keeps (K : Contract E) (hstep : 0 ≤ cfg.stepNone) (k : Keeps E cfg P F R T) (fuel : ℕ) (w : W)
    (h0 : cfg.simStart = none → P w) (h1 : ∀ m, cfg.simStart = some m → P (E.setClock w m)) :
    P (run (V := V) E cfg fuel w).st.w := run_keeps_now K hstep k.toNow fuel w h0 h1

end Verif.Sim
