import Verif.Lemmas.SimKeeps
import Verif.Lemmas.SimErase

/-!
Invariants of a simulation that need to know whether the conditions at a request are new.
-/

namespace Verif.Sim

variable {W V C B : Type}

/-- As `KeepsNow`, without what brings the conditions up to date. -/
structure Serves (E : Env W V C B) (P F : W → Prop) (R T : V → W → Prop) : Prop where
  conds : ∀ w, P w → P (E.conds w).1
  now : ∀ w, P w → P (updateNow E w)
  set : ∀ w x, P w → E.clock w ≤ x → P (E.setClock w x)
  bandAdd : ∀ w v, P w → P (E.bandAdd w v)
  flush : ∀ w, P w → P (E.flush w)
  bands : ∀ w c, P w → P (E.bands w c).1
  mount : ∀ w b, P w → P (E.mount w b)
  nothing : ∀ w u, F w → E.request w (E.clock w) = (u, none) → P u
  given : ∀ w u v, F w → E.request w (E.clock w) = (u, some v) → R v u
  rejected : ∀ w v x nn, R v w → E.observe w v = (x, none, nn) → P x
  completed : ∀ w v x v' nn, R v w → E.observe w v = (x, some v', nn) → T v' x
  overhead : ∀ w v, T v w → T v (E.overhead w v).1
  setDone : ∀ w v x, T v w → E.clock w ≤ x → T v (E.setClock w x)
  add : ∀ w v, T v w → P (E.add w v)

variable {E : Env W V C B} {cfg : Cfg} {P F : W → Prop} {R T : V → W → Prop}

theorem Serves.mountNow (k : Serves E P F R T) {w : W} (h : P w) : P (mountNow E w) := k.mount _ _ (k.bands _ _ (k.conds _ h))

theorem Serves.endOfPass (k : Serves E P F R T) (nn : Bool) (s : St W V) (h : P s.w) : P (endOfPass E cfg nn s).st.w := by
  rw [endOfPass_st]
  dsimp only
  split_ifs
  · exact k.mountNow h
  · exact h

theorem Serves.addOverhead (K : Contract E) (k : Serves E P F R T) (w : W) (v : V) (h : T v w) : T v (addOverhead E cfg w v) := by
  unfold Sim.addOverhead
  split_ifs
  · refine k.setDone _ _ _ (k.overhead _ _ h) ?_
    have := (K.overhead w v).2
    have h2 : 0 ≤ (E.overhead w v).2 / 86400 := by positivity
    linarith
  · exact h

theorem Serves.pass (K : Contract E) (hstep : 0 ≤ cfg.stepNone) (k : Serves E P F R T) (s : St W V) (hF : F (refresh E cfg s.w)) :
    P (pass E cfg s).st.w := by
  unfold Sim.pass
  dsimp only
  generalize refresh E cfg s.w = w at hF
  rcases hr : E.request w (E.clock w) with ⟨u, _ | v⟩
  · have hu := k.nothing w u hF hr
    dsimp only
    have hq : P (updateNow E (E.setClock u (E.clock u + cfg.step))) := by
      refine k.now _ (k.set _ _ hu ?_)
      have : 0 ≤ cfg.step := by unfold Cfg.step; positivity
      linarith
    unfold skipPass
    dsimp only
    split_ifs <;> exact hq
  · have hu := k.given w u v hF hr
    dsimp only
    rcases ho : E.observe u v with ⟨x, _ | v', nn⟩
    · have hx := k.rejected u v x nn hu ho
      dsimp only
      unfold rejectedPass
      dsimp only
      split_ifs
      · exact hx
      · exact k.endOfPass nn _ (k.flush _ hx)
    · have hx := k.completed u v x v' nn hu ho
      have ha := k.add _ _ (k.addOverhead (cfg := cfg) K x v' hx)
      dsimp only
      unfold completedPass
      dsimp only
      cases store cfg s.buf s.counter v' with
      | none => exact ha
      | some b => exact k.endOfPass nn _ (k.bandAdd _ _ ha)

/-- What every pass keeps that starts with a request as it should be, a simulation keeps. -/
theorem run_serves (K : Contract E) (hstep : 0 ≤ cfg.stepNone) (k : Serves E P F R T) (hfresh : ∀ w, P w → F (refresh E cfg w))
    (n : ℕ) (w : W) (h0 : cfg.simStart = none → P w) (h1 : ∀ m, cfg.simStart = some m → P (E.setClock w m)) : P (run (V := V) E cfg n w).st.w := by
  have hp : ∀ s : St W V, P s.w → P (pass E cfg s).st.w := fun s h => k.pass K hstep s (hfresh _ h)
  refine loop_inv (P := fun s : St W V => P s.w) (Q := fun o : Out W V => P o.st.w) (fun s s' h _ he => by have := hp s h; rwa [he] at this)
    (fun s s' h _ he => by have := hp s h; rwa [he] at this) (fun s s' h _ he => by have := hp s h; rwa [he] at this)
    (fun s s' h _ he => by have := hp s h; rwa [he] at this) (fun s h _ => h) (fun s h _ => h) n _ ?_
  unfold start
  cases hm : cfg.simStart with
  | none => exact k.mountNow (h0 hm)
  | some m => exact k.mountNow (h1 m hm)

/-- After the conditions were brought up to date: either they are those just made, or there were conditions, the queue holds something valid and they were
left alone. -/
theorem refresh_cases {G : W → Prop} (hn : ∀ w, P w → P (updateNow E w) ∧ G (updateNow E w)) (hc : ∀ w x, P w → P (E.check w x).1)
    (hg : ∀ w x, P w → G w → G (E.check w x).1) (w : W) (h : P w) :
    (P (refresh E cfg w) ∧ G (refresh E cfg w)) ∨ (cfg.updateEvery = false ∧ E.hasConds w = true ∧ (E.check w (E.clock w)).2 = true
      ∧ refresh E cfg w = (E.check w (E.clock w)).1) := by
  unfold refresh
  dsimp only
  by_cases h1 : E.hasConds w <;> simp only [h1, if_true, if_false, Bool.false_eq_true]
  · by_cases h2 : (E.check w (E.clock w)).2 <;> simp only [h2, if_true, if_false, Bool.false_eq_true]
    · by_cases h3 : cfg.updateEvery
      · left; simp only [h3]; exact hn _ (hc _ _ h)
      · right
        simp only [h3]
        simp
    · left
      split_ifs
      · exact hn _ (hn _ (hc _ _ h)).1
      · exact hn _ (hc _ _ h)
  · left
    have hu := hn w h
    have hu1 := hc _ (E.clock (updateNow E w)) hu.1
    have hu2 := hg _ (E.clock (updateNow E w)) hu.1 hu.2
    by_cases h2 : (E.check (updateNow E w) (E.clock (updateNow E w))).2 <;> simp only [h2, if_true, if_false, Bool.false_eq_true]
    · split_ifs
      · exact hn _ hu1
      · exact ⟨hu1, hu2⟩
    · split_ifs
      · exact hn _ (hn _ hu1).1
      · exact hn _ hu1

end Verif.Sim
