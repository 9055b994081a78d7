import Verif.Lemmas.SimKeeps

/-!
Another rule for invariants of a whole simulation, with a predicate for the time between a rejected visit and the flushing of the queue.
-/

namespace Verif.Sim

variable {W V C B : Type}

/-- What the parts of a pass do: `P` holds between passes, `F` before a request, `R v` after a request that gave `v`, and `J` after a rejected visit. -/
structure PassKeeps (E : Env W V C B) (cfg : Cfg) (P F : W → Prop) (R : V → W → Prop) (J : W → Prop) : Prop where
  mounted : ∀ w, P w → P (mountNow E w)
  fresh : ∀ w, P w → F (refresh E cfg w)
  nothing : ∀ w u, F w → E.request w (E.clock w) = (u, none) → P (updateNow E (E.setClock u (E.clock u + cfg.step)))
  given : ∀ w u v, F w → E.request w (E.clock w) = (u, some v) → R v u
  rejected : ∀ w v x nn, R v w → E.observe w v = (x, none, nn) → J x
  flush : ∀ w, J w → P (E.flush w)
  completed : ∀ w v x v' nn, R v w → E.observe w v = (x, some v', nn) → P (E.add (addOverhead E cfg x v') v')
  bandAdd : ∀ w v, P w → P (E.bandAdd w v)

variable {E : Env W V C B} {cfg : Cfg} {P F : W → Prop} {R : V → W → Prop} {J : W → Prop}

theorem endOfPass_passKeeps (k : PassKeeps E cfg P F R J) (nn : Bool) (s : St W V) (h : P s.w) : P (endOfPass E cfg nn s).st.w := by
  rw [endOfPass_st]
  dsimp only
  split_ifs
  · exact k.mounted _ h
  · exact h

theorem pass_passKeeps (k : PassKeeps E cfg P F R J) (s : St W V) (h : P s.w) :
    P (pass E cfg s).st.w ∨ ∃ s', pass E cfg s = .gaveUp s' ∧ J s'.w := by
  have hF := k.fresh s.w h
  unfold pass
  dsimp only
  generalize refresh E cfg s.w = w at hF
  rcases hr : E.request w (E.clock w) with ⟨u, _ | v⟩
  · left
    have hq := k.nothing w u hF hr
    dsimp only
    unfold skipPass
    dsimp only
    split_ifs <;> exact hq
  · have hu := k.given w u v hF hr
    dsimp only
    rcases ho : E.observe u v with ⟨x, _ | v', nn⟩
    · have hx := k.rejected u v x nn hu ho
      dsimp only
      unfold rejectedPass
      dsimp only
      split_ifs
      · exact .inr ⟨_, rfl, hx⟩
      · exact .inl (endOfPass_passKeeps k nn _ (k.flush _ hx))
    · left
      have ha := k.completed u v x v' nn hu ho
      dsimp only
      unfold completedPass
      dsimp only
      cases store cfg s.buf s.counter v' with
      | none => exact ha
      | some b => exact endOfPass_passKeeps k nn _ (k.bandAdd _ _ ha)

/-- At the end of a simulation `P` holds, or `J` if it gave up. -/
theorem run_passKeeps (k : PassKeeps E cfg P F R J) (fuel : ℕ) (w : W)
    (h0 : cfg.simStart = none → P w) (h1 : ∀ m, cfg.simStart = some m → P (E.setClock w m)) :
    P (run (V := V) E cfg fuel w).st.w ∨ J (run (V := V) E cfg fuel w).st.w := by
  refine loop_inv (P := fun s : St W V => P s.w) (Q := fun o : Out W V => P o.st.w ∨ J o.st.w) ?_ ?_ ?_ ?_ ?_ ?_ fuel _ ?_
  · intro s s' hs _ hp
    rcases pass_passKeeps k s hs with h | ⟨_, h, _⟩
    · rw [hp] at h; exact h
    · rw [hp] at h; cases h
  · intro s s' hs _ hp
    rcases pass_passKeeps k s hs with h | ⟨_, h, _⟩
    · rw [hp] at h; exact .inl h
    · rw [hp] at h; cases h
  · intro s s' hs _ hp
    rcases pass_passKeeps k s hs with h | ⟨_, h, hj⟩
    · rw [hp] at h; exact .inl h
    · rw [hp] at h; cases h; exact .inr hj
  · intro s s' hs _ hp
    rcases pass_passKeeps k s hs with h | ⟨_, h, _⟩
    · rw [hp] at h; exact .inl h
    · rw [hp] at h; cases h
  · intro s hs _; exact .inl hs
  · intro s hs _; exact .inl hs
  · unfold start
    cases hm : cfg.simStart with
    | none => exact k.mounted _ (h0 hm)
    | some m => exact k.mounted _ (h1 m hm)

end Verif.Sim
