import Verif.Lemmas.SimErase
import Verif.Lemmas.SimReject
import Verif.Lemmas.SimFresh

/-!
Properties C17-C20, C62-C64: the simulation loop.

`run E.recorded cfg fuel (w, [])` is the simulation with every call to the scheduler, the
observatory and the band scheduler written down; `Sim.recording_is_faithful` says that the
record changes nothing.
-/

namespace Verif
open Sim
variable {W V C B : Type}

/-- Recording the calls does not change the simulation. -/
theorem Sim.recording_is_faithful (E : Env W V C B) (cfg : Cfg) (fuel : ℕ) (w : W) :
    (run (V := V) E.recorded cfg fuel (w, [])).erase = run E cfg fuel w :=
  run_erase E cfg fuel w []

/-! ### A toy observatory and scheduler for the examples -/

/-- What happens at the next request. -/
inductive ToyAct where
  | nothing
  | ok (dur : ℚ)
  | reject (jump : ℚ)

/-- Clock, future events, number of visits made. -/
structure ToyW where
  clock : ℚ
  acts : List ToyAct
  n : ℕ

/-- Visits are numbered. -/
def toySim : Sim.Env ToyW ℕ Unit Unit where
  clock w := w.clock
  setClock w x := { w with clock := x }
  conds w := (w, ())
  hasConds _ := true
  check w _ := (w, true)
  update w _ := w
  request w _ := match w.acts with
    | [] => (w, none)
    | .nothing :: r => ({ w with acts := r }, none)
    | _ => (w, some w.n)
  observe w v := match w.acts with
    | .ok d :: r => ({ clock := w.clock + max 0 d, acts := r, n := w.n + 1 }, some v, false)
    | .reject j :: r => ({ w with clock := w.clock + max 0 j, acts := r }, none, true)
    | _ => (w, none, false)
  overhead w _ := (w, 0)
  add w _ := w
  bandAdd w _ := w
  flush w := w
  bands w _ := (w, ())
  mount w _ := w

theorem toySim_contract : Contract toySim where
  set _ _ := rfl
  conds _ := rfl
  check _ _ := rfl
  update _ _ := rfl
  request w x := by
    obtain ⟨c, acts, n⟩ := w
    match acts with
    | [] => rfl
    | .nothing :: _ => rfl
    | .ok _ :: _ => rfl
    | .reject _ :: _ => rfl
  observe w v := by
    obtain ⟨c, acts, n⟩ := w
    match acts with
    | [] => exact le_rfl
    | .nothing :: _ => exact le_rfl
    | .ok d :: _ => show c ≤ c + max 0 d; linarith [le_max_left 0 d]
    | .reject d :: _ => show c ≤ c + max 0 d; linarith [le_max_left 0 d]
  overhead _ _ := ⟨rfl, le_rfl⟩
  add _ _ := rfl
  bandAdd _ _ := rfl
  flush _ := rfl
  bands _ _ := rfl
  mount _ _ := rfl

/-- How a run ended, and the visits in the returned array (`none` = an unused row). -/
def Sim.Out.summary {W V : Type} : Out W V → String × List (Option V)
  | .finished s => ("finished", s.result)
  | .gaveUp s => ("gave up", s.result)
  | .indexError s => ("index error", s.result)
  | .running s => ("running", s.result)

/-! ### C17 -/

/-- C17: whatever the scheduler, the observatory and the sizes of the result buffer, when the
simulation ends the returned array holds exactly the visits the observatory completed, in
order; the scheduler and the band scheduler have been told of exactly those. The same holds
at every point between two passes of the loop and when the simulation gives up. -/
theorem C17_log_exact (E : Env W V C B) (cfg : Cfg) (fuel : ℕ) (w : W) :
    match run (V := V) E.recorded cfg fuel (w, []) with
    | .finished s | .gaveUp s | .running s =>
        s.result = (completedOf s.w.2).map some ∧ toldOf s.w.2 = completedOf s.w.2 ∧
        bandToldOf s.w.2 = completedOf s.w.2
    | .indexError _ => True := by
  have key : ∀ s : St (W × List (Ev V C B)) V, Books cfg s →
      s.result = (completedOf s.w.2).map some ∧ toldOf s.w.2 = completedOf s.w.2 ∧
        bandToldOf s.w.2 = completedOf s.w.2 := by
    rintro s ⟨⟨k, hb, _⟩, hc, ht, hbt⟩
    refine ⟨?_, ht, hbt⟩
    unfold St.result
    rw [hb, hc]
    simp
  have hstep : ∀ s, Books cfg s → (∀ s', pass E.recorded cfg s ≠ .indexError s') →
      Books cfg (pass E.recorded cfg s).st := by
    intro s hs hne
    rcases pass_books E cfg s hs with h | ⟨⟨s', h⟩, _⟩
    · exact h
    · exact absurd h (hne s')
  refine loop_inv (P := Books cfg) (Q := fun o => match o with
    | .finished s | .gaveUp s | .running s =>
        s.result = (completedOf s.w.2).map some ∧ toldOf s.w.2 = completedOf s.w.2 ∧
        bandToldOf s.w.2 = completedOf s.w.2
    | .indexError _ => True) ?_ ?_ ?_ ?_ ?_ ?_ fuel _ (start_books E cfg w)
  · intro s s' hs _ hp
    have := hstep s hs (by rw [hp]; simp)
    rw [hp] at this; exact this
  · intro s s' hs _ hp
    have := hstep s hs (by rw [hp]; simp)
    rw [hp] at this; exact key s' this
  · intro s s' hs _ hp
    have := hstep s hs (by rw [hp]; simp)
    rw [hp] at this; exact key s' this
  · intro s s' hs _ hp; trivial
  · intro s hs _; exact key s hs
  · intro s hs _; exact key s hs

/-- C17: with positive buffer sizes the run never fails on a full buffer. -/
theorem C17_no_index_error (E : Env W V C B) (cfg : Cfg) (h1 : 0 < cfg.startSize) (h2 : 0 < cfg.appendSize)
    (fuel : ℕ) (w : W) : ∀ s, run (V := V) E cfg fuel w ≠ .indexError s := by
  have key : ∀ s, run (V := V) E.recorded cfg fuel (w, []) ≠ .indexError s := by
    have hstep : ∀ s, Books cfg s → (∀ s', pass E.recorded cfg s ≠ .indexError s') ∧
        Books cfg (pass E.recorded cfg s).st := by
      intro s hs
      rcases pass_books E cfg s hs with h | ⟨_, h⟩
      · refine ⟨fun s' hp => ?_, h⟩
        obtain ⟨⟨k, hb, hk⟩, hc, _, _⟩ := h
        have hk := hk h1 h2
        -- the only source of the error is a full buffer
        have hk0 : ∃ k0, s.buf = (completedOf s.w.2).map some ++ List.replicate k0 none ∧ 0 < k0 := by
          obtain ⟨⟨k0, hb0, hk0⟩, _⟩ := hs
          exact ⟨k0, hb0, hk0 h1 h2⟩
        obtain ⟨k0, hb0, hk0⟩ := hk0
        have hlt : s.counter < s.buf.length := by
          rw [hb0, hs.2.1]; simp; omega
        rcases pass_shape E cfg s _ rfl with ⟨u, hu, hq⟩ | ⟨u, v, x, v', nn, hu, hx, hq⟩ | ⟨u, v, x, nn, hu, hx, hq⟩
        · rw [hq] at hp; unfold skipPass at hp; dsimp only at hp; split_ifs at hp
        · rw [hq] at hp
          unfold completedPass at hp
          dsimp only at hp
          have : ∃ b, store cfg s.buf s.counter v' = some b := by
            unfold store
            rw [if_pos hlt]
            dsimp only
            split_ifs
            · exact ⟨_, rfl⟩
            · exact ⟨_, rfl⟩
          obtain ⟨b, hb⟩ := this
          rw [hb] at hp
          dsimp only at hp
          unfold endOfPass at hp
          dsimp only at hp
          split at hp
          · split_ifs at hp
          · simp at hp
        · rw [hq] at hp
          unfold rejectedPass at hp
          dsimp only at hp
          split_ifs at hp
          unfold endOfPass at hp
          dsimp only at hp
          split at hp
          · split_ifs at hp
          · simp at hp
      · exact absurd ⟨h1, h2⟩ h
    refine loop_inv (P := Books cfg) (Q := fun o => ∀ s, o ≠ .indexError s) ?_ ?_ ?_ ?_ ?_ ?_ fuel _
      (start_books E cfg w)
    · intro s s' hs _ hp
      have := (hstep s hs).2
      rw [hp] at this; exact this
    · simp
    · simp
    · intro s s' hs _ hp
      exact absurd hp ((hstep s hs).1 s')
    · simp
    · simp
  intro s hs
  rw [← Sim.recording_is_faithful E cfg fuel w] at hs
  cases hr : run (V := V) E.recorded cfg fuel (w, []) with
  | indexError s' => exact key s' hr
  | _ => rw [hr] at hs; simp [Out.erase] at hs

/-- C17: a buffer configured with size 0 raises at the first visit that has no row. -/
theorem C17_zero_size_raises :
    (run toySim { duration := 1, startSize := 0 } 5 ⟨0, [.ok (1/2), .ok (1/2)], 0⟩).summary = ("index error", []) := by
  decide +kernel

/-- The buffer is grown twice in this run. -/
example : (run toySim { duration := 1, startSize := 1, appendSize := 1 } 9
      ⟨0, [.ok (1/8), .nothing, .ok (1/2), .reject (1/8), .ok (1/2), .ok 1], 0⟩).summary =
    ("finished", [some 0, some 1, some 2]) := by
  decide +kernel

/-! ### C18 -/

/-- C18, for limits of at least one: no more visits than the limit are ever returned (or
made). A limit of 0 does not work, see `C18_violated`. -/
theorem C18_visit_limit_partial (E : Env W V C B) (cfg : Cfg) (n : ℕ) (hn : 0 < n)
    (hcfg : cfg.visitLimit = some (n : ℤ)) (fuel : ℕ) (w : W) :
    match run (V := V) E.recorded cfg fuel (w, []) with
    | .finished s | .gaveUp s | .running s => s.result.length ≤ n ∧ (completedOf s.w.2).length ≤ n
    | .indexError _ => True := by
  -- between passes fewer than `n` visits have been made
  have hbooks : ∀ s : St (W × List (Ev V C B)) V, Books cfg s → s.result.length ≤ s.counter ∧ (completedOf s.w.2).length = s.counter := by
    intro s hs
    refine ⟨?_, hs.2.1.symm⟩
    unfold St.result
    simp
  have hend : ∀ nn (s : St (W × List (Ev V C B)) V), s.counter ≤ n →
      (∀ s', endOfPass E.recorded cfg nn s = .again s' → s'.counter < n) ∧
      (endOfPass E.recorded cfg nn s).st.counter ≤ n := by
    intro nn s hs
    constructor
    · intro s' h
      unfold endOfPass at h
      rw [hcfg] at h
      dsimp only at h
      split_ifs at h with hc <;>
      · simp only [Pass.again.injEq] at h
        subst h
        dsimp only
        omega
    · rw [endOfPass_st]; exact hs
  have hpass : ∀ s, s.counter < n → (∀ s', pass E.recorded cfg s = .again s' → s'.counter < n) ∧
      (pass E.recorded cfg s).st.counter ≤ n := by
    intro s hs
    rcases pass_shape E cfg s _ rfl with ⟨u, hu, hp⟩ | ⟨u, v, x, v', nn, hu, hx, hp⟩ | ⟨u, v, x, nn, hu, hx, hp⟩
    · rw [hp]
      unfold skipPass
      dsimp only
      split_ifs
      · exact ⟨fun s' h => by simp at h, hs.le⟩
      · refine ⟨fun s' h => ?_, hs.le⟩
        injection h with h
        subst h; exact hs
    · rw [hp]
      unfold completedPass
      dsimp only
      cases store cfg s.buf s.counter v' with
      | none => exact ⟨fun s' h => by simp at h, hs.le⟩
      | some b => exact hend nn _ (by dsimp only; omega)
    · rw [hp]
      unfold rejectedPass
      split_ifs
      · exact ⟨fun s' h => by simp at h, hs.le⟩
      · exact hend nn _ hs.le
  have hbk : ∀ s, Books cfg s → (∀ s', pass E.recorded cfg s ≠ .indexError s') →
      Books cfg (pass E.recorded cfg s).st := by
    intro s hs hne
    rcases pass_books E cfg s hs with h | ⟨⟨s', h⟩, _⟩
    · exact h
    · exact absurd h (hne s')
  refine loop_inv (P := fun s => Books cfg s ∧ s.counter < n) (Q := fun o => match o with
    | .finished s | .gaveUp s | .running s => s.result.length ≤ n ∧ (completedOf s.w.2).length ≤ n
    | .indexError _ => True) ?_ ?_ ?_ ?_ ?_ ?_ fuel _ ⟨start_books E cfg w, by simpa [start] using hn⟩
  · intro s s' hs _ hp
    refine ⟨?_, (hpass s hs.2).1 s' hp⟩
    have := hbk s hs.1 (by rw [hp]; simp)
    rw [hp] at this; exact this
  · intro s s' hs _ hp
    have h1 := hbooks _ (hbk s hs.1 (by rw [hp]; simp))
    have h2 := (hpass s hs.2).2
    rw [hp] at h1 h2
    simp only [Pass.st] at h1 h2
    omega
  · intro s s' hs _ hp
    have h1 := hbooks _ (hbk s hs.1 (by rw [hp]; simp))
    have h2 := (hpass s hs.2).2
    rw [hp] at h1 h2
    simp only [Pass.st] at h1 h2
    omega
  · intros; trivial
  · intro s hs _; have := hbooks s hs.1; have := hs.2; omega
  · intro s hs _; have := hbooks s hs.1; have := hs.2; omega

example : (run toySim { duration := 9, startSize := 1, appendSize := 3, visitLimit := some 2 } 9
      ⟨0, [.ok (1/8), .ok (1/2), .ok (1/2), .ok 1], 0⟩).summary = ("finished", [some 0, some 1]) := by
  decide +kernel

/-- C18 fails for `n_visit_limit=0`: the limit is only compared after a visit was counted. -/
theorem C18_violated :
    (run toySim { duration := 1, startSize := 1, appendSize := 3, visitLimit := some 0 } 9
      ⟨0, [.ok (1/8), .ok (1/2), .ok (1/2), .ok 1], 0⟩).summary = ("finished", [some 0, some 1, some 2]) := by
  decide +kernel

/-! ### C19 -/

/-- C19: with an observatory whose clock never runs back, all calls the simulation makes are
in time order (each ends before the next begins); every request is made with the current
clock and none once the clock is past the end of the simulation; and each request that gets
no visit is followed at once by putting the clock forward by exactly the step. -/
theorem C19_time_forward (E : Env W V C B) (K : Contract E) (cfg : Cfg) (hstep : 0 ≤ cfg.stepNone)
    (fuel : ℕ) (w : W) :
    let s := (run (V := V) E.recorded cfg fuel (w, [])).st
    s.w.2.Pairwise (fun e e' => e.endTime ≤ e'.time) ∧ (∀ e ∈ s.w.2, e.time ≤ e.endTime ∧ e.endTime ≤ E.clock s.w.1) ∧
    (∀ p ∈ requestsOf s.w.2, p.2 = p.1 ∧ p.1 ≤ (cfg.simStart.getD (E.clock w)) + cfg.duration) ∧
    SkipsOK (cfg.stepNone / 60 / 24) s.w.2 ∧ s.nskip = skipsOf s.w.2 := by
  have hend0 : (start (V := V) E.recorded cfg (w, [])).endMjd = cfg.simStart.getD (E.clock w) + cfg.duration := by
    unfold start; cases cfg.simStart <;> rfl
  have key : Timeline E cfg (run (V := V) E.recorded cfg fuel (w, [])).st ∧
      (run (V := V) E.recorded cfg fuel (w, [])).st.endMjd = cfg.simStart.getD (E.clock w) + cfg.duration := by
    refine loop_inv (P := fun s => (Timeline E cfg s ∧ InTime E s) ∧
        s.endMjd = cfg.simStart.getD (E.clock w) + cfg.duration)
      (Q := fun o => Timeline E cfg o.st ∧ o.st.endMjd = cfg.simStart.getD (E.clock w) + cfg.duration)
      ?_ ?_ ?_ ?_ ?_ ?_ fuel _ ⟨start_timeline K cfg w, hend0⟩
    · rintro s s' ⟨⟨h1, h2⟩, h3⟩ hm hp
      obtain ⟨k1, k2, k3⟩ := pass_timeline K hstep h1 h2 hm
      have k2 := k2 ⟨s', hp⟩
      rw [hp] at k1 k2 k3
      exact ⟨⟨k1, k2⟩, k3.trans h3⟩
    iterate 3
      rintro s s' ⟨⟨h1, h2⟩, h3⟩ hm hp
      obtain ⟨k1, -, k3⟩ := pass_timeline K hstep h1 h2 hm
      rw [hp] at k1 k3
      exact ⟨k1, k3.trans h3⟩
    · rintro s ⟨⟨h1, h2⟩, h3⟩ _; exact ⟨h1, h3⟩
    · rintro s ⟨⟨h1, h2⟩, h3⟩ _; exact ⟨h1, h3⟩
  obtain ⟨hT, he⟩ := key
  exact ⟨hT.timely.1, hT.timely.2, he ▸ hT.requests, hT.skips, hT.nskip⟩

/-- Two skipped requests, two visits and a rejected one; the requests made. -/
example : requestsOf (run (V := ℕ) toySim.recorded { duration := 1, startSize := 1, appendSize := 1, stepNone := 360 } 9
      (⟨0, [.ok (1/8), .nothing, .nothing, .reject (1/8), .ok (1/2), .ok 1], 0⟩, [])).st.w.2 =
    [(0, 0), (1/8, 1/8), (3/8, 3/8), (5/8, 5/8), (3/4, 3/4)] := by
  decide +kernel

/-- A request can be made at exactly the end time (after a skip landing on it), as the theorem
allows. -/
example : requestsOf (run (V := ℕ) toySim.recorded { duration := 1, startSize := 1, appendSize := 1, stepNone := 1440 } 9
      (⟨0, [.nothing, .ok (1/8)], 0⟩, [])).st.w.2 = [(0, 0), (1, 1)] := by
  decide +kernel

/-! ### C20 -/

theorem Sim.rejectedAt_sorted {E : Env W V C B} {w : W × List (Ev V C B)} (h : Timely E w) :
    (rejectedAt w.2).Pairwise (· ≤ ·) := by
  unfold rejectedAt
  rw [List.pairwise_filterMap]
  refine (List.Pairwise.and_mem.1 h.1).imp ?_
  rintro e e' ⟨_, he', hle⟩ a ha b hb
  have h2 := (h.2 e' he').1
  have h3 : e.endTime = a := by
    cases e with
    | observe t v x r nn => cases r <;> simp_all [Ev.endTime]
    | _ => simp at ha
  have h4 : e'.endTime = b := by
    cases e' with
    | observe t v x r nn => cases r <;> simp_all [Ev.endTime]
    | _ => simp at hb
  rw [← h3, ← h4]
  exact hle.trans h2

/-- A list of times that never goes back and never repeats twice in a row goes strictly
forward. -/
theorem Sim.strict_of_chain (l : List ℚ) (d : ℚ) (h1 : l.Pairwise (· ≤ ·)) (h2 : List.IsChain (· ≠ ·) (d :: l)) :
    l.Pairwise (· < ·) := by
  induction l generalizing d with
  | nil => exact List.Pairwise.nil
  | cons a l ih =>
    rw [List.isChain_cons_cons] at h2
    have h3 := ih a h1.of_cons h2.2
    refine List.pairwise_cons.2 ⟨fun b hb => ?_, h3⟩
    cases l with
    | nil => simp at hb
    | cons c l =>
      have hac : a < c := lt_of_le_of_ne (List.rel_of_pairwise_cons h1 (by simp)) (List.isChain_cons_cons.1 h2.2).1
      rcases List.mem_cons.1 hb with rfl | hb
      · exact hac
      · exact hac.trans (List.rel_of_pairwise_cons h3 hb)

/-- C20: as long as the simulation goes on (or when it ends normally), each rejected visit
was answered by flushing the scheduler's queue at that clock, and no two visits were rejected
at the same clock. It gives up exactly after a visit is rejected at the clock of the previous
rejection, without flushing again. (The value -1 stands for "no rejection so far": with the
clock at -1 the first rejection already ends the run.) -/
theorem C20_gives_up (E : Env W V C B) (K : Contract E) (cfg : Cfg) (hstep : 0 ≤ cfg.stepNone) (fuel : ℕ) (w : W) :
    match run (V := V) E.recorded cfg fuel (w, []) with
    | .finished s | .running s | .indexError s =>
        flushedAt s.w.2 = rejectedAt s.w.2 ∧ (rejectedAt s.w.2).Pairwise (· < ·)
    | .gaveUp s => ∃ before t, rejectedAt s.w.2 = before ++ [t] ∧ flushedAt s.w.2 = before ∧
        before.Pairwise (· < ·) ∧ (before.getLast? = some t ∨ (before = [] ∧ t = -1)) := by
  have hgood : ∀ s : St (W × List (Ev V C B)) V, Timeline E cfg s → Rejects s →
      flushedAt s.w.2 = rejectedAt s.w.2 ∧ (rejectedAt s.w.2).Pairwise (· < ·) :=
    fun s hT hR => ⟨hR.1, Sim.strict_of_chain _ _ (Sim.rejectedAt_sorted hT.timely) hR.2.2⟩
  have hR : ∀ s, Rejects s → (∀ s', pass E.recorded cfg s ≠ .gaveUp s') → Rejects (pass E.recorded cfg s).st := by
    intro s hs hne
    rcases pass_rejects K (cfg := cfg) hs with h | ⟨s', h, _⟩
    · exact h
    · exact absurd h (hne s')
  refine loop_inv (P := fun s => (Timeline E cfg s ∧ InTime E s) ∧ Rejects s)
    (Q := fun o => match o with
      | .finished s | .running s | .indexError s =>
          flushedAt s.w.2 = rejectedAt s.w.2 ∧ (rejectedAt s.w.2).Pairwise (· < ·)
      | .gaveUp s => ∃ before t, rejectedAt s.w.2 = before ++ [t] ∧ flushedAt s.w.2 = before ∧
          before.Pairwise (· < ·) ∧ (before.getLast? = some t ∨ (before = [] ∧ t = -1)))
    ?_ ?_ ?_ ?_ ?_ ?_ fuel _ ⟨start_timeline K cfg w, start_rejects cfg w⟩
  · rintro s s' ⟨⟨h1, h2⟩, h3⟩ hm hp
    obtain ⟨k1, k2, -⟩ := pass_timeline K hstep h1 h2 hm
    have k2 := k2 ⟨s', hp⟩
    have k3 := hR s h3 (by rw [hp]; simp)
    rw [hp] at k1 k2 k3
    exact ⟨⟨k1, k2⟩, k3⟩
  · rintro s s' ⟨⟨h1, h2⟩, h3⟩ hm hp
    obtain ⟨k1, -, -⟩ := pass_timeline K hstep h1 h2 hm
    have k3 := hR s h3 (by rw [hp]; simp)
    rw [hp] at k1 k3
    exact hgood s' k1 k3
  · rintro s s' ⟨⟨h1, h2⟩, h3⟩ hm hp
    obtain ⟨k1, -, -⟩ := pass_timeline K hstep h1 h2 hm
    rw [hp] at k1
    have hsort := Sim.rejectedAt_sorted k1.timely
    rcases pass_rejects K (cfg := cfg) h3 with h | ⟨s'', h, pre, a, r1, r2, r3, r4, _⟩
    · -- in this branch the visit was not the second rejection, so the run would not have stopped
      exfalso
      rw [hp] at h
      have hq := refresh_quiet E cfg s.w
      have h1' : Rejects { s with w := refresh E.recorded cfg s.w } := h3.quiet hq rfl
      rcases pass_shape E cfg s _ rfl with ⟨u, hu, hq⟩ | ⟨u, v, x, v', nn, hu, hx, hq⟩ | ⟨u, v, x, nn, hu, hx, hq⟩
      · rw [hq] at hp; unfold skipPass at hp; dsimp only at hp; split_ifs at hp
      · rw [hq] at hp
        unfold completedPass at hp
        dsimp only at hp
        split at hp
        · simp at hp
        · unfold endOfPass at hp
          dsimp only at hp
          split at hp
          · split_ifs at hp
          · simp at hp
      · rw [hq] at hp
        unfold rejectedPass at hp
        dsimp only at hp
        split_ifs at hp with hc
        · injection hp with hp
          subst hp
          have e1 := h.1
          have e2 := h1'.1
          simp only [Pass.st, flushedAt_append, rejectedAt_append] at e1 e2
          rw [e2] at e1
          have := congrArg List.length e1
          simp [flushedAt, rejectedAt] at this
        · unfold endOfPass at hp
          dsimp only at hp
          split at hp
          · split_ifs at hp
          · simp at hp
    · rw [hp] at h
      injection h with h
      subst h
      simp only [Pass.st] at hsort
      rw [r1] at hsort
      refine ⟨pre, a, r1, r2, Sim.strict_of_chain _ _ (List.pairwise_append.1 hsort).1 r4, ?_⟩
      rcases List.eq_nil_or_concat pre with hnil | ⟨L, b, hL⟩
      · right
        subst hnil
        exact ⟨rfl, by simpa using r3.symm⟩
      · left
        subst hL
        simp at r3 ⊢
        exact r3
  · rintro s s' ⟨⟨h1, h2⟩, h3⟩ hm hp
    obtain ⟨k1, -, -⟩ := pass_timeline K hstep h1 h2 hm
    have k3 := hR s h3 (by rw [hp]; simp)
    rw [hp] at k1 k3
    exact hgood s' k1 k3
  · rintro s ⟨⟨h1, h2⟩, h3⟩ _; exact hgood s h1 h3
  · rintro s ⟨⟨h1, h2⟩, h3⟩ _; exact hgood s h1 h3

/-- Rejected, flushed, then rejected again at the same time: the run gives up. -/
example : (run toySim { duration := 1, startSize := 4 } 9
      ⟨0, [.ok (1/8), .reject (1/8), .reject 0, .ok 1], 0⟩).summary = ("gave up", [some 0]) := by
  decide +kernel
/-- Rejected twice, but the clock moved in between: it carries on. -/
example : (run toySim { duration := 1, startSize := 4 } 9
      ⟨0, [.ok (1/8), .reject (1/8), .reject (1/8), .ok 1], 0⟩).summary = ("finished", [some 0, some 1]) := by
  decide +kernel

/-! ### C62 -/

/-- C62: if the step is positive and every call to `observe` either moves the clock on by at
least `δ > 0` or rejects the visit, the simulation ends: there is a number of passes after
which it has finished or given up. The number is bounded by the length of the simulation. -/
theorem C62_simulation_ends (E : Env W V C B) (K : Contract E) (cfg : Cfg) (δ : ℚ) (hδ : 0 < δ)
    (hstep : 0 < cfg.stepNone)
    (hobs : ∀ w v, E.clock w + δ ≤ E.clock (E.observe w v).1 ∨
      ((E.observe w v).2.1 = none ∧ E.clock (E.observe w v).1 = E.clock w))
    (w : W) (fuel : ℕ) (hfuel : 2 * ⌈cfg.duration / min δ (cfg.stepNone / 60 / 24) + 1⌉₊ + 1 ≤ fuel) :
    ∀ s, run (V := V) E cfg fuel w ≠ .running s := by
  have hs : 0 < cfg.step := by unfold Cfg.step; positivity
  have hclk : E.clock (start (V := V) E cfg w).w = (start (V := V) E cfg w).mjd := by
    unfold start
    cases cfg.simStart with
    | none => exact mountNow_clock K _
    | some m => show E.clock (mountNow E (E.setClock w m)) = m; rw [mountNow_clock K, K.set]
  refine loop_terminates K (d := min δ cfg.step) hobs (lt_min hδ hs) (min_le_left _ _) (min_le_right _ _) fuel _
    (fun h => by rw [hclk]; exact h.le) ?_
  unfold left
  have : (start (V := V) E cfg w).endMjd - E.clock (start (V := V) E cfg w).w = cfg.duration := by
    rw [hclk]; unfold start; cases cfg.simStart <;> simp
  rw [this]
  unfold Cfg.step
  split_ifs <;> omega

/-- The bound for the default step and visits of at least 1/96 day, in a one-day run of the
toy (which rejects everything after its script is used up, hence gives up or steps on). -/
example : (run toySim { duration := 1, startSize := 4 } (2 * ⌈(1:ℚ) / min (1/96) (15 / 60 / 24) + 1⌉₊ + 1)
      ⟨0, [.ok (1/8), .reject (1/8), .ok (1/2)], 0⟩).summary = ("finished", [some 0, some 1]) := by
  decide +kernel

/-! ### C63 -/

/-- C63: each request to the scheduler comes directly after either the scheduler saying that
its queue can be used at the current time, or its conditions being set to the observatory's
conditions of the current time. -/
theorem C63_conditions_fresh (E : Env W V C B) (K : Contract E) (cfg : Cfg) (fuel : ℕ) (w : W)
    (pre post : List (Ev V C B)) (t a : ℚ) (r : Option V)
    (h : (run (V := V) E.recorded cfg fuel (w, [])).st.w.2 = pre ++ .request t a r :: post) :
    (∃ p, pre = p ++ [.check t t true]) ∨ ∃ p c, pre = p ++ [.conds t c, .update t c] := by
  have key : FreshOK (run (V := V) E.recorded cfg fuel (w, [])).st.w.2 := by
    refine loop_inv (P := fun s : St (W × List (Ev V C B)) V => FreshOK s.w.2)
      (Q := fun o : Out (W × List (Ev V C B)) V => FreshOK o.st.w.2) ?_ ?_ ?_ ?_ ?_ ?_ fuel _ ?_
    iterate 4
      intro s s' hs _ hp
      have := pass_fresh K (cfg := cfg) hs
      rw [hp] at this
      exact this
    · intro s hs _; exact hs
    · intro s hs _; exact hs
    · have h0 : FreshOK ((w, []) : W × List (Ev V C B)).2 := by
        intro pre t a r post h
        simp at h
      unfold start
      cases cfg.simStart with
      | none => exact (mountNow_quiet E _).fresh h0
      | some m => exact ((setClock_quiet E _ m).trans (mountNow_quiet E _)).fresh h0
  exact key pre t a r post h

/-- A toy whose scheduler has no conditions at first and whose queue never can be used. -/
def toyFresh : Sim.Env ToyW ℕ Unit Unit := { toySim with hasConds := fun _ => false, check := fun w _ => (w, false) }

example : (run (V := ℕ) toyFresh.recorded { duration := 1, startSize := 4 } 1
      (⟨0, [.ok 2], 0⟩, [])).st.w.2.map (fun e => match e with
        | .request .. => "request" | .check .. => "check" | .conds .. => "conds" | .update .. => "update"
        | .observe .. => "observe" | .add .. => "add" | .bandAdd .. => "band add" | .bands .. => "bands"
        | .mount .. => "mount" | _ => "other") =
    ["conds", "bands", "mount", "conds", "update", "check", "conds", "update", "request", "observe", "add", "band add"] := by
  decide +kernel

/-! ### C64 -/

/-- C64: before the first request, and after every observation call that reports a new night
and before the next request, the bands that the band scheduler wants for the current
conditions are worked out and mounted. (When the run ends in an error the mounting after the
last observation is not reached.) -/
theorem C64_bands_mounted (E : Env W V C B) (K : Contract E) (cfg : Cfg) (fuel : ℕ) (w : W) :
    match run (V := V) E.recorded cfg fuel (w, []) with
    | .finished s | .running s =>
      (∃ p t c b q, s.w.2 = p ++ [.conds t c, .bands t c b, .mount t b] ++ q ∧ requestsOf p = []) ∧
      ∀ pre t v a r post, s.w.2 = pre ++ .observe t v a r true :: post →
        ∃ p t' c b q, post = p ++ [.conds t' c, .bands t' c b, .mount t' b] ++ q ∧ requestsOf p = []
    | _ => True := by
  let P : St (W × List (Ev V C B)) V → Prop := fun s =>
      (∃ p t c b q, s.w.2 = p ++ [.conds t c, .bands t c b, .mount t b] ++ q ∧ requestsOf p = []) ∧ MountOK s.w.2
  have hreq : ∀ p : List (Ev V C B), (∀ e ∈ p, e.isRequest = false) → requestsOf p = [] := by
    intro p hp
    unfold requestsOf
    rw [List.filterMap_eq_nil_iff]
    intro e he
    have := hp e he
    cases e <;> simp_all [Ev.isRequest]
  have hfin : ∀ s, P s → (∃ p t c b q, s.w.2 = p ++ [.conds t c, .bands t c b, .mount t b] ++ q ∧ requestsOf p = []) ∧
      ∀ pre t v a r post, s.w.2 = pre ++ .observe t v a r true :: post →
        ∃ p t' c b q, post = p ++ [.conds t' c, .bands t' c b, .mount t' b] ++ q ∧ requestsOf p = [] := by
    rintro s ⟨h1, h2⟩
    refine ⟨h1, fun pre t v a r post h => ?_⟩
    obtain ⟨p, t', c, b, q, hq, hp⟩ := h2 pre t v a r post h
    exact ⟨p, t', c, b, q, hq, hreq p hp⟩
  have hmono : ∀ s, P s → ∃ seg, (pass E.recorded cfg s).st.w.2 = s.w.2 ++ seg := by
    intro s _
    exact pass_extends E cfg s
  have hpass : ∀ s s', P s → (pass E.recorded cfg s = .again s' ∨ pass E.recorded cfg s = .brk s') → P s' := by
    intro s s' hs hp
    obtain ⟨seg, hseg⟩ := hmono s hs
    have hst : (pass E.recorded cfg s).st = s' := by rcases hp with h | h <;> rw [h] <;> rfl
    rw [hst] at hseg
    obtain ⟨⟨p, t, c, b, q, hq, hr⟩, h2⟩ := hs
    exact ⟨⟨p, t, c, b, q ++ seg, by rw [hseg, hq]; simp, hr⟩, pass_mountOK K h2 hp⟩
  refine loop_inv (P := P) (Q := fun o => match o with
    | .finished s | .running s =>
      (∃ p t c b q, s.w.2 = p ++ [.conds t c, .bands t c b, .mount t b] ++ q ∧ requestsOf p = []) ∧
      ∀ pre t v a r post, s.w.2 = pre ++ .observe t v a r true :: post →
        ∃ p t' c b q, post = p ++ [.conds t' c, .bands t' c b, .mount t' b] ++ q ∧ requestsOf p = []
    | _ => True) ?_ ?_ ?_ ?_ ?_ ?_ fuel _ ?_
  · exact fun s s' hs _ hp => hpass s s' hs (Or.inl hp)
  · exact fun s s' hs _ hp => hfin s' (hpass s s' hs (Or.inr hp))
  · intros; trivial
  · intros; trivial
  · exact fun s hs _ => hfin s hs
  · exact fun s hs _ => hfin s hs
  · have h0 : MountOK ((w, []) : W × List (Ev V C B)).2 := by
      intro pre t v a r post h
      simp at h
    unfold start
    cases cfg.simStart with
    | none =>
      obtain ⟨c, b, hm⟩ := mountNow_log (w, []) K
      exact ⟨⟨[], _, c, b, [], by simpa using hm, rfl⟩, (mountNow_quiet E _).mountOK h0⟩
    | some m =>
      obtain ⟨c, b, hm⟩ := mountNow_log (E.recorded.setClock (w, []) m) K
      exact ⟨⟨(E.recorded.setClock (w, []) m).2, _, c, b, [], by simpa using hm, by simp [Env.recorded, requestsOf]⟩,
        ((setClock_quiet E _ m).trans (mountNow_quiet E _)).mountOK h0⟩

/-- The toy's rejections start a new night: bands are mounted at the start and after it. -/
example : (run (V := ℕ) toySim.recorded { duration := 1, startSize := 4 } 3
      (⟨0, [.ok (1/4), .reject (1/4), .ok 2], 0⟩, [])).st.w.2.filterMap (fun e => match e with
        | .observe t _ _ _ nn => some (t, nn) | .mount t _ => some (t, true) | _ => none) =
    [(0, true), (0, false), (1/4, true), (1/2, true), (1/2, false)] := by
  decide +kernel

end Verif
