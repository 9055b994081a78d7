import Verif.Lemmas.SimClock
import Mathlib.Algebra.Order.Floor.Ring
import Mathlib.Tactic.FieldSimp

/-! Rejected visits, and termination of the simulation loop. -/

namespace Verif.Sim
variable {W V C B : Type} {E : Env W V C B}

/-- Bookkeeping of rejected visits between passes. -/
def Rejects (s : St (W × List (Ev V C B)) V) : Prop :=
  flushedAt s.w.2 = rejectedAt s.w.2 ∧ s.lastFlush = (rejectedAt s.w.2).getLastD (-1) ∧
  List.IsChain (· ≠ ·) (-1 :: rejectedAt s.w.2)

theorem Rejects.congr {s s' : St (W × List (Ev V C B)) V} (h : Rejects s)
    (h1 : flushedAt s'.w.2 = flushedAt s.w.2) (h2 : rejectedAt s'.w.2 = rejectedAt s.w.2)
    (h3 : s'.lastFlush = s.lastFlush) : Rejects s' := by
  unfold Rejects at *; rw [h1, h2, h3]; exact h

theorem Rejects.quiet {s s' : St (W × List (Ev V C B)) V} (h : Rejects s)
    (hq : Quiet s.w s'.w) (h3 : s'.lastFlush = s.lastFlush) : Rejects s' :=
  h.congr hq.flushed hq.rejected h3

theorem endOfPass_rejects {cfg : Cfg} {nn : Bool} {s : St (W × List (Ev V C B)) V} (h : Rejects s) :
    Rejects (endOfPass E.recorded cfg nn s).st := by
  rw [endOfPass_st]
  refine h.quiet ?_ rfl
  cases nn
  · exact Quiet.refl _
  · exact mountNow_quiet E _

theorem isChain_snoc_ne (l : List ℚ) (d a : ℚ) (h : List.IsChain (· ≠ ·) (d :: l)) (ha : a ≠ l.getLastD d) :
    List.IsChain (· ≠ ·) (d :: (l ++ [a])) := by
  induction l generalizing d with
  | nil => simpa using ha.symm
  | cons b l ih =>
    rw [List.isChain_cons_cons] at h
    rw [List.cons_append, List.isChain_cons_cons]
    refine ⟨h.1, ih b h.2 ?_⟩
    cases l with
    | nil => simpa using ha
    | cons c l => simpa [List.getLastD] using ha

variable (K : Contract E)
include K

theorem pass_rejects {cfg : Cfg} {s : St (W × List (Ev V C B)) V} (h : Rejects s) :
    Rejects (pass E.recorded cfg s).st ∨
    ∃ s', pass E.recorded cfg s = .gaveUp s' ∧ ∃ pre a, rejectedAt s'.w.2 = pre ++ [a] ∧ flushedAt s'.w.2 = pre ∧
      pre.getLastD (-1) = a ∧ List.IsChain (· ≠ ·) (-1 :: pre) ∧ E.clock s'.w.1 = a := by
  have hq := refresh_quiet E cfg s.w
  have h1 : Rejects { s with w := refresh E.recorded cfg s.w } := h.quiet hq rfl
  set w1 := refresh E.recorded cfg s.w with hw1
  clear_value w1
  rcases pass_shape E cfg s w1 hw1.symm with ⟨u, hu, hp⟩ | ⟨u, v, x, v', nn, hu, hx, hp⟩ | ⟨u, v, x, nn, hu, hx, hp⟩
  · left
    rw [hp]
    have h2 : Rejects { s with w := (u, w1.2 ++ [Ev.request (E.clock w1.1) (E.clock w1.1) none]) } := by
      refine h1.congr ?_ ?_ rfl <;> simp [flushedAt, rejectedAt]
    have hq2 := fun (w : W × List (Ev V C B)) =>
      (setClock_quiet E w (E.recorded.clock w + cfg.step)).trans (updateNow_quiet E _)
    unfold skipPass
    dsimp only
    split_ifs
    · exact h2.quiet (hq2 _) rfl
    · exact h2.quiet (hq2 _) rfl
  · left
    rw [hp]
    have h2 : Rejects { s with w := (x, w1.2 ++ [Ev.request (E.clock w1.1) (E.clock w1.1) (some v)] ++
        [Ev.observe (E.clock u) v (E.clock x) (some v') nn]) } := by
      refine h1.congr ?_ ?_ rfl <;> simp [flushedAt, rejectedAt]
    set w2 : W × List (Ev V C B) := (x, w1.2 ++ [Ev.request (E.clock w1.1) (E.clock w1.1) (some v)] ++
        [Ev.observe (E.clock u) v (E.clock x) (some v') nn])
    have h3 : Rejects { s with w := addOverhead E.recorded cfg w2 v' } := h2.quiet (addOverhead_quiet E cfg _ _) rfl
    set w3 := addOverhead E.recorded cfg w2 v'
    have h4 : Rejects { s with w := E.recorded.add w3 v' } := by
      refine h3.congr ?_ ?_ rfl <;> simp [Env.recorded, flushedAt, rejectedAt]
    have h5 : Rejects { s with w := E.recorded.bandAdd (E.recorded.add w3 v') v' } := by
      refine h4.congr ?_ ?_ rfl <;> simp [Env.recorded, flushedAt, rejectedAt]
    unfold completedPass
    dsimp only
    cases store cfg s.buf s.counter v' with
    | none => exact h4
    | some b => exact endOfPass_rejects (E := E) (h5.congr rfl rfl rfl)
  · rw [hp]
    set w2 : W × List (Ev V C B) := (x, w1.2 ++ [Ev.request (E.clock w1.1) (E.clock w1.1) (some v)] ++
        [Ev.observe (E.clock u) v (E.clock x) none nn]) with hw2
    have hr : rejectedAt w2.2 = rejectedAt w1.2 ++ [E.clock x] := by
      rw [hw2]; simp [rejectedAt]
    have hf : flushedAt w2.2 = rejectedAt w1.2 := by
      rw [hw2, ← h1.1]; simp [flushedAt]
    unfold rejectedPass
    dsimp only
    have hcl : E.recorded.clock w2 = E.clock x := rfl
    rw [hcl]
    by_cases hc : E.clock x = s.lastFlush
    · right
      simp only [hc, if_true]
      exact ⟨_, rfl, _, _, hr, hf, h1.2.1.symm.trans hc.symm, h1.2.2, rfl⟩
    · left
      simp only [hc, if_false]
      apply endOfPass_rejects
      have hflush : (E.recorded.flush w2).2 = w2.2 ++ [Ev.flush (E.clock x)] := rfl
      have hlast : E.recorded.clock (E.recorded.flush w2) = E.clock x := K.flush x
      have hr' : rejectedAt (E.recorded.flush w2).2 = rejectedAt w1.2 ++ [E.clock x] := by
        rw [hflush, rejectedAt_append, hr]; simp [rejectedAt]
      refine ⟨?_, ?_, ?_⟩
      · show flushedAt (E.recorded.flush w2).2 = rejectedAt (E.recorded.flush w2).2
        rw [hr', hflush, flushedAt_append, hf]; simp [flushedAt]
      · show E.recorded.clock (E.recorded.flush w2) = (rejectedAt (E.recorded.flush w2).2).getLastD (-1)
        rw [hr', hlast]; simp
      · show List.IsChain (· ≠ ·) (-1 :: rejectedAt (E.recorded.flush w2).2)
        rw [hr']
        refine isChain_snoc_ne _ _ _ h1.2.2 ?_
        rw [← h1.2.1]; exact hc

omit K in
theorem start_rejects (cfg : Cfg) (w : W) : Rejects (start (V := V) E.recorded cfg (w, [])) := by
  have hq : Quiet ((w, []) : W × List (Ev V C B)) (start (V := V) E.recorded cfg (w, [])).w := by
    unfold start
    cases cfg.simStart with
    | none => exact mountNow_quiet E _
    | some m => exact (setClock_quiet E _ m).trans (mountNow_quiet E _)
  unfold Rejects
  rw [hq.flushed, hq.rejected]
  simp [flushedAt, rejectedAt, start]

/-! ### Termination -/

omit K in
/-- How much is left to do: twice the number of time steps left, plus one if a rejection
would be a first one. -/
def left (E : Env W V C B) (d : ℚ) (s : St W V) : ℕ :=
  2 * ⌈(s.endMjd - E.clock s.w) / d + 1⌉₊ + if E.clock s.w = s.lastFlush then 0 else 1

omit K in
theorem left_advance {d : ℚ} (hd : 0 < d) {s s' : St W V} (h0 : E.clock s.w ≤ s.endMjd)
    (he : s'.endMjd = s.endMjd) (h : E.clock s.w + d ≤ E.clock s'.w) : left E d s' < left E d s := by
  unfold left
  rw [he]
  have h1 : (s.endMjd - E.clock s'.w) / d + 1 ≤ (s.endMjd - E.clock s.w) / d := by
    rw [div_add_one hd.ne', div_le_div_iff_of_pos_right hd]
    linarith
  have h2 : 0 ≤ (s.endMjd - E.clock s.w) / d := div_nonneg (by linarith) hd.le
  have h3 : ⌈(s.endMjd - E.clock s.w) / d + 1⌉₊ = ⌈(s.endMjd - E.clock s.w) / d⌉₊ + 1 := Nat.ceil_add_one h2
  have h4 : ⌈(s.endMjd - E.clock s'.w) / d + 1⌉₊ ≤ ⌈(s.endMjd - E.clock s.w) / d⌉₊ := Nat.ceil_mono h1
  split_ifs <;> omega

theorem endOfPass_clock {cfg : Cfg} {nn : Bool} {s s' : St W V} (h : endOfPass E cfg nn s = .again s') :
    E.clock s'.w = E.clock s.w ∧ s'.mjd = E.clock s'.w ∧ s'.endMjd = s.endMjd ∧ s'.lastFlush = s.lastFlush := by
  have := endOfPass_st (E := E) cfg nn s
  rw [h] at this
  simp only [Pass.st] at this
  rw [this]
  cases nn
  · exact ⟨rfl, rfl, rfl, rfl⟩
  · exact ⟨mountNow_clock K _, rfl, rfl, rfl⟩

/-- Every observation that moves the clock moves it by at least `δ`; one that does not is
rejected. -/
def Progress (E : Env W V C B) (δ : ℚ) : Prop :=
  ∀ w v, E.clock w + δ ≤ E.clock (E.observe w v).1 ∨
    ((E.observe w v).2.1 = none ∧ E.clock (E.observe w v).1 = E.clock w)

theorem pass_progress {cfg : Cfg} {δ d : ℚ} (P : Progress E δ) (hd : 0 < d) (hdδ : d ≤ δ) (hds : d ≤ cfg.step)
    {s s' : St W V} (h0 : E.clock s.w ≤ s.endMjd) (h : pass E cfg s = .again s') :
    left E d s' < left E d s ∧ s'.endMjd = s.endMjd ∧ (s'.mjd < s'.endMjd → E.clock s'.w ≤ s'.endMjd) := by
  unfold pass at h
  dsimp only at h
  have hr : E.clock (refresh E cfg s.w) = E.clock s.w := refresh_clock K cfg s.w
  set w1 := refresh E cfg s.w
  have hq := K.request w1 (E.clock w1)
  rcases hu : E.request w1 (E.clock w1) with ⟨u, _ | v⟩
  · rw [hu] at h hq
    dsimp only at h hq
    unfold skipPass at h
    dsimp only at h
    split_ifs at h with hb
    injection h with h
    subst h
    have hc : E.clock (updateNow E (E.setClock u (E.clock u + cfg.step))) = E.clock u + cfg.step := by
      rw [updateNow_clock K, K.set]
    refine ⟨left_advance hd h0 rfl ?_, rfl, fun _ => not_lt.1 hb⟩
    rw [hc, hq, hr]
    linarith
  · rw [hu] at h hq
    dsimp only at h hq
    have hp := P u v
    have ho := K.observe u v
    rcases hx : E.observe u v with ⟨x, _ | v', nn⟩
    · rw [hx] at h hp ho
      dsimp only at h hp ho
      unfold rejectedPass at h
      dsimp only at h
      split_ifs at h with hc
      obtain ⟨k1, k2, k3, k4⟩ := endOfPass_clock K h
      dsimp only at k1 k3 k4
      rw [K.flush] at k1 k4
      refine ⟨?_, k3, fun hlt => by rw [← k2]; exact hlt.le⟩
      rcases hp with hp | ⟨_, hp⟩
      · refine left_advance hd h0 k3 ?_
        rw [k1]; linarith
      · unfold left
        rw [k3, k1, k4, hp, hq, hr, if_pos rfl]
        rw [hp, hq, hr] at hc
        rw [if_neg hc]
        omega
    · rw [hx] at h hp ho
      dsimp only at h hp ho
      have hadv : E.clock u + d ≤ E.clock x := by
        rcases hp with hp | ⟨hp, _⟩
        · linarith
        · simp at hp
      unfold completedPass at h
      dsimp only at h
      have hov : E.clock x ≤ E.clock (addOverhead E cfg x v') := by
        unfold addOverhead
        split_ifs
        · have k := K.overhead x v'
          dsimp only
          rw [K.set, k.1]
          linarith [div_nonneg k.2 (by norm_num : (0:ℚ) ≤ 86400)]
        · exact le_rfl
      cases hst : store cfg s.buf s.counter v' with
      | none => rw [hst] at h; simp at h
      | some b =>
        rw [hst] at h
        obtain ⟨k1, k2, k3, _⟩ := endOfPass_clock K h
        dsimp only at k1 k3
        rw [K.bandAdd, K.add] at k1
        refine ⟨left_advance hd h0 k3 ?_, k3, fun hlt => by rw [← k2]; exact hlt.le⟩
        rw [k1]; linarith

theorem loop_terminates {cfg : Cfg} {δ d : ℚ} (P : Progress E δ) (hd : 0 < d) (hdδ : d ≤ δ) (hds : d ≤ cfg.step)
    (n : ℕ) (s : St W V) (h0 : s.mjd < s.endMjd → E.clock s.w ≤ s.endMjd) (hn : left E d s ≤ n) :
    ∀ s', loop E cfg n s ≠ .running s' := by
  induction n generalizing s with
  | zero =>
    intro s' hh
    unfold loop at hh
    split_ifs at hh with hm
    have h2 : 0 ≤ (s.endMjd - E.clock s.w) / d := div_nonneg (by linarith [h0 hm]) hd.le
    have h3 : ⌈(s.endMjd - E.clock s.w) / d + 1⌉₊ = ⌈(s.endMjd - E.clock s.w) / d⌉₊ + 1 := Nat.ceil_add_one h2
    unfold left at hn
    omega
  | succ n ih =>
    intro s'
    unfold loop
    split_ifs with hm
    · cases hp : pass E cfg s with
      | again s1 =>
        obtain ⟨k1, k2, k3⟩ := pass_progress K P hd hdδ hds (h0 hm) hp
        exact ih s1 k3 (by omega) s'
      | brk _ => simp
      | gaveUp _ => simp
      | indexError _ => simp
    · simp

end Verif.Sim
