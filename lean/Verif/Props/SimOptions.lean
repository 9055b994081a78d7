import Verif.Props.SimPieces

/-!
C213: sizes of arrays make no difference to a simulation, and a longer or less limited simulation begins with the visits of the shorter one.
-/

namespace Verif

open Sim

variable {W V C B : Type}

/-- The second set of options asks for the same simulation, as long or longer and with the same limit of visits or a larger one; sizes of arrays are positive. -/
structure Widens (cfg cfg' : Cfg) : Prop where
  start : cfg'.simStart = cfg.simStart
  step : cfg'.stepNone = cfg.stepNone
  overhead : cfg'.useOverhead = cfg.useOverhead
  every : cfg'.updateEvery = cfg.updateEvery
  long : cfg.duration ≤ cfg'.duration
  limit : cfg'.visitLimit ≠ cfg.visitLimit → (∀ n, cfg.visitLimit = some n → 0 < n) ∧ ∀ n', cfg'.visitLimit = some n' → ∃ n, cfg.visitLimit = some n ∧ n ≤ n'
  sizes : 0 < cfg.startSize ∧ 0 < cfg.appendSize ∧ 0 < cfg'.startSize ∧ 0 < cfg'.appendSize

/-- States of two simulations in step. -/
structure Alike (cfg cfg' : Cfg) (s t : St W V) : Prop where
  w : t.w = s.w
  mjd : t.mjd = s.mjd
  flush : t.lastFlush = s.lastFlush
  counter : t.counter = s.counter
  rows : ∃ (done : List V) (k k' : ℕ), 0 < k ∧ 0 < k' ∧ s.buf = done.map some ++ List.replicate k none ∧ t.buf = done.map some ++ List.replicate k' none ∧
    s.counter = done.length
  ends : s.endMjd ≤ t.endMjd
  within : cfg'.visitLimit ≠ cfg.visitLimit → ∀ n, cfg.visitLimit = some n → (s.counter : ℤ) ≤ n

theorem Alike.result {cfg cfg' : Cfg} {s t : St W V} (h : Alike cfg cfg' s t) : t.result = s.result := by
  obtain ⟨done, k, k', -, -, e1, e2, e3⟩ := h.rows
  unfold St.result
  rw [h.counter, e1, e2, e3]
  simp

/-- How passes of two simulations in step go: the second may go on where the first stops, if it is longer or less limited. -/
inductive PassAlike (cfg cfg' : Cfg) (same : Prop) : Pass W V → Pass W V → Prop
  | again {s t : St W V} (h : Alike cfg cfg' s t) (hl : cfg'.visitLimit ≠ cfg.visitLimit → ∀ n, cfg.visitLimit = some n → (s.counter : ℤ) < n) (he : same → t.endMjd = s.endMjd) :
      PassAlike cfg cfg' same (.again s) (.again t)
  | brk {s t : St W V} (h : Alike cfg cfg' s t) : PassAlike cfg cfg' same (.brk s) (.brk t)
  | more {s t : St W V} (h : Alike cfg cfg' s t) (hs : ¬ same) : PassAlike cfg cfg' same (.brk s) (.again t)
  | gaveUp {s t : St W V} (h : Alike cfg cfg' s t) : PassAlike cfg cfg' same (.gaveUp s) (.gaveUp t)

theorem refresh_every (E : Env W V C B) {cfg cfg' : Cfg} (h : cfg'.updateEvery = cfg.updateEvery) (w : W) : refresh E cfg' w = refresh E cfg w := by
  unfold refresh; rw [h]

theorem addOverhead_use (E : Env W V C B) {cfg cfg' : Cfg} (h : cfg'.useOverhead = cfg.useOverhead) (w : W) (v : V) :
    addOverhead E cfg' w v = addOverhead E cfg w v := by
  unfold addOverhead; rw [h]

theorem endOfPass_alike (E : Env W V C B) {cfg cfg' : Cfg} (H : Widens cfg cfg') {same : Prop}
    (hsame : same → cfg'.visitLimit = cfg.visitLimit) (nn : Bool) {s t : St W V} (h : Alike cfg cfg' s t) (he : same → t.endMjd = s.endMjd) :
    PassAlike cfg cfg' same (endOfPass E cfg nn s) (endOfPass E cfg' nn t) := by
  have hnew : Alike cfg cfg' { s with w := if nn then mountNow E s.w else s.w, mjd := E.clock (if nn then mountNow E s.w else s.w) }
      { t with w := if nn then mountNow E t.w else t.w, mjd := E.clock (if nn then mountNow E t.w else t.w) } := by
    refine ⟨?_, ?_, h.flush, h.counter, h.rows, h.ends, h.within⟩ <;> dsimp only <;> rw [h.w]
  unfold endOfPass
  dsimp only
  by_cases heq : cfg'.visitLimit = cfg.visitLimit
  · have hno : ∀ P : Prop, cfg'.visitLimit ≠ cfg.visitLimit → P := fun P hne => absurd heq hne
    rw [heq]
    rcases hl : cfg.visitLimit with _ | n
    · exact .again hnew (hno _) he
    · dsimp only
      rw [h.counter]
      by_cases hc : (s.counter : ℤ) = n
      · rw [if_pos hc, if_pos hc]
        exact .brk (h.counter ▸ hnew)
      · rw [if_neg hc, if_neg hc]
        exact .again (h.counter ▸ hnew) (hno _) he
  · obtain ⟨hpos, hlim⟩ := H.limit heq
    have hns : ¬ same := fun hs => heq (hsame hs)
    rcases hl : cfg.visitLimit with _ | n
    · rcases hl' : cfg'.visitLimit with _ | n'
      · exact absurd (hl'.trans hl.symm) heq
      · obtain ⟨n, hn, -⟩ := hlim n' hl'
        rw [hl] at hn; cases hn
    · dsimp only
      by_cases hc : (s.counter : ℤ) = n
      · rw [if_pos hc]
        rcases hl' : cfg'.visitLimit with _ | n'
        · exact .more hnew hns
        · dsimp only
          by_cases hc' : (t.counter : ℤ) = n'
          · rw [if_pos hc']; exact .brk hnew
          · rw [if_neg hc']; exact .more hnew hns
      · rw [if_neg hc]
        have hlt : (s.counter : ℤ) < n := lt_of_le_of_ne (h.within heq n hl) hc
        have hag : cfg'.visitLimit ≠ cfg.visitLimit → ∀ m, cfg.visitLimit = some m → (s.counter : ℤ) < m := by
          intro _ m hm
          rw [hl] at hm; cases hm
          exact hlt
        rcases hl' : cfg'.visitLimit with _ | n'
        · exact .again hnew hag he
        · dsimp only
          obtain ⟨m, hm, hle⟩ := hlim n' hl'
          rw [hl] at hm; cases hm
          have hne : ¬ (t.counter : ℤ) = n' := by rw [h.counter]; omega
          rw [if_neg hne]
          exact .again hnew hag he

theorem pass_alike (E : Env W V C B) {cfg cfg' : Cfg} (H : Widens cfg cfg') {same : Prop}
    (hsame : same → cfg'.visitLimit = cfg.visitLimit) {s t : St W V} (h : Alike cfg cfg' s t) (hl : cfg'.visitLimit ≠ cfg.visitLimit → ∀ n, cfg.visitLimit = some n → (s.counter : ℤ) < n)
    (he : same → t.endMjd = s.endMjd) : PassAlike cfg cfg' same (pass E cfg s) (pass E cfg' t) := by
  unfold pass
  dsimp only
  rw [h.w, refresh_every E H.every]
  rcases E.request (refresh E cfg s.w) (E.clock (refresh E cfg s.w)) with ⟨u, _ | v⟩
  · dsimp only
    unfold skipPass
    have hst : cfg'.step = cfg.step := by unfold Cfg.step; rw [H.step]
    dsimp only
    rw [hst]
    have hnew : Alike cfg cfg' { s with w := updateNow E (E.setClock u (E.clock u + cfg.step)), nskip := s.nskip + 1 }
        { t with w := updateNow E (E.setClock u (E.clock u + cfg.step)), nskip := t.nskip + 1 } :=
      ⟨rfl, h.mjd, h.flush, h.counter, h.rows, h.ends, h.within⟩
    by_cases hb : s.endMjd < E.clock (updateNow E (E.setClock u (E.clock u + cfg.step)))
    · rw [if_pos hb]
      by_cases hb' : t.endMjd < E.clock (updateNow E (E.setClock u (E.clock u + cfg.step)))
      · rw [if_pos hb']; exact .brk hnew
      · rw [if_neg hb']
        exact .more hnew (fun hs => hb' (by rw [he hs]; exact hb))
    · rw [if_neg hb, if_neg (fun hb' => hb (lt_of_le_of_lt h.ends hb'))]
      exact .again hnew hl he
  · dsimp only
    rcases E.observe u v with ⟨x, _ | v', nn⟩
    · dsimp only
      unfold rejectedPass
      dsimp only
      rw [h.flush]
      by_cases hc : E.clock x = s.lastFlush
      · rw [if_pos hc, if_pos hc]
        exact .gaveUp ⟨rfl, h.mjd, rfl, h.counter, h.rows, h.ends, h.within⟩
      · rw [if_neg hc, if_neg hc]
        exact endOfPass_alike E H hsame nn ⟨rfl, h.mjd, rfl, h.counter, h.rows, h.ends, h.within⟩ he
    · dsimp only
      unfold completedPass
      dsimp only
      rw [addOverhead_use E H.overhead]
      obtain ⟨done, k, k', hk, hk', e1, e2, e3⟩ := h.rows
      obtain ⟨j, hj, f1⟩ := store_row cfg H.sizes.2.1 done k hk v'
      obtain ⟨j', hj', f2⟩ := store_row cfg' H.sizes.2.2.2 done k' hk' v'
      rw [e1, e2, h.counter, e3, f1, f2]
      dsimp only
      refine endOfPass_alike E H hsame nn ⟨rfl, h.mjd, h.flush, rfl, ⟨done ++ [v'], j, j', hj, hj', rfl, rfl, by simp⟩, h.ends, ?_⟩ he
      intro hne n hn
      have := hl hne n hn
      rw [e3] at this
      push_cast
      omega

/-- The array has the visits `done`, and room. -/
def RowsOf (done : List V) (s : St W V) : Prop := ∃ k, 0 < k ∧ s.buf = done.map some ++ List.replicate k none ∧ s.counter = done.length

theorem RowsOf.result {done : List V} {s : St W V} (h : RowsOf done s) : s.result = done.map some := by
  obtain ⟨k, -, e1, e2⟩ := h
  unfold St.result
  rw [e1, e2]
  simp

theorem endOfPass_filled (E : Env W V C B) (cfg : Cfg) (nn : Bool) {done : List V} {s : St W V} (h : RowsOf done s) :
    RowsOf done (endOfPass E cfg nn s).st := by
  rw [endOfPass_st]
  exact h

theorem pass_filled (E : Env W V C B) {cfg : Cfg} (ha : 0 < cfg.appendSize) {done : List V} {s : St W V} (h : RowsOf done s) :
    ∃ new, RowsOf (done ++ new) (pass E cfg s).st := by
  unfold pass
  dsimp only
  rcases E.request (refresh E cfg s.w) (E.clock (refresh E cfg s.w)) with ⟨u, _ | v⟩
  · refine ⟨[], ?_⟩
    rw [List.append_nil]
    dsimp only
    unfold skipPass
    dsimp only
    split_ifs <;> exact h
  · dsimp only
    rcases E.observe u v with ⟨x, _ | v', nn⟩
    · refine ⟨[], ?_⟩
      rw [List.append_nil]
      dsimp only
      unfold rejectedPass
      dsimp only
      split_ifs
      · exact h
      · exact endOfPass_filled E cfg nn h
    · refine ⟨[v'], ?_⟩
      dsimp only
      unfold completedPass
      obtain ⟨k, hk, e1, e2⟩ := h
      obtain ⟨j, hj, f1⟩ := store_row cfg ha done k hk v'
      dsimp only
      rw [e1, e2, f1]
      exact endOfPass_filled E cfg nn ⟨j, hj, rfl, by simp⟩

/-- Visits are only added at the end. -/
theorem loop_filled (E : Env W V C B) {cfg : Cfg} (ha : 0 < cfg.appendSize) (n : ℕ) {done : List V} {s : St W V} (h : RowsOf done s) :
    ∃ new, RowsOf (done ++ new) (loop E cfg n s).st := by
  induction n generalizing done s with
  | zero =>
    refine ⟨[], ?_⟩
    rw [List.append_nil]
    unfold loop
    split_ifs <;> exact h
  | succ n ih =>
    unfold loop
    split_ifs
    · obtain ⟨new, hp⟩ := pass_filled E ha h
      cases hq : pass E cfg s with
      | again s' =>
        rw [hq] at hp
        obtain ⟨more, hm⟩ := ih hp
        exact ⟨new ++ more, by rw [← List.append_assoc]; exact hm⟩
      | brk s' => rw [hq] at hp; exact ⟨new, hp⟩
      | gaveUp s' => rw [hq] at hp; exact ⟨new, hp⟩
      | indexError s' => rw [hq] at hp; exact ⟨new, hp⟩
    · exact ⟨[], by rw [List.append_nil]; exact h⟩

theorem Alike.filled {cfg cfg' : Cfg} {s t : St W V} (h : Alike cfg cfg' s t) : ∃ done, RowsOf done s ∧ RowsOf done t := by
  obtain ⟨done, k, k', hk, hk', e1, e2, e3⟩ := h.rows
  exact ⟨done, ⟨k, hk, e1, e3⟩, ⟨k', hk', e2, h.counter.trans e3⟩⟩

theorem prefix_of_filled (E : Env W V C B) {cfg cfg' : Cfg} (ha : 0 < cfg'.appendSize) {s t : St W V} (h : Alike cfg cfg' s t) (n : ℕ) :
    s.result <+: (loop E cfg' n t).st.result := by
  obtain ⟨done, hs, ht⟩ := h.filled
  obtain ⟨new, hl⟩ := loop_filled E ha n ht
  rw [hs.result, hl.result, List.map_append]
  exact List.prefix_append _ _

theorem loop_alike (E : Env W V C B) {cfg cfg' : Cfg} (H : Widens cfg cfg') {n n' : ℕ} (hn : n ≤ n') {s t : St W V} (h : Alike cfg cfg' s t)
    (hl : cfg'.visitLimit ≠ cfg.visitLimit → ∀ n, cfg.visitLimit = some n → (s.counter : ℤ) < n) : (loop E cfg n s).st.result <+: (loop E cfg' n' t).st.result := by
  induction n generalizing n' s t with
  | zero =>
    have : (loop E cfg 0 s).st = s := by unfold loop; split_ifs <;> rfl
    rw [this]
    exact prefix_of_filled E H.sizes.2.2.2 h n'
  | succ n ih =>
    rcases n' with _ | n'
    · omega
    by_cases hm : s.mjd < s.endMjd
    · have hm' : t.mjd < t.endMjd := by rw [h.mjd]; exact lt_of_lt_of_le hm h.ends
      have hp := pass_alike E H (same := False) (fun hs => hs.elim) h hl (fun hs => hs.elim)
      unfold loop
      rw [if_pos hm, if_pos hm']
      generalize pass E cfg s = P at hp
      generalize pass E cfg' t = Q at hp
      cases hp with
      | again h hl => exact ih (by omega) h hl
      | brk h => exact h.result ▸ List.prefix_rfl
      | more h => exact prefix_of_filled E H.sizes.2.2.2 h n'
      | gaveUp h => exact h.result ▸ List.prefix_rfl
    · have : (loop E cfg (n + 1) s).st = s := by unfold loop; rw [if_neg hm]; rfl
      rw [this]
      exact prefix_of_filled E H.sizes.2.2.2 h _

/-- How a simulation ends and with what: the error if any, all objects, the time and the visits. -/
def Sim.Out.outcome : Out W V → String × W × ℚ × List (Option V)
  | .finished s => ("finished", s.w, s.mjd, s.result)
  | .gaveUp s => ("gave up", s.w, s.mjd, s.result)
  | .indexError s => ("index error", s.w, s.mjd, s.result)
  | .running s => ("running", s.w, s.mjd, s.result)

theorem loop_same (E : Env W V C B) {cfg cfg' : Cfg} (H : Widens cfg cfg') (hlim : cfg'.visitLimit = cfg.visitLimit) (n : ℕ) {s t : St W V} (h : Alike cfg cfg' s t)
    (hl : cfg'.visitLimit ≠ cfg.visitLimit → ∀ n, cfg.visitLimit = some n → (s.counter : ℤ) < n) (he : t.endMjd = s.endMjd) : (loop E cfg' n t).outcome = (loop E cfg n s).outcome := by
  induction n generalizing s t with
  | zero =>
    unfold loop
    rw [h.mjd, he]
    split_ifs <;> (unfold Out.outcome; dsimp only; rw [h.w, h.mjd, h.result])
  | succ n ih =>
    unfold loop
    rw [h.mjd, he]
    split_ifs
    · have hp := pass_alike E H (same := True) (fun _ => hlim) h hl (fun _ => he)
      generalize pass E cfg s = P at hp
      generalize pass E cfg' t = Q at hp
      cases hp with
      | again h hl he => exact ih h hl (he trivial)
      | brk h => unfold Out.outcome; dsimp only; rw [h.w, h.mjd, h.result]
      | more h hs => exact absurd trivial hs
      | gaveUp h => unfold Out.outcome; dsimp only; rw [h.w, h.mjd, h.result]
    · unfold Out.outcome; dsimp only; rw [h.w, h.mjd, h.result]

theorem start_alike (E : Env W V C B) {cfg cfg' : Cfg} (H : Widens cfg cfg') (w : W) :
    Alike cfg cfg' (start (V := V) E cfg w) (start (V := V) E cfg' w) ∧ (cfg'.visitLimit ≠ cfg.visitLimit → ∀ n, cfg.visitLimit = some n → ((start (V := V) E cfg w).counter : ℤ) < n) := by
  refine ⟨⟨?_, ?_, rfl, rfl, ⟨[], cfg.startSize, cfg'.startSize, H.sizes.1, H.sizes.2.2.1, rfl, rfl, rfl⟩, ?_, ?_⟩, ?_⟩
  · unfold start; rw [H.start]
  · unfold start; rw [H.start]
  · unfold start
    dsimp only
    rw [H.start]
    have := H.long
    linarith
  · intro hne n hn
    have := (H.limit hne).1 n hn
    show (0 : ℤ) ≤ n
    omega
  · intro hne n hn
    exact (H.limit hne).1 n hn

/-- C213, longer and less limited simulations: with the same start, steps and objects, a simulation that may be longer and make more visits begins with the
visits of the shorter one, whatever the sizes of arrays. -/
theorem C213_prefix_partial (E : Env W V C B) (cfg cfg' : Cfg) (H : Widens cfg cfg') (n n' : ℕ) (hn : n ≤ n') (w : W) :
    (run (V := V) E cfg n w).st.result <+: (run (V := V) E cfg' n' w).st.result :=
  loop_alike E H hn (start_alike E H w).1 (start_alike E H w).2

/-- C213, sizes of arrays: simulations that differ in the sizes of arrays only end alike, with the same visits, and leave all objects in the same state. -/
theorem C213_sizes_partial (E : Env W V C B) (cfg : Cfg) (a b : ℕ) (h1 : 0 < cfg.startSize) (h2 : 0 < cfg.appendSize) (ha : 0 < a) (hb : 0 < b)
    (n : ℕ) (w : W) :
    (run (V := V) E { cfg with startSize := a, appendSize := b } n w).outcome = (run (V := V) E cfg n w).outcome := by
  have H : Widens cfg { cfg with startSize := a, appendSize := b } := ⟨rfl, rfl, rfl, rfl, le_rfl, fun hne => absurd rfl hne, h1, h2, ha, hb⟩
  exact loop_same E H rfl n (start_alike E H w).1 (start_alike E H w).2 rfl

/-- A simulation of a quarter of a day with at most two visits, and one of a day with at most three: the visits of the first come first in the second. -/
example : Widens { duration := 1/4, startSize := 1, appendSize := 1, visitLimit := some 2 } { duration := 1, startSize := 7, appendSize := 3, visitLimit := some 3 }
    ∧ (run toySim { duration := 1/4, startSize := 1, appendSize := 1, visitLimit := some 2 } 9 ⟨0, [.ok (1/8), .nothing, .ok (1/16), .ok (1/8), .ok (1/8)], 0⟩).summary
      = ("finished", [some 0, some 1])
    ∧ (run toySim { duration := 1, startSize := 7, appendSize := 3, visitLimit := some 3 } 9 ⟨0, [.ok (1/8), .nothing, .ok (1/16), .ok (1/8), .ok (1/8)], 0⟩).summary
      = ("finished", [some 0, some 1, some 2]) := by
  refine ⟨⟨rfl, rfl, rfl, rfl, by norm_num, fun _ => ⟨?_, ?_⟩, by norm_num⟩, by decide +kernel, by decide +kernel⟩
  · rintro n ⟨⟩
    norm_num
  · rintro n' ⟨⟩
    exact ⟨2, rfl, by norm_num⟩

/-- C213 is violated by arrays of size zero: a simulation with room for one visit and no more than that at a time raises IndexError. -/
theorem C213_size_violated :
    (run toySim { duration := 1, startSize := 1, appendSize := 0 } 9 ⟨0, [.ok (1/8), .ok (1/8)], 0⟩).summary.1 = "index error" ∧
    (run toySim { duration := 1, startSize := 0, appendSize := 5 } 9 ⟨0, [.ok (1/8), .ok (1/8)], 0⟩).summary.1 = "index error" ∧
    (run toySim { duration := 1/4, startSize := 1, appendSize := 5 } 9 ⟨0, [.ok (1/8), .ok (1/8)], 0⟩).summary = ("finished", [some 0, some 1]) := by
  decide +kernel

/-- C213 is violated by a limit of no visits, which limits nothing: the simulation makes more visits than one with a limit of one. -/
theorem C213_limit_violated :
    (run toySim { duration := 1/4, startSize := 9, visitLimit := some 0 } 9 ⟨0, [.ok (1/8), .ok (1/8)], 0⟩).summary = ("finished", [some 0, some 1]) ∧
    (run toySim { duration := 1/4, startSize := 9, visitLimit := some 1 } 9 ⟨0, [.ok (1/8), .ok (1/8)], 0⟩).summary = ("finished", [some 0]) := by
  decide +kernel

end Verif
