import Verif.Props.SimRunner
import Verif.Model.BandSched

/-!
Property C209: a simulation can be run in pieces.

A simulation is run for a part of its time; a second one goes on with the same objects from where the first one stopped, up to the same end.
-/

namespace Verif
open Sim
variable {W V C B : Type}

/-- A state `s` of the whole simulation and `t` of its second piece, where `done` are the visits of the first piece. -/
structure Twin (E : Env W V C B) (done : List V) (s t : St W V) : Prop where
  w : t.w = s.w
  stop : t.endMjd = s.endMjd
  rows : ∃ (new : List V) (k l : ℕ), 0 < k ∧ 0 < l ∧ s.buf = (done ++ new).map some ++ List.replicate k none ∧ s.counter = (done ++ new).length ∧
    t.buf = new.map some ++ List.replicate l none ∧ t.counter = new.length
  flush : t.lastFlush = s.lastFlush ∨ (s.lastFlush ≤ E.clock s.w ∧ t.lastFlush < E.clock s.w)
  mjd : s.mjd < s.endMjd ↔ t.mjd < t.endMjd

theorem Twin.result {E : Env W V C B} {done : List V} {s t : St W V} (h : Twin E done s t) : s.result = done.map some ++ t.result := by
  obtain ⟨new, k, l, -, -, h1, h2, h3, h4⟩ := h.rows
  unfold St.result
  rw [h1, h2, h3, h4, List.take_left' (by simp), List.take_left' (by simp), List.map_append]

theorem store_row (cfg : Cfg) (ha : 0 < cfg.appendSize) (l : List V) (k : ℕ) (hk : 0 < k) (v : V) :
    ∃ k', 0 < k' ∧ store cfg (l.map some ++ List.replicate k none) l.length v = some ((l ++ [v]).map some ++ List.replicate k' none) := by
  rw [store_spec]
  by_cases h1 : k = 1
  · exact ⟨cfg.appendSize, ha, by rw [if_neg (by omega), if_pos h1]⟩
  · exact ⟨k - 1, by omega, by rw [if_neg (by omega), if_neg h1]⟩

theorem endOfPass_none (E : Env W V C B) {cfg : Cfg} (hl : cfg.visitLimit = none) (nn : Bool) (s : St W V) :
    endOfPass E cfg nn s = .again { s with w := if nn then mountNow E s.w else s.w, mjd := E.clock (if nn then mountNow E s.w else s.w) } := by
  unfold endOfPass; rw [hl]

theorem nightly_clock {E : Env W V C B} (K : Contract E) (nn : Bool) (w : W) : E.clock (if nn then mountNow E w else w) = E.clock w := by
  cases nn
  · rfl
  · exact mountNow_clock K w

theorem step_nonneg {cfg : Cfg} (h : 0 ≤ cfg.stepNone) : 0 ≤ cfg.step := by unfold Cfg.step; positivity

theorem addOverhead_clock {E : Env W V C B} (K : Contract E) (cfg : Cfg) (w : W) (v : V) : E.clock w ≤ E.clock (addOverhead E cfg w v) := by
  unfold addOverhead
  split_ifs
  · dsimp only
    rw [K.set, (K.overhead w v).1]
    have := (K.overhead w v).2
    have h2 : 0 ≤ (E.overhead w v).2 / 86400 := by positivity
    linarith
  · exact le_rfl

/-- A pass of the whole and of the second piece go alike. -/
theorem Twin.pass {E : Env W V C B} (K : Contract E) {cfg : Cfg} (hl : cfg.visitLimit = none) (ha : 0 < cfg.appendSize) (hstep : 0 ≤ cfg.stepNone)
    {done : List V} {s t : St W V} (h : Twin E done s t) :
    (∀ s', Sim.pass E cfg s = .again s' → ∃ t', Sim.pass E cfg t = .again t' ∧ Twin E done s' t') ∧
    (∀ s', Sim.pass E cfg s = .brk s' → ∃ t', Sim.pass E cfg t = .brk t' ∧ Twin E done s' t') := by
  obtain ⟨new, k, l, hk, hl', h1, h2, h3, h4⟩ := h.rows
  have hw := h.w
  have hc : E.clock s.w = E.clock (refresh E cfg s.w) := (refresh_clock K cfg s.w).symm
  unfold Sim.pass
  dsimp only
  rw [hw]
  generalize refresh E cfg s.w = w at hc
  rcases hr : E.request w (E.clock w) with ⟨u, _ | v⟩
  · have hu : E.clock u = E.clock w := by have := K.request w (E.clock w); rwa [hr] at this
    dsimp only
    have hq : E.clock (updateNow E (E.setClock u (E.clock u + cfg.step))) = E.clock s.w + cfg.step := by
      rw [updateNow_clock K, K.set, hu, ← hc]
    have hs := step_nonneg hstep
    have key : Twin E done { s with w := updateNow E (E.setClock u (E.clock u + cfg.step)), nskip := s.nskip + 1 }
        { t with w := updateNow E (E.setClock u (E.clock u + cfg.step)), endMjd := s.endMjd, nskip := t.nskip + 1 } := by
      refine ⟨rfl, rfl, ⟨new, k, l, hk, hl', h1, h2, h3, h4⟩, ?_, h.stop ▸ h.mjd⟩
      rcases h.flush with e | ⟨e1, e2⟩
      · exact Or.inl e
      · right
        dsimp only
        rw [hq]
        exact ⟨by linarith, by linarith⟩
    unfold skipPass
    dsimp only
    have hst := h.stop
    constructor
    · intro s' hp
      rw [hst]
      split_ifs at hp ⊢ with hend
      injection hp with hp
      subst hp
      exact ⟨_, rfl, key⟩
    · intro s' hp
      rw [hst]
      split_ifs at hp ⊢ with hend
      injection hp with hp
      subst hp
      exact ⟨_, rfl, key⟩
  · have hu : E.clock u = E.clock w := by have := K.request w (E.clock w); rwa [hr] at this
    dsimp only
    rcases ho : E.observe u v with ⟨x, _ | v', nn⟩
    · have hx : E.clock s.w ≤ E.clock x := by have := K.observe u v; rw [ho] at this; rw [hc, ← hu]; exact this
      dsimp only
      unfold rejectedPass
      dsimp only
      by_cases hg : E.clock x = s.lastFlush
      · rw [if_pos hg]
        constructor <;> intro s' hp <;> simp at hp
      · have hg' : ¬ E.clock x = t.lastFlush := by
          rcases h.flush with e | ⟨e1, e2⟩
          · rw [e]; exact hg
          · intro e; linarith
        rw [if_neg hg, if_neg hg', endOfPass_none E hl, endOfPass_none E hl]
        constructor
        · intro s' hp
          injection hp with hp
          refine ⟨_, rfl, hp ▸ ⟨rfl, h.stop, ⟨new, k, l, hk, hl', h1, h2, h3, h4⟩, Or.inl rfl, ?_⟩⟩
          dsimp only
          rw [h.stop]
        · intro s' hp; simp at hp
    · have hx : E.clock s.w ≤ E.clock x := by have := K.observe u v; rw [ho] at this; rw [hc, ← hu]; exact this
      dsimp only
      unfold completedPass
      dsimp only
      obtain ⟨k', hk', e1⟩ := store_row cfg ha (done ++ new) k hk v'
      obtain ⟨l2, hl2, e2⟩ := store_row cfg ha new l hl' v'
      rw [h1, h2, h3, h4, e1, e2]
      dsimp only
      rw [endOfPass_none E hl, endOfPass_none E hl]
      constructor
      · intro s' hp
        injection hp with hp
        refine ⟨_, rfl, hp ▸ ⟨rfl, h.stop, ⟨new ++ [v'], k', l2, hk', hl2, by simp, by simp; omega, by simp, by simp⟩, ?_, ?_⟩⟩
        · rcases h.flush with e | ⟨e3, e4⟩
          · exact Or.inl e
          · right
            dsimp only
            rw [nightly_clock K, K.bandAdd, K.add]
            have := addOverhead_clock K cfg x v'
            exact ⟨by linarith, by linarith⟩
        · dsimp only
          rw [h.stop]
      · intro s' hp; simp at hp

theorem Twin.loop {E : Env W V C B} (K : Contract E) {cfg : Cfg} (hl : cfg.visitLimit = none) (ha : 0 < cfg.appendSize) (hstep : 0 ≤ cfg.stepNone)
    {done : List V} (n : ℕ) : ∀ {s t r : St W V}, Twin E done s t → Sim.loop E cfg n s = .finished r →
      ∃ r', Sim.loop E cfg n t = .finished r' ∧ Twin E done r r' := by
  induction n with
  | zero =>
    intro s t r h hf
    unfold Sim.loop at hf ⊢
    by_cases hm : s.mjd < s.endMjd
    · rw [if_pos hm] at hf; simp at hf
    · rw [if_neg hm] at hf
      rw [if_neg (fun e => hm (h.mjd.2 e))]
      injection hf with hf
      exact ⟨t, rfl, hf ▸ h⟩
  | succ n ih =>
    intro s t r h hf
    unfold Sim.loop at hf ⊢
    by_cases hm : s.mjd < s.endMjd
    · rw [if_pos hm] at hf
      rw [if_pos (h.mjd.1 hm)]
      obtain ⟨p1, p2⟩ := h.pass K hl ha hstep
      cases hp : Sim.pass E cfg s with
      | again s' =>
        obtain ⟨t', e, h'⟩ := p1 s' hp
        rw [hp] at hf
        rw [e]
        exact ih h' hf
      | brk s' =>
        obtain ⟨t', e, h'⟩ := p2 s' hp
        rw [hp] at hf
        injection hf with hf
        rw [e]
        exact ⟨t', rfl, hf ▸ h'⟩
      | gaveUp s' => rw [hp] at hf; simp at hf
      | indexError s' => rw [hp] at hf; simp at hf
    · rw [if_neg hm] at hf
      rw [if_neg (fun e => hm (h.mjd.2 e))]
      injection hf with hf
      exact ⟨t, rfl, hf ▸ h⟩

/-- A state of the first piece between passes. -/
structure PieceOK (E : Env W V C B) (a : St W V) : Prop where
  rows : ∃ (l : List V) (k : ℕ), 0 < k ∧ a.buf = l.map some ++ List.replicate k none ∧ a.counter = l.length
  flush : a.lastFlush ≤ E.clock a.w
  mjd : a.mjd = E.clock a.w ∨ a.mjd < a.endMjd
  low : -1 < E.clock a.w

/-- The state of the whole simulation next to a state of its first piece. -/
abbrev later (e : ℚ) (a : St W V) : St W V := { a with endMjd := e }

/-- A pass of the first piece and of the whole go alike, but for the end. -/
theorem PieceOK.pass {E : Env W V C B} (K : Contract E) {cfg : Cfg} (hl : cfg.visitLimit = none) (ha : 0 < cfg.appendSize) (hstep : 0 ≤ cfg.stepNone)
    {e : ℚ} {a : St W V} (he : a.endMjd ≤ e) (hm : a.mjd < a.endMjd) (h : PieceOK E a) :
    (∀ a', Sim.pass E cfg a = .again a' → Sim.pass E cfg (later e a) = .again (later e a') ∧ PieceOK E a' ∧ a'.endMjd = a.endMjd) ∧
    (∀ a', Sim.pass E cfg a = .brk a' → PieceOK E a' ∧ a'.endMjd = a.endMjd ∧ a'.mjd < a'.endMjd ∧
      Sim.pass E cfg (later e a) = if e < E.clock a'.w then .brk (later e a') else .again (later e a')) := by
  obtain ⟨l, k, hk, h1, h2⟩ := h.rows
  have hc : E.clock a.w = E.clock (refresh E cfg a.w) := (refresh_clock K cfg a.w).symm
  have hlow := h.low
  have hfl := h.flush
  unfold Sim.pass
  dsimp only
  generalize refresh E cfg a.w = w at hc
  rcases hr : E.request w (E.clock w) with ⟨u, _ | v⟩
  · have hu : E.clock u = E.clock w := by have := K.request w (E.clock w); rwa [hr] at this
    dsimp only
    have hq : E.clock (updateNow E (E.setClock u (E.clock u + cfg.step))) = E.clock a.w + cfg.step := by
      rw [updateNow_clock K, K.set, hu, ← hc]
    have hs := step_nonneg hstep
    have key : PieceOK E { a with w := updateNow E (E.setClock u (E.clock u + cfg.step)), nskip := a.nskip + 1 } :=
      ⟨⟨l, k, hk, h1, h2⟩, by dsimp only; rw [hq]; linarith, Or.inr hm, by dsimp only; rw [hq]; linarith⟩
    unfold skipPass
    dsimp only
    generalize updateNow E (E.setClock u (E.clock u + cfg.step)) = z at key hq ⊢
    constructor
    · intro a' hp
      by_cases hend : a.endMjd < E.clock z
      · rw [if_pos hend] at hp; simp at hp
      · rw [if_neg hend] at hp
        rw [if_neg (fun e' => hend (lt_of_le_of_lt he e'))]
        injection hp with hp
        subst hp
        exact ⟨rfl, key, rfl⟩
    · intro a' hp
      by_cases hend : a.endMjd < E.clock z
      · rw [if_pos hend] at hp
        injection hp with hp
        subst hp
        exact ⟨key, rfl, hm, rfl⟩
      · rw [if_neg hend] at hp; simp at hp
  · have hu : E.clock u = E.clock w := by have := K.request w (E.clock w); rwa [hr] at this
    dsimp only
    rcases ho : E.observe u v with ⟨x, _ | v', nn⟩
    · have hx : E.clock a.w ≤ E.clock x := by have := K.observe u v; rw [ho] at this; rw [hc, ← hu]; exact this
      dsimp only
      unfold rejectedPass
      dsimp only
      by_cases hg : E.clock x = a.lastFlush
      · rw [if_pos hg]
        constructor <;> intro s' hp <;> simp at hp
      · rw [if_neg hg, if_neg hg, endOfPass_none E hl, endOfPass_none E hl]
        constructor
        · intro a' hp
          injection hp with hp
          subst hp
          refine ⟨rfl, ⟨⟨l, k, hk, h1, h2⟩, ?_, Or.inl rfl, ?_⟩, rfl⟩
          · dsimp only; rw [nightly_clock K]
          · dsimp only; rw [nightly_clock K, K.flush]; linarith
        · intro a' hp; simp at hp
    · have hx : E.clock a.w ≤ E.clock x := by have := K.observe u v; rw [ho] at this; rw [hc, ← hu]; exact this
      dsimp only
      unfold completedPass
      dsimp only
      obtain ⟨k', hk', e1⟩ := store_row cfg ha l k hk v'
      rw [h1, h2, e1]
      dsimp only
      rw [endOfPass_none E hl, endOfPass_none E hl]
      have := addOverhead_clock K cfg x v'
      constructor
      · intro a' hp
        injection hp with hp
        subst hp
        refine ⟨rfl, ⟨⟨l ++ [v'], k', hk', rfl, by simp⟩, ?_, Or.inl rfl, ?_⟩, rfl⟩
        · dsimp only; rw [nightly_clock K, K.bandAdd, K.add]; linarith
        · dsimp only; rw [nightly_clock K, K.bandAdd, K.add]; linarith
      · intro a' hp; simp at hp

/-- The whole simulation passes through the end of its first piece, or ends there too. -/
theorem PieceOK.loop {E : Env W V C B} (K : Contract E) {cfg : Cfg} (hl : cfg.visitLimit = none) (ha : 0 < cfg.appendSize) (hstep : 0 ≤ cfg.stepNone)
    {e : ℚ} (n1 : ℕ) : ∀ {a a' r : St W V} {n : ℕ}, a.endMjd ≤ e → PieceOK E a → Sim.loop E cfg n1 a = .finished a' →
      Sim.loop E cfg n (later e a) = .finished r →
      PieceOK E a' ∧ ((e < E.clock a'.w ∧ r = later e a') ∨
        ((a'.mjd = E.clock a'.w ∨ (a'.mjd < e ∧ E.clock a'.w ≤ e)) ∧ ∃ m, Sim.loop E cfg m (later e a') = .finished r)) := by
  induction n1 with
  | zero =>
    intro a a' r n he h h1 h2
    unfold Sim.loop at h1
    by_cases hm : a.mjd < a.endMjd
    · rw [if_pos hm] at h1; simp at h1
    · rw [if_neg hm] at h1
      injection h1 with h1
      subst h1
      exact ⟨h, Or.inr ⟨h.mjd.imp id fun x => absurd x hm, n, h2⟩⟩
  | succ n1 ih =>
    intro a a' r n he h h1 h2
    unfold Sim.loop at h1
    by_cases hm : a.mjd < a.endMjd
    · rw [if_pos hm] at h1
      obtain ⟨p1, p2⟩ := h.pass K hl ha hstep he hm
      cases n with
      | zero =>
        unfold Sim.loop at h2
        rw [if_pos (lt_of_lt_of_le hm he)] at h2
        simp at h2
      | succ n =>
        unfold Sim.loop at h2
        rw [if_pos (lt_of_lt_of_le hm he)] at h2
        cases hp : Sim.pass E cfg a with
        | again b =>
          obtain ⟨e1, e2, e3⟩ := p1 b hp
          rw [hp] at h1
          rw [e1] at h2
          exact ih (e3 ▸ he) e2 h1 h2
        | brk b =>
          obtain ⟨e1, e2, e3, e4⟩ := p2 b hp
          rw [hp] at h1
          injection h1 with h1
          subst h1
          refine ⟨e1, ?_⟩
          rw [e4] at h2
          by_cases hend : e < E.clock b.w
          · rw [if_pos hend] at h2
            injection h2 with h2
            exact Or.inl ⟨hend, h2.symm⟩
          · rw [if_neg hend] at h2
            exact Or.inr ⟨Or.inr ⟨by rw [e2] at e3; linarith, not_lt.1 hend⟩, n, h2⟩
        | gaveUp b => rw [hp] at h1; simp at h1
        | indexError b => rw [hp] at h1; simp at h1
    · rw [if_neg hm] at h1
      injection h1 with h1
      subst h1
      exact ⟨h, Or.inr ⟨h.mjd.imp id fun x => absurd x hm, n, h2⟩⟩

/-- Start and duration do not matter once the loop runs. -/
theorem loop_timing (E : Env W V C B) (cfg : Cfg) (o : Option ℚ) (d : ℚ) (n : ℕ) (s : St W V) :
    loop E { cfg with simStart := o, duration := d } n s = loop E cfg n s := by
  induction n generalizing s with
  | zero => rfl
  | succ n ih =>
    have hp : pass E { cfg with simStart := o, duration := d } s = pass E cfg s := rfl
    unfold loop
    rw [hp]
    split_ifs
    · cases pass E cfg s with
      | again s' => exact ih s'
      | _ => rfl
    · rfl

/-- C209, where mounting the bands again at the cut changes nothing and the first piece does not stop exactly at the end of the whole: when a whole
simulation ends, its visits are those of the first piece followed by those of the second, and all objects are left in the same state. -/
theorem C209_pieces_partial (E : Env W V C B) (K : Contract E) (cfg : Cfg) (hl : cfg.visitLimit = none) (hb : 0 < cfg.startSize) (ha : 0 < cfg.appendSize)
    (hstep : 0 ≤ cfg.stepNone) (w : W) (h0 : 0 ≤ cfg.simStart.getD (E.clock w)) (part : ℚ) (hpart : part ≤ cfg.duration)
    (n n1 : ℕ) (whole first : St W V) (h : run E cfg n w = .finished whole) (h1 : run E { cfg with duration := part } n1 w = .finished first)
    (hm : mountNow E first.w = first.w) (hne : E.clock first.w ≠ cfg.simStart.getD (E.clock w) + cfg.duration) :
    ∃ n2 second, run E { cfg with simStart := none, duration := cfg.simStart.getD (E.clock w) + cfg.duration - E.clock first.w } n2 first.w = .finished second ∧
      whole.result = first.result ++ second.result ∧ whole.w = second.w := by
  have hs : start E cfg w = later (cfg.simStart.getD (E.clock w) + cfg.duration) (start (V := V) E { cfg with duration := part } w) := by
    unfold start
    cases cfg.simStart <;> rfl
  have hclock : E.clock (start (V := V) E { cfg with duration := part } w).w = cfg.simStart.getD (E.clock w) := by
    unfold start
    cases cfg.simStart with
    | none => exact mountNow_clock K _
    | some m => exact (mountNow_clock K _).trans (K.set _ _)
  have hmjd : (start (V := V) E { cfg with duration := part } w).mjd = cfg.simStart.getD (E.clock w) := by
    unfold start
    cases cfg.simStart <;> rfl
  have hend : (start (V := V) E { cfg with duration := part } w).endMjd = cfg.simStart.getD (E.clock w) + part := by
    unfold start
    cases cfg.simStart <;> rfl
  have hok : PieceOK E (start (V := V) E { cfg with duration := part } w) :=
    ⟨⟨[], cfg.startSize, hb, by simp [start], rfl⟩, by rw [hclock]; show (-1 : ℚ) ≤ _; linarith, Or.inl (by rw [hmjd, hclock]), by rw [hclock]; linarith⟩
  unfold run at h h1 ⊢
  rw [loop_timing] at h1
  rw [hs] at h
  have hle : (start (V := V) E { cfg with duration := part } w).endMjd ≤ cfg.simStart.getD (E.clock w) + cfg.duration := by rw [hend]; linarith
  generalize cfg.simStart.getD (E.clock w) + cfg.duration = e at hs h hne hle ⊢
  have hs2 : start (V := V) E { cfg with simStart := none, duration := e - E.clock first.w } first.w =
      ⟨first.w, E.clock first.w, e, -1, List.replicate cfg.startSize none, 0, 0⟩ := by
    unfold start
    simp only [hm]
    congr 1
    ring
  rw [hs2]
  obtain ⟨p, q⟩ := PieceOK.loop K hl ha hstep n1 hle hok h1 h
  obtain ⟨l, k, hk, r1, r2⟩ := p.rows
  have hres : first.result = l.map some := by
    unfold St.result
    rw [r1, r2, List.take_left' (by simp)]
  rcases q with ⟨q1, rfl⟩ | ⟨q1, m, q2⟩
  · refine ⟨0, ⟨first.w, E.clock first.w, e, -1, List.replicate cfg.startSize none, 0, 0⟩, ?_, ?_, rfl⟩
    · unfold loop
      rw [if_neg (not_lt.2 q1.le)]
    · show first.result = _
      simp [St.result]
  · have htwin : Twin E l (later e first) ⟨first.w, E.clock first.w, e, -1, List.replicate cfg.startSize none, 0, 0⟩ := by
      refine ⟨rfl, rfl, ⟨[], k, cfg.startSize, hk, hb, by simpa using r1, by simpa using r2, by simp, rfl⟩, Or.inr ⟨p.flush, p.low⟩, ?_⟩
      dsimp only
      rcases q1 with q1 | ⟨q1, q3⟩
      · rw [q1]
      · exact ⟨fun _ => lt_of_le_of_ne q3 hne, fun _ => q1⟩
    obtain ⟨r', f, t⟩ := htwin.loop K hl ha hstep m q2
    refine ⟨m, r', ?_, ?_, t.w.symm⟩
    · rw [loop_timing]; exact f
    · rw [hres]; exact t.result

/-- Two pieces: the first ends during a step without visits, the second after a rejected visit. -/
def pieceActs : ToyW := ⟨0, [.ok (1/4), .nothing, .ok (1/8), .reject (1/8), .ok (1/2), .ok 1], 0⟩

example : (run toySim { duration := 1, startSize := 1, appendSize := 1, stepNone := 360 } 9 pieceActs).summary = ("finished", [some 0, some 1, some 2]) ∧
    (run toySim { duration := 3/8, startSize := 1, appendSize := 1, stepNone := 360 } 9 pieceActs).summary = ("finished", [some 0]) ∧
    (run toySim { duration := 1/2, startSize := 1, appendSize := 1, stepNone := 360 } 9
      (run toySim { duration := 3/8, startSize := 1, appendSize := 1, stepNone := 360 } 9 pieceActs).st.w).summary = ("finished", [some 1, some 2]) := by
  decide +kernel

/-- The hypotheses on the cut hold here: mounting changes nothing, and the clock is at 1/2. -/
example : (∀ w, mountNow toySim w = w) ∧
    toySim.clock (run toySim { duration := 3/8, startSize := 1, appendSize := 1, stepNone := 360 } 9 pieceActs).st.w = 1/2 :=
  ⟨fun _ => rfl, by decide +kernel⟩

/-! ### Where pieces differ from the whole -/

/-- An observatory that makes half-day visits, with `BandSchedUzy` in dark time: clock, count of swaps, mounted bands. -/
structure UzyW where
  clock : ℚ
  swaps : ℕ
  mounted : List String

/-- Each visit tells which bands are mounted. -/
def uzySim : Sim.Env UzyW (List String) (List String) (List String) where
  clock w := w.clock
  setClock w x := { w with clock := x }
  conds w := (w, w.mounted)
  hasConds _ := true
  check w _ := (w, true)
  update w _ := w
  request w _ := (w, some w.mounted)
  observe w v := ({ w with clock := w.clock + 1/8 }, some v, false)
  overhead w _ := (w, 0)
  add w _ := w
  bandAdd w _ := w
  flush w := w
  bands w c := ({ w with swaps := (Bands.uzy 40 w.swaps 10 c).1 }, (Bands.uzy 40 w.swaps 10 c).2)
  mount w b := { w with mounted := b }

/-- C209 fails with the band scheduler that alternates: at the start of the second piece, within a night, it mounts the other bands. -/
theorem C209_bands_violated :
    (run uzySim { duration := 1/2, startSize := 9 } 9 ⟨0, 0, []⟩).summary =
      ("finished", [some ["u", "g", "r", "i", "y"], some ["u", "g", "r", "i", "y"], some ["u", "g", "r", "i", "y"], some ["u", "g", "r", "i", "y"]]) ∧
    (run uzySim { duration := 1/4, startSize := 9 } 9 ⟨0, 0, []⟩).summary =
      ("finished", [some ["u", "g", "r", "i", "y"], some ["u", "g", "r", "i", "y"]]) ∧
    (run uzySim { duration := 1/4, startSize := 9 } 9 (run uzySim { duration := 1/4, startSize := 9 } 9 ⟨0, 0, []⟩).st.w).summary =
      ("finished", [some ["u", "g", "r", "i", "z"], some ["u", "g", "r", "i", "z"]]) := by
  decide +kernel

/-- C209 fails when the first piece stops exactly at the end: one simulation makes a last request there, the second piece does not begin. -/
theorem C209_end_violated :
    (run toySim { duration := 1, startSize := 9, stepNone := 1440 } 9 ⟨0, [.nothing, .ok (1/8)], 0⟩).summary = ("finished", [some 0]) ∧
    (run toySim { duration := 1/2, startSize := 9, stepNone := 1440 } 9 ⟨0, [.nothing, .ok (1/8)], 0⟩).summary = ("finished", []) ∧
    (run toySim { duration := 0, startSize := 9, stepNone := 1440 } 9
      (run toySim { duration := 1/2, startSize := 9, stepNone := 1440 } 9 ⟨0, [.nothing, .ok (1/8)], 0⟩).st.w).summary = ("finished", []) := by
  decide +kernel

/-- A whole simulation may give up where pieces go on: the second piece has forgotten that a visit was just rejected. -/
theorem C209_reject_violated :
    (run toySim { duration := 2, startSize := 9 } 9 ⟨0, [.reject 1, .reject 0, .ok 1], 0⟩).summary = ("gave up", []) ∧
    (run toySim { duration := 1, startSize := 9 } 9 ⟨0, [.reject 1, .reject 0, .ok 1], 0⟩).summary = ("finished", []) ∧
    (run toySim { duration := 1, startSize := 9 } 9 (run toySim { duration := 1, startSize := 9 } 9 ⟨0, [.reject 1, .reject 0, .ok 1], 0⟩).st.w).summary =
      ("finished", [some 0]) := by
  decide +kernel

end Verif
