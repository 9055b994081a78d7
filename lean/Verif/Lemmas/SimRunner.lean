import Verif.Spec.SimRunner
import Mathlib.Tactic.Linarith
import Mathlib.Tactic.Ring
import Mathlib.Tactic.SplitIfs

/-!
What each part of the simulation loop adds to the record of calls.
-/

namespace Verif.Sim

variable {W V C B : Type}

/-- Which calls say nothing about visits. -/
def Ev.quiet : Ev V C B → Bool
  | .request .. | .observe .. | .add .. | .bandAdd .. | .flush .. => false
  | _ => true

section quiet
variable (l seg : List (Ev V C B)) (h : ∀ e ∈ seg, e.quiet = true)
include h
theorem completedOf_quiet : completedOf (l ++ seg) = completedOf l := by
  unfold completedOf
  rw [List.filterMap_append, (List.filterMap_eq_nil_iff (l := seg)).2, List.append_nil]
  intro e he; have := h e he; cases e <;> simp_all [Ev.quiet]
theorem toldOf_quiet : toldOf (l ++ seg) = toldOf l := by
  unfold toldOf
  rw [List.filterMap_append, (List.filterMap_eq_nil_iff (l := seg)).2, List.append_nil]
  intro e he; have := h e he; cases e <;> simp_all [Ev.quiet]
theorem bandToldOf_quiet : bandToldOf (l ++ seg) = bandToldOf l := by
  unfold bandToldOf
  rw [List.filterMap_append, (List.filterMap_eq_nil_iff (l := seg)).2, List.append_nil]
  intro e he; have := h e he; cases e <;> simp_all [Ev.quiet]
theorem rejectedAt_quiet : rejectedAt (l ++ seg) = rejectedAt l := by
  unfold rejectedAt
  rw [List.filterMap_append, (List.filterMap_eq_nil_iff (l := seg)).2, List.append_nil]
  intro e he; have := h e he; cases e <;> simp_all [Ev.quiet]
theorem flushedAt_quiet : flushedAt (l ++ seg) = flushedAt l := by
  unfold flushedAt
  rw [List.filterMap_append, (List.filterMap_eq_nil_iff (l := seg)).2, List.append_nil]
  intro e he; have := h e he; cases e <;> simp_all [Ev.quiet]
end quiet

/-- From `w` to `w'` only calls that say nothing about visits were made. -/
def Quiet (w w' : W × List (Ev V C B)) : Prop :=
  ∃ seg, w'.2 = w.2 ++ seg ∧ ∀ e ∈ seg, e.quiet = true

theorem Quiet.refl (w : W × List (Ev V C B)) : Quiet w w := ⟨[], by simp, by simp⟩
theorem Quiet.trans {a b c : W × List (Ev V C B)} (h : Quiet a b) (k : Quiet b c) : Quiet a c := by
  obtain ⟨s, hs, hs'⟩ := h; obtain ⟨t, ht, ht'⟩ := k
  refine ⟨s ++ t, by rw [ht, hs, List.append_assoc], fun e he => ?_⟩
  rcases List.mem_append.1 he with h | h
  · exact hs' e h
  · exact ht' e h
theorem Quiet.one {w : W × List (Ev V C B)} {u : W} {e : Ev V C B} (h : e.quiet = true) :
    Quiet w (u, w.2 ++ [e]) := ⟨[e], rfl, by simpa using h⟩

theorem Quiet.completed {a b : W × List (Ev V C B)} (h : Quiet a b) : completedOf b.2 = completedOf a.2 := by
  obtain ⟨s, hs, h⟩ := h; rw [hs]; exact completedOf_quiet _ _ h
theorem Quiet.told {a b : W × List (Ev V C B)} (h : Quiet a b) : toldOf b.2 = toldOf a.2 := by
  obtain ⟨s, hs, h⟩ := h; rw [hs]; exact toldOf_quiet _ _ h
theorem Quiet.bandTold {a b : W × List (Ev V C B)} (h : Quiet a b) : bandToldOf b.2 = bandToldOf a.2 := by
  obtain ⟨s, hs, h⟩ := h; rw [hs]; exact bandToldOf_quiet _ _ h
theorem Quiet.rejected {a b : W × List (Ev V C B)} (h : Quiet a b) : rejectedAt b.2 = rejectedAt a.2 := by
  obtain ⟨s, hs, h⟩ := h; rw [hs]; exact rejectedAt_quiet _ _ h
theorem Quiet.flushed {a b : W × List (Ev V C B)} (h : Quiet a b) : flushedAt b.2 = flushedAt a.2 := by
  obtain ⟨s, hs, h⟩ := h; rw [hs]; exact flushedAt_quiet _ _ h

variable (E : Env W V C B)

theorem updateNow_quiet (w : W × List (Ev V C B)) : Quiet w (updateNow E.recorded w) :=
  (Quiet.one (e := .conds _ _) rfl).trans (Quiet.one (e := .update _ _) rfl)

theorem mountNow_quiet (w : W × List (Ev V C B)) : Quiet w (mountNow E.recorded w) :=
  ((Quiet.one (e := .conds _ _) rfl).trans (Quiet.one (e := .bands _ _ _) rfl)).trans
    (Quiet.one (e := .mount _ _) rfl)

theorem setClock_quiet (w : W × List (Ev V C B)) (x : ℚ) : Quiet w (E.recorded.setClock w x) :=
  Quiet.one (e := .setClock _ _ _) rfl

theorem refresh_quiet (cfg : Cfg) (w : W × List (Ev V C B)) : Quiet w (refresh E.recorded cfg w) := by
  unfold refresh
  set a := (if E.recorded.hasConds w then (w, false) else (updateNow E.recorded w, true)) with ha
  have h1 : Quiet w a.1 := by
    rw [ha]; split_ifs
    · exact Quiet.refl w
    · exact updateNow_quiet E w
  have h2 : Quiet a.1 (E.recorded.check a.1 (E.recorded.clock a.1)).1 := Quiet.one (e := .check _ _ _) rfl
  set k := E.recorded.check a.1 (E.recorded.clock a.1)
  set b := (if k.2 then (k.1, a.2) else (updateNow E.recorded k.1, true)) with hb
  have h3 : Quiet k.1 b.1 := by
    rw [hb]; split_ifs
    · exact Quiet.refl _
    · exact updateNow_quiet E _
  have h4 := (h1.trans h2).trans h3
  show Quiet w (if cfg.updateEvery && !b.2 then updateNow E.recorded b.1 else b.1)
  split_ifs
  · exact h4.trans (updateNow_quiet E _)
  · exact h4

theorem addOverhead_quiet (cfg : Cfg) (w : W × List (Ev V C B)) (v : V) :
    Quiet w (addOverhead E.recorded cfg w v) := by
  unfold addOverhead
  split_ifs
  · exact (Quiet.one (e := .overhead _ _ _) rfl).trans (setClock_quiet E _ _)
  · exact Quiet.refl w

/-- The state in which a pass ends. -/
def Pass.st : Pass W V → St W V
  | .again s | .brk s | .gaveUp s | .indexError s => s
/-- The state in which a run ends. -/
def Out.st : Out W V → St W V
  | .finished s | .gaveUp s | .indexError s | .running s => s

section
variable {E}
theorem endOfPass_st (cfg : Cfg) (nn : Bool) (s : St W V) :
    (endOfPass E cfg nn s).st =
      { s with w := if nn then mountNow E s.w else s.w,
               mjd := E.clock (if nn then mountNow E s.w else s.w) } := by
  unfold endOfPass
  cases cfg.visitLimit with
  | none => rfl
  | some n =>
    dsimp only
    by_cases h : (s.counter : ℤ) = n <;> simp [h, Pass.st]

/-- An invariant of a pass is an invariant of the loop. `P` holds between passes, `Q` where
the loop stops. -/
theorem loop_inv {cfg : Cfg} {P : St W V → Prop} {Q : Out W V → Prop}
    (hagain : ∀ s s', P s → s.mjd < s.endMjd → pass E cfg s = .again s' → P s')
    (hbrk : ∀ s s', P s → s.mjd < s.endMjd → pass E cfg s = .brk s' → Q (.finished s'))
    (hgave : ∀ s s', P s → s.mjd < s.endMjd → pass E cfg s = .gaveUp s' → Q (.gaveUp s'))
    (hidx : ∀ s s', P s → s.mjd < s.endMjd → pass E cfg s = .indexError s' → Q (.indexError s'))
    (hend : ∀ s, P s → ¬ s.mjd < s.endMjd → Q (.finished s))
    (hfuel : ∀ s, P s → s.mjd < s.endMjd → Q (.running s))
    (fuel : ℕ) (s : St W V) (h : P s) : Q (loop E cfg fuel s) := by
  induction fuel generalizing s with
  | zero =>
    unfold loop
    split_ifs with hm
    · exact hfuel s h hm
    · exact hend s h hm
  | succ n ih =>
    unfold loop
    split_ifs with hm
    · cases hp : pass E cfg s with
      | again s' => exact ih s' (hagain s s' h hm hp)
      | brk s' => exact hbrk s s' h hm hp
      | gaveUp s' => exact hgave s s' h hm hp
      | indexError s' => exact hidx s s' h hm hp
    · exact hend s h hm

theorem store_spec (cfg : Cfg) (done : List V) (k : ℕ) (v : V) :
    (store cfg (done.map some ++ List.replicate k none) done.length v =
      if k = 0 then none
      else if k = 1 then some ((done ++ [v]).map some ++ List.replicate cfg.appendSize none)
      else some ((done ++ [v]).map some ++ List.replicate (k - 1) none)) := by
  unfold store
  rcases k with _ | k
  · simp
  · have hset : (done.map some ++ List.replicate (k + 1) none).set done.length (some v) =
        (done ++ [v]).map some ++ List.replicate k none := by
      rw [List.set_append_right _ _ (by simp)]
      simp [List.replicate_succ]
    rw [hset]
    rcases k with _ | k
    · simp
    · simp
end

end Verif.Sim

namespace Verif.Sim
variable {W V C B : Type} (E : Env W V C B)

/-- The three ways a pass can go. -/
theorem pass_shape (cfg : Cfg) (s : St (W × List (Ev V C B)) V) (w1 : W × List (Ev V C B))
    (hw : refresh E.recorded cfg s.w = w1) :
    (∃ u, E.request w1.1 (E.clock w1.1) = (u, none) ∧
      pass E.recorded cfg s = skipPass E.recorded cfg
        { s with w := (u, w1.2 ++ [.request (E.clock w1.1) (E.clock w1.1) none]) }) ∨
    (∃ u v x v' nn, E.request w1.1 (E.clock w1.1) = (u, some v) ∧ E.observe u v = (x, some v', nn) ∧
      pass E.recorded cfg s = completedPass E.recorded cfg nn
        { s with w := (x, w1.2 ++ [.request (E.clock w1.1) (E.clock w1.1) (some v)] ++
          [.observe (E.clock u) v (E.clock x) (some v') nn]) } v') ∨
    (∃ u v x nn, E.request w1.1 (E.clock w1.1) = (u, some v) ∧ E.observe u v = (x, none, nn) ∧
      pass E.recorded cfg s = rejectedPass E.recorded cfg nn
        { s with w := (x, w1.2 ++ [.request (E.clock w1.1) (E.clock w1.1) (some v)] ++
          [.observe (E.clock u) v (E.clock x) none nn]) }) := by
  unfold pass
  rw [hw]
  have hr : E.recorded.request w1 (E.recorded.clock w1) =
      (((E.request w1.1 (E.clock w1.1)).1, w1.2 ++ [.request (E.clock w1.1) (E.clock w1.1)
        (E.request w1.1 (E.clock w1.1)).2]), (E.request w1.1 (E.clock w1.1)).2) := rfl
  dsimp only
  rw [hr]
  rcases hq : E.request w1.1 (E.clock w1.1) with ⟨u, _ | v⟩
  · exact Or.inl ⟨u, rfl, rfl⟩
  · right
    dsimp only
    have ho : ∀ l, E.recorded.observe (u, l) v =
        (((E.observe u v).1, l ++ [.observe (E.clock u) v (E.clock (E.observe u v).1) (E.observe u v).2.1 (E.observe u v).2.2]),
          (E.observe u v).2) := fun _ => rfl
    rw [ho]
    rcases hx : E.observe u v with ⟨x, _ | v', nn⟩
    · exact Or.inr ⟨u, v, x, nn, rfl, hx, rfl⟩
    · exact Or.inl ⟨u, v, x, v', nn, rfl, hx, rfl⟩

section proj
variable (l : List (Ev V C B))
@[simp] theorem completedOf_append (k : List (Ev V C B)) : completedOf (l ++ k) = completedOf l ++ completedOf k := by
  simp [completedOf]
@[simp] theorem toldOf_append (k : List (Ev V C B)) : toldOf (l ++ k) = toldOf l ++ toldOf k := by
  simp [toldOf]
@[simp] theorem bandToldOf_append (k : List (Ev V C B)) : bandToldOf (l ++ k) = bandToldOf l ++ bandToldOf k := by
  simp [bandToldOf]
@[simp] theorem rejectedAt_append (k : List (Ev V C B)) : rejectedAt (l ++ k) = rejectedAt l ++ rejectedAt k := by
  simp [rejectedAt]
@[simp] theorem flushedAt_append (k : List (Ev V C B)) : flushedAt (l ++ k) = flushedAt l ++ flushedAt k := by
  simp [flushedAt]
end proj

/-- Bookkeeping invariant between passes. -/
def Books (cfg : Cfg) (s : St (W × List (Ev V C B)) V) : Prop :=
  (∃ k, s.buf = (completedOf s.w.2).map some ++ List.replicate k none ∧
    (0 < cfg.startSize → 0 < cfg.appendSize → 0 < k)) ∧
  s.counter = (completedOf s.w.2).length ∧ toldOf s.w.2 = completedOf s.w.2 ∧
  bandToldOf s.w.2 = completedOf s.w.2

theorem Books.of_quiet {cfg : Cfg} {s s' : St (W × List (Ev V C B)) V} (h : Books cfg s)
    (hq : Quiet s.w s'.w) (hb : s'.buf = s.buf) (hc : s'.counter = s.counter) : Books cfg s' := by
  unfold Books at *
  rw [hq.completed, hq.told, hq.bandTold, hb, hc]
  exact h

theorem endOfPass_books {cfg : Cfg} {nn : Bool} {s : St (W × List (Ev V C B)) V} (h : Books cfg s) :
    Books cfg (endOfPass E.recorded cfg nn s).st := by
  rw [endOfPass_st]
  refine h.of_quiet ?_ rfl rfl
  cases nn
  · exact Quiet.refl _
  · exact mountNow_quiet E _

theorem Books.congr_log {cfg : Cfg} {s s' : St (W × List (Ev V C B)) V} (h : Books cfg s)
    (h1 : completedOf s'.w.2 = completedOf s.w.2) (h2 : toldOf s'.w.2 = toldOf s.w.2)
    (h3 : bandToldOf s'.w.2 = bandToldOf s.w.2)
    (hb : s'.buf = s.buf) (hc : s'.counter = s.counter) : Books cfg s' := by
  unfold Books at *
  rw [h1, h2, h3, hb, hc]
  exact h

/-- A pass keeps the books, except when the row cannot be stored. -/
theorem pass_books (cfg : Cfg) (s : St (W × List (Ev V C B)) V) (h : Books cfg s) :
    Books cfg (pass E.recorded cfg s).st ∨
    ((∃ s', pass E.recorded cfg s = .indexError s') ∧ ¬ (0 < cfg.startSize ∧ 0 < cfg.appendSize)) := by
  have hq := refresh_quiet E cfg s.w
  have h1 : Books cfg { s with w := refresh E.recorded cfg s.w } := h.of_quiet hq rfl rfl
  rcases pass_shape E cfg s _ rfl with ⟨u, hu, hp⟩ | ⟨u, v, x, v', nn, hu, hx, hp⟩ | ⟨u, v, x, nn, hu, hx, hp⟩
  · left
    rw [hp]
    have h2 : Books cfg { s with w := (u, (refresh E.recorded cfg s.w).2 ++
        [Ev.request (E.clock (refresh E.recorded cfg s.w).1) (E.clock (refresh E.recorded cfg s.w).1) none]) } := by
      refine h1.congr_log ?_ ?_ ?_ rfl rfl <;> simp [completedOf, toldOf, bandToldOf]
    unfold skipPass
    dsimp only
    have hq2 := fun (w : W × List (Ev V C B)) => (setClock_quiet E w (E.recorded.clock w + cfg.step)).trans (updateNow_quiet E _)
    split_ifs
    · exact h2.of_quiet (hq2 _) rfl rfl
    · exact h2.of_quiet (hq2 _) rfl rfl
  · rw [hp]
    unfold completedPass
    dsimp only
    obtain ⟨⟨k, hbuf, hk⟩, hcnt, htold, hbt⟩ := h1
    dsimp only at hbuf hcnt htold hbt
    rw [hbuf, hcnt, store_spec]
    by_cases hk0 : k = 0
    · right
      simp only [hk0, if_true]
      refine ⟨⟨_, rfl⟩, fun hh => ?_⟩
      have := hk hh.1 hh.2
      omega
    · left
      set w2 : W × List (Ev V C B) := (x, (refresh E.recorded cfg s.w).2 ++
        [.request (E.clock (refresh E.recorded cfg s.w).1) (E.clock (refresh E.recorded cfg s.w).1) (some v)] ++
        [.observe (E.clock u) v (E.clock x) (some v') nn]) with hw2
      have hov := addOverhead_quiet E cfg w2 v'
      set w3 := addOverhead E.recorded cfg w2 v'
      have c3 : completedOf w3.2 = completedOf (refresh E.recorded cfg s.w).2 ++ [v'] := by
        rw [hov.completed, hw2]; simp [completedOf]
      have t3 : toldOf w3.2 = completedOf (refresh E.recorded cfg s.w).2 := by
        rw [hov.told, hw2, ← htold]; simp [toldOf]
      have b3 : bandToldOf w3.2 = completedOf (refresh E.recorded cfg s.w).2 := by
        rw [hov.bandTold, hw2, ← hbt]; simp [bandToldOf]
      have hlog : (E.recorded.bandAdd (E.recorded.add w3 v') v').2 =
          w3.2 ++ [.add (E.clock w3.1) v'] ++ [.bandAdd (E.clock (E.add w3.1 v')) v'] := rfl
      have c4 : completedOf (E.recorded.bandAdd (E.recorded.add w3 v') v').2 =
          completedOf (refresh E.recorded cfg s.w).2 ++ [v'] := by
        rw [hlog, completedOf_append, completedOf_append, c3]; simp [completedOf]
      have t4 : toldOf (E.recorded.bandAdd (E.recorded.add w3 v') v').2 =
          completedOf (refresh E.recorded cfg s.w).2 ++ [v'] := by
        rw [hlog, toldOf_append, toldOf_append, t3]; simp [toldOf]
      have b4 : bandToldOf (E.recorded.bandAdd (E.recorded.add w3 v') v').2 =
          completedOf (refresh E.recorded cfg s.w).2 ++ [v'] := by
        rw [hlog, bandToldOf_append, bandToldOf_append, b3]; simp [bandToldOf]
      by_cases hk1 : k = 1
      · simp only [hk1, if_true]
        refine endOfPass_books E ⟨⟨cfg.appendSize, ?_, fun _ h => h⟩, ?_, ?_, ?_⟩
        · simp only [c4]
        · simp only [c4]; simp
        · rw [t4, c4]
        · rw [b4, c4]
      · simp only [hk0, hk1, if_false]
        refine endOfPass_books E ⟨⟨k - 1, ?_, fun _ _ => by omega⟩, ?_, ?_, ?_⟩
        · simp only [c4]
        · simp only [c4]; simp
        · rw [t4, c4]
        · rw [b4, c4]
  · left
    rw [hp]
    have h2 : Books cfg { s with w := (x, (refresh E.recorded cfg s.w).2 ++
        [.request (E.clock (refresh E.recorded cfg s.w).1) (E.clock (refresh E.recorded cfg s.w).1) (some v)] ++
        [.observe (E.clock u) v (E.clock x) none nn]) } := by
      refine h1.congr_log ?_ ?_ ?_ rfl rfl <;> simp [completedOf, toldOf, bandToldOf]
    unfold rejectedPass
    split_ifs
    · exact h2
    · refine endOfPass_books E (h2.congr_log ?_ ?_ ?_ rfl rfl) <;>
        simp [Env.recorded, completedOf, toldOf, bandToldOf]

theorem start_books (cfg : Cfg) (w : W) :
    Books cfg (start (V := V) E.recorded cfg (w, [])) := by
  have hq : Quiet ((w, []) : W × List (Ev V C B)) (start (V := V) E.recorded cfg (w, [])).w := by
    unfold start
    cases cfg.simStart with
    | none => exact mountNow_quiet E _
    | some m => exact (setClock_quiet E _ m).trans (mountNow_quiet E _)
  refine ⟨⟨cfg.startSize, ?_, fun h _ => h⟩, ?_, ?_, ?_⟩
  · rw [hq.completed]; simp [completedOf, start]
  · rw [hq.completed]; simp [completedOf, start]
  · rw [hq.completed, hq.told]; simp [completedOf, toldOf]
  · rw [hq.completed, hq.bandTold]; simp [completedOf, bandToldOf]

end Verif.Sim
