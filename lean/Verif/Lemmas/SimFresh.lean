import Verif.Lemmas.SimClock

/-! The calls just before a request, and the mounting of bands. -/

namespace Verif.Sim
variable {W V C B : Type} {E : Env W V C B}

/-- Is the call a request? -/
def Ev.isRequest : Ev V C B → Bool
  | .request .. => true
  | _ => false

/-- Every request in the record comes just after a conditions check or update. -/
def FreshOK (l : List (Ev V C B)) : Prop :=
  ∀ pre t a r post, l = pre ++ .request t a r :: post → EndsFresh pre t

theorem FreshOK.append {l seg : List (Ev V C B)} (h : FreshOK l) (hs : ∀ e ∈ seg, e.isRequest = false) :
    FreshOK (l ++ seg) := by
  intro pre t a r post heq
  rw [List.append_eq_append_iff] at heq
  rcases heq with ⟨k, hk1, hk2⟩ | ⟨k, hk1, hk2⟩
  · have := hs (.request t a r) (by rw [hk2]; simp)
    simp [Ev.isRequest] at this
  · cases k with
    | nil =>
      simp at hk2
      have := hs (.request t a r) (by rw [← hk2]; simp)
      simp [Ev.isRequest] at this
    | cons e k =>
      rw [List.cons_append, List.cons.injEq] at hk2
      rw [← hk2.1] at hk1
      exact h pre t a r k hk1

theorem FreshOK.request {l : List (Ev V C B)} {t a : ℚ} {r : Option V} (h : FreshOK l) (he : EndsFresh l t) :
    FreshOK (l ++ [.request t a r]) := by
  intro pre t' a' r' post heq
  rcases List.eq_nil_or_concat post with hnil | ⟨L, b, hL⟩
  · subst hnil
    have := List.append_inj' heq rfl
    obtain ⟨h1, h2⟩ := this
    injection h2 with h2
    injection h2 with h2 h3
    subst h1 h2
    exact he
  · subst hL
    have h3 : l ++ [Ev.request t a r] = (pre ++ .request t' a' r' :: L) ++ [b] := by
      rw [heq]; simp
    have := List.append_inj' h3 rfl
    exact h pre t' a' r' L this.1

theorem Quiet.fresh {w w' : W × List (Ev V C B)} (hq : Quiet w w') (h : FreshOK w.2) : FreshOK w'.2 := by
  obtain ⟨seg, hs, hq⟩ := hq
  rw [hs]
  refine h.append fun e he => ?_
  have := hq e he
  cases e <;> simp_all [Ev.quiet, Ev.isRequest]

variable (K : Contract E)
include K

theorem updateNow_ends (w : W × List (Ev V C B)) : EndsFresh (updateNow E.recorded w).2 (E.clock w.1) := by
  right
  refine ⟨w.2, (E.conds w.1).2, ?_⟩
  show (w.2 ++ [Ev.conds _ _]) ++ [Ev.update (E.clock (E.conds w.1).1) _] = _
  rw [K.conds]; simp [Env.recorded]

theorem refresh_ends (cfg : Cfg) (w : W × List (Ev V C B)) :
    EndsFresh (refresh E.recorded cfg w).2 (E.clock w.1) := by
  unfold refresh
  have hu : ∀ w : W × List (Ev V C B), E.clock (updateNow E.recorded w).1 = E.clock w.1 :=
    fun w => updateNow_clock (recorded_contract K) w
  set a := (if E.recorded.hasConds w then (w, false) else (updateNow E.recorded w, true)) with ha
  have h1 : E.clock a.1.1 = E.clock w.1 := by
    rw [ha]; split_ifs
    · rfl
    · exact hu w
  have hk : E.clock (E.recorded.check a.1 (E.recorded.clock a.1)).1.1 = E.clock w.1 := (K.check _ _).trans h1
  have hl : (E.recorded.check a.1 (E.recorded.clock a.1)).1.2 =
      a.1.2 ++ [.check (E.clock a.1.1) (E.clock a.1.1) (E.recorded.check a.1 (E.recorded.clock a.1)).2] := rfl
  set k := E.recorded.check a.1 (E.recorded.clock a.1)
  set b := (if k.2 then (k.1, a.2) else (updateNow E.recorded k.1, true)) with hb
  have h3 : EndsFresh b.1.2 (E.clock w.1) ∧ E.clock b.1.1 = E.clock w.1 := by
    rw [hb]; split_ifs with hh
    · refine ⟨Or.inl ⟨a.1.2, ?_⟩, hk⟩
      show k.1.2 = _
      rw [hl, h1, hh]
    · refine ⟨?_, (hu _).trans hk⟩
      rw [← hk]; exact updateNow_ends K _
  show EndsFresh (if cfg.updateEvery && !b.2 then updateNow E.recorded b.1 else b.1).2 _
  split_ifs
  · rw [← h3.2]; exact updateNow_ends K _
  · exact h3.1

theorem pass_fresh {cfg : Cfg} {s : St (W × List (Ev V C B)) V} (h : FreshOK s.w.2) :
    FreshOK (pass E.recorded cfg s).st.w.2 := by
  have hq := refresh_quiet E cfg s.w
  have h1 := hq.fresh h
  have hclk : E.clock (refresh E.recorded cfg s.w).1 = E.clock s.w.1 :=
    refresh_clock (recorded_contract K) cfg s.w
  have he := refresh_ends K cfg s.w
  rw [← hclk] at he
  set w1 := refresh E.recorded cfg s.w with hw1
  clear_value w1
  have hend : ∀ nn (s : St (W × List (Ev V C B)) V), FreshOK s.w.2 → FreshOK (endOfPass E.recorded cfg nn s).st.w.2 := by
    intro nn s hs
    rw [endOfPass_st]
    cases nn
    · exact hs
    · exact (mountNow_quiet E _).fresh hs
  rcases pass_shape E cfg s w1 hw1.symm with ⟨u, hu, hp⟩ | ⟨u, v, x, v', nn, hu, hx, hp⟩ | ⟨u, v, x, nn, hu, hx, hp⟩
  · rw [hp]
    have h2 := h1.request (a := E.clock w1.1) (r := none) he
    have hq2 := fun (w : W × List (Ev V C B)) =>
      (setClock_quiet E w (E.recorded.clock w + cfg.step)).trans (updateNow_quiet E _)
    unfold skipPass
    dsimp only
    split_ifs
    · exact (hq2 _).fresh h2
    · exact (hq2 _).fresh h2
  · rw [hp]
    have h2 := (h1.request (a := E.clock w1.1) (r := some v) he).append
      (seg := [.observe (E.clock u) v (E.clock x) (some v') nn]) (by simp [Ev.isRequest])
    set w2 : W × List (Ev V C B) := (x, w1.2 ++ [Ev.request (E.clock w1.1) (E.clock w1.1) (some v)] ++
        [Ev.observe (E.clock u) v (E.clock x) (some v') nn])
    have h3 : FreshOK (addOverhead E.recorded cfg w2 v').2 := (addOverhead_quiet E cfg w2 v').fresh h2
    have h4 := h3.append (seg := [.add (E.clock (addOverhead E.recorded cfg w2 v').1) v']) (by simp [Ev.isRequest])
    unfold completedPass
    dsimp only
    cases store cfg s.buf s.counter v' with
    | none => exact h4
    | some b =>
      exact hend nn _ (h4.append (seg := [.bandAdd _ v']) (by simp [Ev.isRequest]))
  · rw [hp]
    have h2 := (h1.request (a := E.clock w1.1) (r := some v) he).append
      (seg := [.observe (E.clock u) v (E.clock x) none nn]) (by simp [Ev.isRequest])
    unfold rejectedPass
    dsimp only
    split_ifs
    · exact h2
    · exact hend nn _ (h2.append (seg := [.flush _]) (by simp [Ev.isRequest]))

/-! ### Mounting -/

omit K in
/-- After each observation that started a new night, before the next request, the record
ends with the bands being mounted: stated on what follows the observation. -/
def MountOK (l : List (Ev V C B)) : Prop :=
  ∀ pre t v a r post, l = pre ++ .observe t v a r true :: post →
    (∃ p t' c b q, post = p ++ [.conds t' c, .bands t' c b, .mount t' b] ++ q ∧ ∀ e ∈ p, e.isRequest = false)

omit K in
/-- Is the call an observation that starts a new night? -/
def Ev.isNight : Ev V C B → Bool
  | .observe _ _ _ _ true => true
  | _ => false

omit K in
theorem MountOK.append {l seg : List (Ev V C B)} (h : MountOK l) (hs : ∀ e ∈ seg, e.isNight = false) :
    MountOK (l ++ seg) := by
  intro pre t v a r post heq
  rw [List.append_eq_append_iff] at heq
  rcases heq with ⟨k, hk1, hk2⟩ | ⟨k, hk1, hk2⟩
  · have := hs (.observe t v a r true) (by rw [hk2]; simp)
    simp [Ev.isNight] at this
  · cases k with
    | nil =>
      simp at hk2
      have := hs (.observe t v a r true) (by rw [← hk2]; simp)
      simp [Ev.isNight] at this
    | cons e k =>
      rw [List.cons_append, List.cons.injEq] at hk2
      rw [← hk2.1] at hk1
      obtain ⟨p, t', c, b, q, hq, hp⟩ := h pre t v a r k hk1
      exact ⟨p, t', c, b, q ++ seg, by rw [hk2.2, hq]; simp, hp⟩

omit K in
theorem Quiet.mountOK {w w' : W × List (Ev V C B)} (hq : Quiet w w') (h : MountOK w.2) : MountOK w'.2 := by
  obtain ⟨seg, hs, hq⟩ := hq
  rw [hs]
  refine MountOK.append h fun e he => ?_
  have := hq e he
  cases e with
  | observe => simp [Ev.quiet] at this
  | _ => rfl

omit K in
theorem mountNow_log (w : W × List (Ev V C B)) (K : Contract E) : ∃ c b, (mountNow E.recorded w).2 =
    w.2 ++ [.conds (E.clock w.1) c, .bands (E.clock w.1) c b, .mount (E.clock w.1) b] := by
  refine ⟨(E.conds w.1).2, (E.bands (E.conds w.1).1 (E.conds w.1).2).2, ?_⟩
  show ((w.2 ++ [Ev.conds _ _]) ++ [Ev.bands (E.clock (E.conds w.1).1) _ _]) ++
    [Ev.mount (E.clock (E.bands (E.conds w.1).1 (E.conds w.1).2).1) _] = _
  rw [K.bands, K.conds]
  simp [Env.recorded]

/-- From a record that is fine, one pass's calls after the observation `e`, then the end of the
pass. -/
theorem endOfPass_mountOK {cfg : Cfg} {nn : Bool} {s : St (W × List (Ev V C B)) V} {l seg : List (Ev V C B)}
    {t a : ℚ} {v : V} {r : Option V} (h : MountOK l) (hlog : s.w.2 = l ++ .observe t v a r nn :: seg)
    (hseg : ∀ e ∈ seg, e.isNight = false ∧ e.isRequest = false) :
    MountOK (endOfPass E.recorded cfg nn s).st.w.2 := by
  rw [endOfPass_st]
  cases nn
  · simp only [Bool.false_eq_true, if_false]
    rw [hlog]
    refine MountOK.append h fun e he => ?_
    rcases List.mem_cons.1 he with rfl | he
    · rfl
    · exact (hseg e he).1
  · simp only [if_true]
    obtain ⟨c, b, hm⟩ := mountNow_log s.w K
    intro pre t0 v0 a0 r0 post heq
    have heq2 : l ++ (.observe t v a r true :: (seg ++ [.conds (E.clock s.w.1) c, .bands (E.clock s.w.1) c b,
        .mount (E.clock s.w.1) b])) = pre ++ .observe t0 v0 a0 r0 true :: post := by
      rw [← heq]
      show _ = (mountNow E.recorded s.w).2
      rw [hm, hlog]; simp
    rw [List.append_eq_append_iff] at heq2
    rcases heq2 with ⟨k, hk1, hk2⟩ | ⟨k, hk1, hk2⟩
    · cases k with
      | nil =>
        simp only [List.nil_append, List.cons.injEq] at hk2
        refine ⟨seg, E.clock s.w.1, c, b, [], ?_, fun e he => (hseg e he).2⟩
        rw [← hk2.2]; simp
      | cons e k =>
        rw [List.cons_append, List.cons.injEq] at hk2
        have hmem : (.observe t0 v0 a0 r0 true : Ev V C B) ∈ seg ++ [.conds (E.clock s.w.1) c, .bands (E.clock s.w.1) c b,
            .mount (E.clock s.w.1) b] := by rw [hk2.2]; simp
        rcases List.mem_append.1 hmem with hmem | hmem
        · have := (hseg _ hmem).1
          simp [Ev.isNight] at this
        · simp at hmem
    · cases k with
      | nil =>
        simp only [List.nil_append, List.cons.injEq] at hk2
        refine ⟨seg, E.clock s.w.1, c, b, [], ?_, fun e he => (hseg e he).2⟩
        rw [hk2.2]; simp
      | cons e k =>
        rw [List.cons_append, List.cons.injEq] at hk2
        rw [← hk2.1] at hk1
        obtain ⟨p, t', c', b', q, hq, hp⟩ := h pre t0 v0 a0 r0 k hk1
        exact ⟨p, t', c', b', q ++ .observe t v a r true :: (seg ++ [.conds (E.clock s.w.1) c,
          .bands (E.clock s.w.1) c b, .mount (E.clock s.w.1) b]), by rw [hk2.2, hq]; simp only [List.append_assoc], hp⟩

theorem pass_mountOK {cfg : Cfg} {s s' : St (W × List (Ev V C B)) V} (h : MountOK s.w.2)
    (hs' : pass E.recorded cfg s = .again s' ∨ pass E.recorded cfg s = .brk s') :
    MountOK s'.w.2 := by
  have hst : (pass E.recorded cfg s).st = s' := by rcases hs' with h | h <;> rw [h] <;> rfl
  rw [← hst]
  have hq := refresh_quiet E cfg s.w
  have h1 : MountOK (refresh E.recorded cfg s.w).2 := hq.mountOK h
  set w1 := refresh E.recorded cfg s.w with hw1
  clear_value w1
  rcases pass_shape E cfg s w1 hw1.symm with ⟨u, hu, hp⟩ | ⟨u, v, x, v', nn, hu, hx, hp⟩ | ⟨u, v, x, nn, hu, hx, hp⟩
  · rw [hp]
    have h2 : MountOK (w1.2 ++ [.request (E.clock w1.1) (E.clock w1.1) none]) :=
      h1.append (by simp [Ev.isNight])
    have hq2 := fun (w : W × List (Ev V C B)) =>
      (setClock_quiet E w (E.recorded.clock w + cfg.step)).trans (updateNow_quiet E _)
    unfold skipPass
    dsimp only
    split_ifs
    · exact (hq2 _).mountOK h2
    · exact (hq2 _).mountOK h2
  · rw [hp] at hs' ⊢
    have h2 : MountOK (w1.2 ++ [.request (E.clock w1.1) (E.clock w1.1) (some v)]) :=
      h1.append (by simp [Ev.isNight])
    unfold completedPass at hs' ⊢
    dsimp only at hs' ⊢
    have hov : ∃ seg, (addOverhead E.recorded cfg (x, w1.2 ++ [Ev.request (E.clock w1.1) (E.clock w1.1) (some v)] ++
        [Ev.observe (E.clock u) v (E.clock x) (some v') nn]) v').2 =
        w1.2 ++ [Ev.request (E.clock w1.1) (E.clock w1.1) (some v)] ++
        [Ev.observe (E.clock u) v (E.clock x) (some v') nn] ++ seg ∧ ∀ e ∈ seg, e.isNight = false ∧ e.isRequest = false := by
      unfold addOverhead
      split_ifs
      · refine ⟨[.overhead (E.clock x) v' (E.overhead x v').2, .setClock (E.clock (E.overhead x v').1)
          (E.clock (E.overhead x v').1 + (E.overhead x v').2 / 86400)
          (E.clock (E.setClock (E.overhead x v').1 (E.clock (E.overhead x v').1 + (E.overhead x v').2 / 86400)))], ?_, ?_⟩
        · simp [Env.recorded]
        · simp [Ev.isNight, Ev.isRequest]
      · exact ⟨[], by simp, by simp⟩
    obtain ⟨seg, hlog, hseg⟩ := hov
    cases hstore : store cfg s.buf s.counter v' with
    | none => rw [hstore] at hs'; simp at hs'
    | some b =>
      dsimp only
      refine endOfPass_mountOK K h2 (t := E.clock u) (v := v) (a := E.clock x) (r := some v')
        (seg := seg ++ [.add (E.clock (addOverhead E.recorded cfg (x, w1.2 ++
            [Ev.request (E.clock w1.1) (E.clock w1.1) (some v)] ++
            [Ev.observe (E.clock u) v (E.clock x) (some v') nn]) v').1) v',
          .bandAdd (E.clock (E.add (addOverhead E.recorded cfg (x, w1.2 ++
            [Ev.request (E.clock w1.1) (E.clock w1.1) (some v)] ++
            [Ev.observe (E.clock u) v (E.clock x) (some v') nn]) v').1 v')) v']) (nn := nn) ?_ ?_
      · show (E.recorded.bandAdd (E.recorded.add _ v') v').2 = _
        set w3 := addOverhead E.recorded cfg (x, w1.2 ++ [Ev.request (E.clock w1.1) (E.clock w1.1) (some v)] ++
          [Ev.observe (E.clock u) v (E.clock x) (some v') nn]) v'
        show (w3.2 ++ [Ev.add (E.clock w3.1) v']) ++ [Ev.bandAdd (E.clock (E.add w3.1 v')) v'] = _
        rw [hlog]
        simp only [List.append_assoc, List.cons_append, List.nil_append]
      · intro e he
        rcases List.mem_append.1 he with he | he
        · exact hseg e he
        · simp at he
          rcases he with rfl | rfl <;> exact ⟨rfl, rfl⟩
  · rw [hp] at hs' ⊢
    have h2 : MountOK (w1.2 ++ [.request (E.clock w1.1) (E.clock w1.1) (some v)]) :=
      h1.append (by simp [Ev.isNight])
    unfold rejectedPass at hs' ⊢
    dsimp only at hs' ⊢
    split_ifs at hs' ⊢ with hc
    · simp at hs'
    · refine endOfPass_mountOK K h2 (t := E.clock u) (v := v) (a := E.clock x) (r := none)
        (seg := [.flush (E.clock x)]) (nn := nn) ?_ ?_
      · simp [Env.recorded]
      · simp [Ev.isNight, Ev.isRequest]

omit K in
theorem pass_extends (E : Env W V C B) (cfg : Cfg) (s : St (W × List (Ev V C B)) V) :
    ∃ seg, (pass E.recorded cfg s).st.w.2 = s.w.2 ++ seg := by
  obtain ⟨g1, hg1, -⟩ := refresh_quiet E cfg s.w
  have hend : ∀ nn (s : St (W × List (Ev V C B)) V), ∃ seg, (endOfPass E.recorded cfg nn s).st.w.2 = s.w.2 ++ seg := by
    intro nn s
    rw [endOfPass_st]
    cases nn
    · exact ⟨[], by simp⟩
    · obtain ⟨g, hg, -⟩ := mountNow_quiet E s.w
      exact ⟨g, hg⟩
  rcases pass_shape E cfg s _ rfl with ⟨u, hu, hp⟩ | ⟨u, v, x, v', nn, hu, hx, hp⟩ | ⟨u, v, x, nn, hu, hx, hp⟩
  · rw [hp]
    unfold skipPass
    dsimp only
    have hq2 := fun (w : W × List (Ev V C B)) =>
      (setClock_quiet E w (E.recorded.clock w + cfg.step)).trans (updateNow_quiet E _)
    split_ifs
    all_goals
      obtain ⟨g, hg, -⟩ := hq2 (u, (refresh E.recorded cfg s.w).2 ++ [Ev.request
        (E.clock (refresh E.recorded cfg s.w).1) (E.clock (refresh E.recorded cfg s.w).1) none])
      refine ⟨g1 ++ ([Ev.request (E.clock (refresh E.recorded cfg s.w).1)
        (E.clock (refresh E.recorded cfg s.w).1) none] ++ g), ?_⟩
      refine hg.trans ?_
      dsimp only
      rw [hg1]
      simp only [List.append_assoc]
  · rw [hp]
    unfold completedPass
    dsimp only
    obtain ⟨g, hg, -⟩ := addOverhead_quiet E cfg (x, (refresh E.recorded cfg s.w).2 ++ [Ev.request
        (E.clock (refresh E.recorded cfg s.w).1) (E.clock (refresh E.recorded cfg s.w).1) (some v)] ++
        [Ev.observe (E.clock u) v (E.clock x) (some v') nn]) v'
    set w3 := addOverhead E.recorded cfg (x, (refresh E.recorded cfg s.w).2 ++ [Ev.request
        (E.clock (refresh E.recorded cfg s.w).1) (E.clock (refresh E.recorded cfg s.w).1) (some v)] ++
        [Ev.observe (E.clock u) v (E.clock x) (some v') nn]) v'
    have h3 : ∃ seg, w3.2 = s.w.2 ++ seg := by
      rw [hg]
      dsimp only
      rw [hg1]
      simp only [List.append_assoc]
      exact ⟨_, rfl⟩
    obtain ⟨g3, h3⟩ := h3
    cases store cfg s.buf s.counter v' with
    | none =>
      refine ⟨g3 ++ [.add (E.clock w3.1) v'], ?_⟩
      show w3.2 ++ [.add (E.clock w3.1) v'] = _
      rw [h3, List.append_assoc]
    | some b =>
      obtain ⟨g4, h4⟩ := hend nn { s with w := E.recorded.bandAdd (E.recorded.add w3 v') v', buf := b, counter := s.counter + 1 }
      refine ⟨g3 ++ [.add (E.clock w3.1) v'] ++ [.bandAdd (E.clock (E.add w3.1 v')) v'] ++ g4, ?_⟩
      refine h4.trans ?_
      show ((w3.2 ++ [.add (E.clock w3.1) v']) ++ [.bandAdd (E.clock (E.add w3.1 v')) v']) ++ g4 = _
      rw [h3]
      simp only [List.append_assoc]
  · rw [hp]
    unfold rejectedPass
    dsimp only
    split_ifs
    · show ∃ seg, (refresh E.recorded cfg s.w).2 ++ [Ev.request _ _ (some v)] ++ [Ev.observe _ v _ none nn] = _
      rw [hg1]
      simp only [List.append_assoc]
      exact ⟨_, rfl⟩
    · obtain ⟨g4, h4⟩ := hend nn { s with w := E.recorded.flush (x, (refresh E.recorded cfg s.w).2 ++ [Ev.request
          (E.clock (refresh E.recorded cfg s.w).1) (E.clock (refresh E.recorded cfg s.w).1) (some v)] ++
          [Ev.observe (E.clock u) v (E.clock x) none nn]), lastFlush := E.clock (E.flush x) }
      refine ⟨g1 ++ [Ev.request (E.clock (refresh E.recorded cfg s.w).1) (E.clock (refresh E.recorded cfg s.w).1) (some v)] ++
        [Ev.observe (E.clock u) v (E.clock x) none nn] ++ [.flush (E.clock x)] ++ g4, ?_⟩
      refine h4.trans ?_
      show (((refresh E.recorded cfg s.w).2 ++ [_] ++ [_]) ++ [Ev.flush (E.clock x)]) ++ g4 = _
      rw [hg1]
      simp only [List.append_assoc]

end Verif.Sim
