import Verif.Lemmas.SimRunner

/-! The clock during a simulation. -/

namespace Verif.Sim
variable {W V C B : Type} {E : Env W V C B}

theorem updateNow_clock (K : Contract E) (w : W) : E.clock (updateNow E w) = E.clock w := by
  unfold updateNow; simp [K.update, K.conds]
theorem mountNow_clock (K : Contract E) (w : W) : E.clock (mountNow E w) = E.clock w := by
  unfold mountNow; simp [K.mount, K.bands, K.conds]

theorem recorded_contract (K : Contract E) : Contract E.recorded where
  set _ _ := K.set _ _
  conds _ := K.conds _
  check _ _ := K.check _ _
  update _ _ := K.update _ _
  request _ _ := K.request _ _
  observe _ _ := K.observe _ _
  overhead _ _ := K.overhead _ _
  add _ _ := K.add _ _
  bandAdd _ _ := K.bandAdd _ _
  flush _ := K.flush _
  bands _ _ := K.bands _ _
  mount _ _ := K.mount _ _

theorem refresh_clock (K : Contract E) (cfg : Cfg) (w : W) : E.clock (refresh E cfg w) = E.clock w := by
  unfold refresh
  have hu := updateNow_clock K
  have hk := K.check
  dsimp only
  cases E.hasConds w <;> simp only [Bool.false_eq_true, if_false, if_true]
  · cases (E.check (updateNow E w) (E.clock (updateNow E w))).2 <;> cases cfg.updateEvery <;> simp [hu, hk]
  · cases (E.check w (E.clock w)).2 <;> cases cfg.updateEvery <;> simp [hu, hk]

/-- The record so far is in time order and over by now. -/
def Timely (E : Env W V C B) (w : W × List (Ev V C B)) : Prop :=
  w.2.Pairwise (fun e e' => e.endTime ≤ e'.time) ∧
  ∀ e ∈ w.2, e.time ≤ e.endTime ∧ e.endTime ≤ E.clock w.1

theorem Timely.snoc {w : W × List (Ev V C B)} {u : W} {e : Ev V C B} (h : Timely E w)
    (h1 : E.clock w.1 ≤ e.time) (h2 : e.time ≤ e.endTime) (h3 : e.endTime ≤ E.clock u) :
    Timely E (u, w.2 ++ [e]) := by
  constructor
  · rw [List.pairwise_append]
    refine ⟨h.1, List.pairwise_singleton _ _, fun a ha b hb => ?_⟩
    rw [List.mem_singleton] at hb
    subst hb
    exact (h.2 a ha).2.trans h1
  · intro a ha
    rcases List.mem_append.1 ha with ha | ha
    · exact ⟨(h.2 a ha).1, (h.2 a ha).2.trans (h1.trans (h2.trans h3))⟩
    · rw [List.mem_singleton] at ha
      subst ha
      exact ⟨h2, h3⟩

variable (K : Contract E)
include K

theorem Timely.conds {w : W × List (Ev V C B)} (h : Timely E w) : Timely E (E.recorded.conds w).1 :=
  h.snoc (e := .conds _ _) le_rfl le_rfl (K.conds _).ge
theorem Timely.update {w : W × List (Ev V C B)} (c : C) (h : Timely E w) : Timely E (E.recorded.update w c) :=
  h.snoc (e := .update _ _) le_rfl le_rfl (K.update _ _).ge
theorem Timely.bands {w : W × List (Ev V C B)} (c : C) (h : Timely E w) : Timely E (E.recorded.bands w c).1 :=
  h.snoc (e := .bands _ _ _) le_rfl le_rfl (K.bands _ _).ge
theorem Timely.mount {w : W × List (Ev V C B)} (b : B) (h : Timely E w) : Timely E (E.recorded.mount w b) :=
  h.snoc (e := .mount _ _) le_rfl le_rfl (K.mount _ _).ge
theorem Timely.check {w : W × List (Ev V C B)} (x : ℚ) (h : Timely E w) : Timely E (E.recorded.check w x).1 :=
  h.snoc (e := .check _ _ _) le_rfl le_rfl (K.check _ _).ge
theorem Timely.add {w : W × List (Ev V C B)} (v : V) (h : Timely E w) : Timely E (E.recorded.add w v) :=
  h.snoc (e := .add _ _) le_rfl le_rfl (K.add _ _).ge
theorem Timely.bandAdd {w : W × List (Ev V C B)} (v : V) (h : Timely E w) : Timely E (E.recorded.bandAdd w v) :=
  h.snoc (e := .bandAdd _ _) le_rfl le_rfl (K.bandAdd _ _).ge
theorem Timely.flush {w : W × List (Ev V C B)} (h : Timely E w) : Timely E (E.recorded.flush w) :=
  h.snoc (e := .flush _) le_rfl le_rfl (K.flush _).ge
theorem Timely.overhead {w : W × List (Ev V C B)} (v : V) (h : Timely E w) : Timely E (E.recorded.overhead w v).1 :=
  h.snoc (e := .overhead _ _ _) le_rfl le_rfl (K.overhead _ _).1.ge
theorem Timely.setClock {w : W × List (Ev V C B)} (x : ℚ) (h : Timely E w) (hx : E.clock w.1 ≤ x) :
    Timely E (E.recorded.setClock w x) :=
  h.snoc (e := .setClock _ _ _) (by show _ ≤ E.clock (E.setClock _ _); rw [K.set]; exact hx) le_rfl le_rfl
theorem Timely.updateNow {w : W × List (Ev V C B)} (h : Timely E w) : Timely E (updateNow E.recorded w) :=
  (h.conds K).update K _
theorem Timely.mountNow {w : W × List (Ev V C B)} (h : Timely E w) : Timely E (mountNow E.recorded w) :=
  ((h.conds K).bands K _).mount K _

theorem Timely.refresh {w : W × List (Ev V C B)} (cfg : Cfg) (h : Timely E w) :
    Timely E (refresh E.recorded cfg w) := by
  unfold Sim.refresh
  set a := (if E.recorded.hasConds w then (w, false) else (Sim.updateNow E.recorded w, true)) with ha
  have h1 : Timely E a.1 := by
    rw [ha]; split_ifs
    · exact h
    · exact h.updateNow K
  have h2 := h1.check K (E.recorded.clock a.1)
  set k := E.recorded.check a.1 (E.recorded.clock a.1)
  set b := (if k.2 then (k.1, a.2) else (Sim.updateNow E.recorded k.1, true)) with hb
  have h3 : Timely E b.1 := by
    rw [hb]; split_ifs
    · exact h2
    · exact h2.updateNow K
  show Timely E (if cfg.updateEvery && !b.2 then Sim.updateNow E.recorded b.1 else b.1)
  split_ifs
  · exact h3.updateNow K
  · exact h3

theorem Timely.addOverhead {w : W × List (Ev V C B)} (cfg : Cfg) (v : V) (h : Timely E w) :
    Timely E (addOverhead E.recorded cfg w v) := by
  unfold Sim.addOverhead
  split_ifs
  · refine (h.overhead K v).setClock K _ ?_
    show E.clock (E.overhead w.1 v).1 ≤ E.clock (E.overhead w.1 v).1 + (E.overhead w.1 v).2 / 86400
    have := (K.overhead w.1 v).2
    linarith [div_nonneg this (by norm_num : (0:ℚ) ≤ 86400)]
  · exact h

omit K in
theorem skipsOK_append (step : ℚ) (a b : List (Ev V C B)) (ha : SkipsOK step a) (hb : SkipsOK step b) :
    SkipsOK step (a ++ b) := by
  induction a with
  | nil => exact hb
  | cons e a ih =>
    cases e with
    | request t x r =>
      cases r with
      | none =>
        obtain ⟨⟨post, hp⟩, h⟩ := ha
        exact ⟨⟨post ++ b, by rw [hp]; rfl⟩, ih h⟩
      | some v => exact ih ha
    | _ => exact ih ha

omit K in
theorem skipsOK_quiet (step : ℚ) (a : List (Ev V C B)) (h : ∀ e ∈ a, e.quiet = true) : SkipsOK step a := by
  induction a with
  | nil => trivial
  | cons e a ih =>
    have h1 := h e (by simp)
    have h2 := ih (fun e he => h e (by simp [he]))
    cases e <;> first | exact h2 | simp [Ev.quiet] at h1

/-- What a pass keeps true about times. -/
structure Timeline (E : Env W V C B) (cfg : Cfg) (s : St (W × List (Ev V C B)) V) : Prop where
  timely : Timely E s.w
  skips : SkipsOK cfg.step s.w.2
  requests : ∀ p ∈ requestsOf s.w.2, p.2 = p.1 ∧ p.1 ≤ s.endMjd
  nskip : s.nskip = skipsOf s.w.2

/-- Between passes the clock is not past the end if the loop goes on. -/
def InTime (E : Env W V C B) (s : St (W × List (Ev V C B)) V) : Prop :=
  s.mjd < s.endMjd → E.clock s.w.1 ≤ s.endMjd

omit K in
@[simp] theorem requestsOf_append (l k : List (Ev V C B)) : requestsOf (l ++ k) = requestsOf l ++ requestsOf k := by
  simp [requestsOf]
omit K in
@[simp] theorem skipsOf_append (l k : List (Ev V C B)) : skipsOf (l ++ k) = skipsOf l + skipsOf k := by
  simp [skipsOf]
omit K in
theorem requestsOf_quiet (a : List (Ev V C B)) (h : ∀ e ∈ a, e.quiet = true) : requestsOf a = [] := by
  unfold requestsOf
  rw [List.filterMap_eq_nil_iff]
  intro e he; have := h e he; cases e <;> simp_all [Ev.quiet]
omit K in
theorem skipsOf_quiet (a : List (Ev V C B)) (h : ∀ e ∈ a, e.quiet = true) : skipsOf a = 0 := by
  unfold skipsOf
  rw [List.length_eq_zero_iff, List.filter_eq_nil_iff]
  intro e he; have := h e he; cases e <;> simp_all [Ev.quiet]

omit K in
theorem Timeline.quiet {cfg : Cfg} {s s' : St (W × List (Ev V C B)) V} (h : Timeline E cfg s)
    (hq : Quiet s.w s'.w) (ht : Timely E s'.w) (he : s'.endMjd = s.endMjd) (hn : s'.nskip = s.nskip) :
    Timeline E cfg s' := by
  obtain ⟨seg, hs, hq⟩ := hq
  refine ⟨ht, ?_, ?_, ?_⟩
  · rw [hs]; exact skipsOK_append _ _ _ h.skips (skipsOK_quiet _ _ hq)
  · rw [hs, requestsOf_append, requestsOf_quiet _ hq, List.append_nil, he]; exact h.requests
  · rw [hs, skipsOf_append, skipsOf_quiet _ hq, hn]; exact h.nskip

/-- Calls other than requests (and quiet ones) leave the timeline facts. -/
theorem Timeline.seg {cfg : Cfg} {s s' : St (W × List (Ev V C B)) V} {seg : List (Ev V C B)} (h : Timeline E cfg s)
    (hs : s'.w.2 = s.w.2 ++ seg) (ht : Timely E s'.w) (hk : SkipsOK cfg.step seg)
    (hr : ∀ p ∈ requestsOf seg, p.2 = p.1 ∧ p.1 ≤ s.endMjd)
    (he : s'.endMjd = s.endMjd) (hn : s'.nskip = s.nskip + skipsOf seg) : Timeline E cfg s' := by
  refine ⟨ht, ?_, ?_, ?_⟩
  · rw [hs]; exact skipsOK_append _ _ _ h.skips hk
  · rw [hs, requestsOf_append, he]
    intro p hp
    rcases List.mem_append.1 hp with hp | hp
    · exact h.requests p hp
    · exact hr p hp
  · rw [hs, skipsOf_append, hn, h.nskip]

theorem endOfPass_timeline {cfg : Cfg} {nn : Bool} {s : St (W × List (Ev V C B)) V} (h : Timeline E cfg s) :
    Timeline E cfg (endOfPass E.recorded cfg nn s).st ∧ InTime E (endOfPass E.recorded cfg nn s).st ∧
    (endOfPass E.recorded cfg nn s).st.endMjd = s.endMjd := by
  rw [endOfPass_st]
  refine ⟨?_, fun hh => le_of_lt hh, rfl⟩
  cases nn
  · exact ⟨h.timely, h.skips, h.requests, h.nskip⟩
  · exact h.quiet (mountNow_quiet E _) (h.timely.mountNow K) rfl rfl

theorem pass_timeline {cfg : Cfg} (hstep : 0 ≤ cfg.stepNone) {s : St (W × List (Ev V C B)) V} (h : Timeline E cfg s)
    (hin : InTime E s) (hm : s.mjd < s.endMjd) :
    Timeline E cfg (pass E.recorded cfg s).st ∧
    ((∃ s', pass E.recorded cfg s = .again s') → InTime E (pass E.recorded cfg s).st) ∧
    (pass E.recorded cfg s).st.endMjd = s.endMjd := by
  have hq := refresh_quiet E cfg s.w
  have hclk : E.clock (refresh E.recorded cfg s.w).1 = E.clock s.w.1 :=
    refresh_clock (recorded_contract K) cfg s.w
  have h1 : Timeline E cfg { s with w := refresh E.recorded cfg s.w } :=
    h.quiet hq (h.timely.refresh K cfg) rfl rfl
  have hle : E.clock (refresh E.recorded cfg s.w).1 ≤ s.endMjd := by rw [hclk]; exact hin hm
  set w1 := refresh E.recorded cfg s.w with hw1
  clear_value w1
  rcases pass_shape E cfg s w1 hw1.symm with ⟨u, hu, hp⟩ | ⟨u, v, x, v', nn, hu, hx, hp⟩ | ⟨u, v, x, nn, hu, hx, hp⟩
  · have hcu : E.clock u = E.clock w1.1 := by have := K.request w1.1 (E.clock w1.1); rw [hu] at this; exact this
    have hst : 0 ≤ cfg.step := by
      unfold Cfg.step; positivity
    rw [hp]
    set w2 : W × List (Ev V C B) := (u, w1.2 ++ [.request (E.clock w1.1) (E.clock w1.1) none]) with hw2
    have t2 : Timely E w2 := h1.timely.snoc (e := .request _ _ _) le_rfl le_rfl hcu.ge
    have t3 := t2.setClock K (E.clock u + cfg.step) (by show E.clock u ≤ _; linarith)
    set w3 := E.recorded.setClock w2 (E.clock u + cfg.step) with hw3
    have hlog3 : w3.2 = w1.2 ++ [.request (E.clock w1.1) (E.clock w1.1) none,
        .setClock (E.clock w1.1) (E.clock w1.1 + cfg.step) (E.clock w1.1 + cfg.step)] := by
      have hs : E.clock (E.setClock u (E.clock u + cfg.step)) = E.clock w1.1 + cfg.step := by rw [K.set, hcu]
      show (w1.2 ++ [.request (E.clock w1.1) (E.clock w1.1) none]) ++
        [.setClock (E.clock u) (E.clock u + cfg.step) (E.clock (E.setClock u (E.clock u + cfg.step)))] = _
      rw [hs, hcu]; simp
    have hT3 : Timeline E cfg { s with w := w3, nskip := s.nskip + 1 } := by
      refine h1.seg K hlog3 t3 ?_ ?_ rfl ?_
      · exact ⟨⟨[], rfl⟩, trivial⟩
      · intro p hp
        simp [requestsOf] at hp
        subst hp
        exact ⟨rfl, hle⟩
      · simp [skipsOf]
    have hT4 : Timeline E cfg { s with w := updateNow E.recorded w3, nskip := s.nskip + 1 } :=
      hT3.quiet (updateNow_quiet E _) (t3.updateNow K) rfl rfl
    unfold skipPass
    change Timeline E cfg (if s.endMjd < E.recorded.clock (updateNow E.recorded w3) then
        Pass.brk ({ s with w := updateNow E.recorded w3, nskip := s.nskip + 1 } : St _ _)
        else Pass.again ({ s with w := updateNow E.recorded w3, nskip := s.nskip + 1 } : St _ _)).st ∧
      ((∃ s', (if s.endMjd < E.recorded.clock (updateNow E.recorded w3) then
        Pass.brk ({ s with w := updateNow E.recorded w3, nskip := s.nskip + 1 } : St _ _)
        else Pass.again ({ s with w := updateNow E.recorded w3, nskip := s.nskip + 1 } : St _ _)) = .again s') → InTime E (if s.endMjd < E.recorded.clock (updateNow E.recorded w3) then
        Pass.brk ({ s with w := updateNow E.recorded w3, nskip := s.nskip + 1 } : St _ _)
        else Pass.again ({ s with w := updateNow E.recorded w3, nskip := s.nskip + 1 } : St _ _)).st) ∧
      (if s.endMjd < E.recorded.clock (updateNow E.recorded w3) then
        Pass.brk ({ s with w := updateNow E.recorded w3, nskip := s.nskip + 1 } : St _ _)
        else Pass.again ({ s with w := updateNow E.recorded w3, nskip := s.nskip + 1 } : St _ _)).st.endMjd = s.endMjd
    by_cases hb : s.endMjd < E.recorded.clock (updateNow E.recorded w3)
    · simp only [if_pos hb]
      exact ⟨hT4, fun ⟨_, h⟩ => by simp at h, rfl⟩
    · simp only [if_neg hb]
      exact ⟨hT4, fun _ _ => not_lt.1 hb, rfl⟩
  all_goals
    have hcu : E.clock u = E.clock w1.1 := by
      have := K.request w1.1 (E.clock w1.1); rw [hu] at this; exact this
    have hcx : E.clock u ≤ E.clock x := by have := K.observe u v; rw [hx] at this; exact this
    have t2 : Timely E (u, w1.2 ++ [Ev.request (E.clock w1.1) (E.clock w1.1) (some v)]) :=
      h1.timely.snoc (e := .request _ _ _) le_rfl le_rfl hcu.ge
  · rw [hp]
    have t3 : Timely E (x, w1.2 ++ [Ev.request (E.clock w1.1) (E.clock w1.1) (some v)] ++
        [Ev.observe (E.clock u) v (E.clock x) (some v') nn]) :=
      t2.snoc (e := .observe _ _ _ _ _) le_rfl hcx le_rfl
    set w3 : W × List (Ev V C B) := (x, w1.2 ++ [.request (E.clock w1.1) (E.clock w1.1) (some v)] ++
        [.observe (E.clock u) v (E.clock x) (some v') nn]) with hw3
    have hT3 : Timeline E cfg { s with w := w3 } := by
      refine h1.seg K (seg := [.request (E.clock w1.1) (E.clock w1.1) (some v),
        .observe (E.clock u) v (E.clock x) (some v') nn]) (by simp [hw3]) t3 trivial ?_ rfl (by simp [skipsOf])
      intro p hp
      simp [requestsOf] at hp
      subst hp
      exact ⟨rfl, hle⟩
    have hT4 : Timeline E cfg { s with w := addOverhead E.recorded cfg w3 v' } :=
      hT3.quiet (addOverhead_quiet E cfg _ _) (t3.addOverhead K cfg v') rfl rfl
    set w4 := addOverhead E.recorded cfg w3 v'
    have t5 : Timely E (E.recorded.add w4 v') := hT4.timely.add K v'
    have t6 := t5.bandAdd K v'
    have hT5 : Timeline E cfg { s with w := E.recorded.add w4 v' } :=
      hT4.seg K (seg := [.add (E.clock w4.1) v']) rfl t5 trivial (by simp [requestsOf]) rfl (by simp [skipsOf])
    have hT6 : Timeline E cfg { s with w := E.recorded.bandAdd (E.recorded.add w4 v') v' } :=
      hT5.seg K (seg := [.bandAdd (E.clock (E.recorded.add w4 v').1) v']) rfl t6 trivial (by simp [requestsOf]) rfl
        (by simp [skipsOf])
    unfold completedPass
    dsimp only
    cases hstore : store cfg s.buf s.counter v' with
    | none => exact ⟨hT5, fun ⟨_, h⟩ => by simp at h, rfl⟩
    | some buf =>
      have := endOfPass_timeline K (cfg := cfg) (nn := nn)
        (s := { s with w := E.recorded.bandAdd (E.recorded.add w4 v') v', buf := buf, counter := s.counter + 1 })
        ⟨hT6.timely, hT6.skips, hT6.requests, hT6.nskip⟩
      exact ⟨this.1, fun _ => this.2.1, this.2.2⟩
  · rw [hp]
    have t3 : Timely E (x, w1.2 ++ [Ev.request (E.clock w1.1) (E.clock w1.1) (some v)] ++
        [Ev.observe (E.clock u) v (E.clock x) none nn]) :=
      t2.snoc (e := .observe _ _ _ _ _) le_rfl hcx le_rfl
    set w3 : W × List (Ev V C B) := (x, w1.2 ++ [.request (E.clock w1.1) (E.clock w1.1) (some v)] ++
        [.observe (E.clock u) v (E.clock x) none nn]) with hw3
    have hT3 : Timeline E cfg { s with w := w3 } := by
      refine h1.seg K (seg := [.request (E.clock w1.1) (E.clock w1.1) (some v),
        .observe (E.clock u) v (E.clock x) none nn]) (by simp [hw3]) t3 trivial ?_ rfl (by simp [skipsOf])
      intro p hp
      simp [requestsOf] at hp
      subst hp
      exact ⟨rfl, hle⟩
    unfold rejectedPass
    dsimp only
    split_ifs with hf
    · exact ⟨hT3, fun ⟨_, h⟩ => by simp at h, rfl⟩
    · have hT4 : Timeline E cfg { s with w := E.recorded.flush w3, lastFlush := E.recorded.clock (E.recorded.flush w3) } :=
        hT3.seg K (seg := [.flush (E.clock w3.1)]) rfl (t3.flush K) trivial (by simp [requestsOf]) rfl
          (by simp [skipsOf])
      have := endOfPass_timeline K (cfg := cfg) (nn := nn) hT4
      exact ⟨this.1, fun _ => this.2.1, this.2.2⟩

theorem start_timeline (cfg : Cfg) (w : W) :
    Timeline E cfg (start (V := V) E.recorded cfg (w, [])) ∧ InTime E (start (V := V) E.recorded cfg (w, [])) := by
  have t0 : Timely E ((w, []) : W × List (Ev V C B)) := ⟨List.Pairwise.nil, by simp⟩
  unfold start InTime
  cases hs : cfg.simStart with
  | none =>
    obtain ⟨seg, hseg, hq⟩ := mountNow_quiet E ((w, []) : W × List (Ev V C B))
    refine ⟨⟨t0.mountNow K, ?_, ?_, ?_⟩, fun h => ?_⟩
    · rw [hseg]; exact skipsOK_quiet _ _ hq
    · rw [hseg, requestsOf_append, requestsOf_quiet _ hq]; simp [requestsOf]
    · rw [hseg, skipsOf_append, skipsOf_quiet _ hq]; simp [skipsOf]
    · have : E.clock (mountNow E w) = E.clock w := mountNow_clock K w
      exact (le_of_eq this).trans (le_of_lt h)
  | some m =>
    set w1 : W × List (Ev V C B) := E.recorded.setClock (w, []) m with hw1
    have t1 : Timely E w1 := by
      refine ⟨?_, ?_⟩
      · simp [hw1, Env.recorded]
      · intro e he
        simp [hw1, Env.recorded] at he
        subst he
        exact ⟨le_rfl, le_rfl⟩
    obtain ⟨seg, hseg, hq⟩ := (setClock_quiet E ((w, []) : W × List (Ev V C B)) m).trans (mountNow_quiet E w1)
    refine ⟨⟨t1.mountNow K, ?_, ?_, ?_⟩, fun h => ?_⟩
    · rw [hseg]; exact skipsOK_quiet _ _ hq
    · rw [hseg, requestsOf_append, requestsOf_quiet _ hq]; simp [requestsOf]
    · rw [hseg, skipsOf_append, skipsOf_quiet _ hq]; simp [skipsOf]
    · have : E.clock (mountNow E (E.setClock w m)) = m := by rw [mountNow_clock K, K.set]
      exact (le_of_eq this).trans (le_of_lt h)

end Verif.Sim
