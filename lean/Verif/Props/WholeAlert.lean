import Verif.Lemmas.Cause
import Verif.Props.WholeLong
import Verif.Props.WholeToo

/-!
Property C245: in a simulation, the visits for targets of opportunity are for alerts that have been announced, as planned and in their windows.
-/

namespace Verif

open Whole Core

section
variable {C B T A H K : Type}

/-- The alert is announced at the time: three days long unless it says otherwise. -/
def AnnouncedAt (a : Too.Alert) (t : ℚ) : Prop := a.start < t ∧ t < a.start + a.duration.getD 3

/-- The columns of a row that matter here. -/
def alertRow (e : Script.Entry) : String × ℚ × ℚ × String × ℚ × ℚ × ℚ := (e.note, e.ra, e.dec, e.band, e.mjd, e.tol, e.flush)

/-- The row of the script was planned for an alert when that was announced, before `bar`. -/
def PlannedRow (cfg : Too.Cfg) (as : List Too.Alert) (bar : ℚ) (e : Script.Entry) : Prop :=
  ∃ a ∈ as, Followed cfg a ∧ ∃ t ≤ bar, AnnouncedAt a t ∧ ∃ e0, ToPlan cfg a t e0 ∧ ∃ j, alertRow e = alertRow { e0 with note := Script.tag e0.note j }

/-- Rows of the script and those kept from the last questions. -/
structure RowsPlanned (cfg : Too.Cfg) (as : List Too.Alert) (bar : ℚ) (s : Script.St) : Prop where
  rows : ∀ e ∈ s.script, PlannedRow cfg as bar e
  obs : ∀ e ∈ s.obs, PlannedRow cfg as bar e ∧ InPlan (planOf e) s.lastMjd
  rough : ∀ e ∈ s.rough, PlannedRow cfg as bar e ∧ InPlan (planOf e) s.lastRough

/-- Detailers of the script keep these columns. -/
def KeepsRows (g : Script.Cfg) : Prop := ∀ l, ∀ e ∈ g.detail l, ∃ e' ∈ l, alertRow e' = alertRow e

theorem planOf_of_row {e e' : Script.Entry} (h : alertRow e' = alertRow e) : planOf e' = planOf e := by
  unfold alertRow at h
  simp only [Prod.mk.injEq] at h
  unfold planOf
  simp only [Prod.mk.injEq]
  exact ⟨h.1, h.2.2.2.2.1, h.2.2.2.2.2.1, h.2.2.2.2.2.2⟩

theorem PlannedRow.congr {cfg : Too.Cfg} {as : List Too.Alert} {bar : ℚ} {e e' : Script.Entry} (h : alertRow e' = alertRow e) (hp : PlannedRow cfg as bar e') :
    PlannedRow cfg as bar e := by
  obtain ⟨a, ha, hf, t, ht, hw, e0, h0, j, hj⟩ := hp
  exact ⟨a, ha, hf, t, ht, hw, e0, h0, j, h ▸ hj⟩

theorem PlannedRow.later {cfg : Too.Cfg} {as : List Too.Alert} {x y : ℚ} {e : Script.Entry} (hxy : x ≤ y) (hp : PlannedRow cfg as x e) : PlannedRow cfg as y e := by
  obtain ⟨a, ha, hf, t, ht, h⟩ := hp
  exact ⟨a, ha, hf, t, ht.trans hxy, h⟩

theorem RowsPlanned.later {cfg : Too.Cfg} {as : List Too.Alert} {x y : ℚ} {s : Script.St} (hxy : x ≤ y) (h : RowsPlanned cfg as x s) : RowsPlanned cfg as y s :=
  ⟨fun e he => (h.rows e he).later hxy, fun e he => ⟨(h.obs e he).1.later hxy, (h.obs e he).2⟩, fun e he => ⟨(h.rough e he).1.later hxy, (h.rough e he).2⟩⟩

theorem RowsPlanned.gen {cfg : Too.Cfg} {as : List Too.Alert} {bar : ℚ} {g : Script.Cfg} (hg : KeepsRows g) {s : Script.St} (h : RowsPlanned cfg as bar s) (c : Script.Cond) :
    RowsPlanned cfg as bar (Script.gen g s c).1 ∧ ∀ e ∈ (Script.gen g s c).2, PlannedRow cfg as bar e ∧ InPlan (planOf e) c.mjd := by
  have hc : ∀ e ∈ Script.checkList g s c, PlannedRow cfg as bar e ∧ InPlan (planOf e) c.mjd :=
    fun e he => ⟨h.rows e (checkList_plan g s c e he).1, (checkList_plan g s c e he).2⟩
  have hr : (Script.genRough g s c).1.script = s.script
      ∧ (∀ e ∈ (Script.genRough g s c).1.rough, PlannedRow cfg as bar e ∧ InPlan (planOf e) (Script.genRough g s c).1.lastRough)
      ∧ ∀ e ∈ (Script.genRough g s c).2, PlannedRow cfg as bar e ∧ InPlan (planOf e) c.mjd := by
    unfold Script.genRough
    by_cases h1 : s.lastRough = c.mjd
    · rw [if_pos h1]
      exact ⟨rfl, h.rough, fun e he => h1 ▸ h.rough e he⟩
    · rw [if_neg h1]
      dsimp only
      split_ifs
      · exact ⟨rfl, fun e he => absurd he List.not_mem_nil, fun e he => absurd he List.not_mem_nil⟩
      · exact ⟨rfl, fun e he => absurd he List.not_mem_nil, fun e he => absurd he List.not_mem_nil⟩
      · exact ⟨rfl, hc, hc⟩
  unfold Script.gen
  by_cases h1 : s.lastMjd = c.mjd
  · rw [if_pos h1]
    exact ⟨h, fun e he => h1 ▸ h.obs e he⟩
  · rw [if_neg h1]
    dsimp only
    have hN : ∀ e ∈ (if (Script.genRough g s c).2 = [] then (Script.genRough g s c).2 else g.detail (Script.genRough g s c).2),
        PlannedRow cfg as bar e ∧ InPlan (planOf e) c.mjd := by
      intro e he
      split_ifs at he
      · exact hr.2.2 e he
      · obtain ⟨e', h2, h3⟩ := hg _ e he
        exact ⟨(hr.2.2 e' h2).1.congr h3, planOf_of_row h3 ▸ (hr.2.2 e' h2).2⟩
    exact ⟨⟨by show ∀ e ∈ (Script.genRough g s c).1.script, _; rw [hr.1]; exact h.rows, hN, hr.2.1⟩, hN⟩

theorem markFirst_alert (m : String) (es : List Script.Entry) : ∀ e ∈ Script.markFirst m es, ∃ e' ∈ es, alertRow e' = alertRow e := by
  induction es with
  | nil => intro e he; cases he
  | cons a es ih =>
    unfold Script.markFirst
    split_ifs
    · intro e he
      rcases List.mem_cons.1 he with rfl | he'
      · exact ⟨a, List.mem_cons_self, rfl⟩
      · exact ⟨e, List.mem_cons_of_mem _ he', rfl⟩
    · intro e he
      rcases List.mem_cons.1 he with rfl | he'
      · exact ⟨_, List.mem_cons_self, rfl⟩
      · obtain ⟨e', h1, h2⟩ := ih e he'
        exact ⟨e', List.mem_cons_of_mem _ h1, h2⟩

theorem planned_event {cfg : Too.Cfg} {as : List Too.Alert} {bar now : ℚ} {idOf : String → Option ℕ} {s s' : Too.S} {a : Too.Alert} (ha : a ∈ as) (hw : AnnouncedAt a now)
    (hnow : now ≤ bar) (h : Too.newEvent cfg idOf now s a = some s') (hp : RowsPlanned cfg as bar s.base) : RowsPlanned cfg as bar s'.base := by
  obtain ⟨n1, n2⟩ := newEvent_spec h
  obtain ⟨k1, k2, k3, k4, -⟩ := newEvent_kept h
  refine ⟨?_, by rw [k1, k3]; exact hp.obs, by rw [k2, k4]; exact hp.rough⟩
  by_cases hf : Followed cfg a ∧ a.id ∉ s.seen
  · obtain ⟨-, added, e2, e3⟩ := n1 hf
    rw [e2]
    intro e he
    rcases List.mem_append.1 he with he | he
    · exact hp.rows e (List.mem_filter.1 he).1
    · obtain ⟨p, hp', k, rfl⟩ := tagged_mem e3 he
      exact ⟨a, ha, hf.1, now, hnow, hw, p, (C85_plan_partial cfg now a (fun _ => hw.1) p).1 hp', k, rfl⟩
  · rw [(n2 hf).2]
    exact fun e he => hp.rows e (List.mem_filter.1 he).1

theorem planned_update {cfg : Too.Cfg} {as : List Too.Alert} {bar now : ℚ} {idOf : String → Option ℕ} {s s' : Too.S} (hnow : now ≤ bar)
    (h : Too.update cfg idOf now s (Too.serve as now) = some s') (hp : RowsPlanned cfg as bar s.base) : RowsPlanned cfg as bar s'.base := by
  have hmem : ∀ l, Too.serve as now = some l → ∀ a ∈ l, a ∈ as ∧ AnnouncedAt a now := by
    intro l hl a ha
    have : l = as.filter (fun a => decide (a.start < now) && decide (now < a.stop)) := by
      unfold Too.serve Too.orNone at hl
      split at hl
      · cases hl
      · rename_i e; cases hl; rfl
    rw [this] at ha
    obtain ⟨h1, h2⟩ := List.mem_filter.1 ha
    simp only [Bool.and_eq_true, decide_eq_true_eq] at h2
    refine ⟨h1, h2.1, ?_⟩
    have h3 := h2.2
    unfold Too.Alert.stop at h3
    cases hd : a.duration <;> rw [hd] at h3 <;> exact h3
  cases hs : Too.serve as now with
  | none => rw [hs] at h; cases h; exact hp
  | some l =>
    rw [hs] at h
    have hm := hmem l hs
    clear hs hmem
    change l.foldlM (Too.newEvent cfg idOf now) s = some s' at h
    induction l generalizing s with
    | nil => cases h; exact hp
    | cons a l ih =>
      rw [List.foldlM_cons] at h
      cases h1 : Too.newEvent cfg idOf now s a with
      | none => rw [h1] at h; cases h
      | some s1 =>
        rw [h1] at h
        obtain ⟨m1, m2⟩ := hm a List.mem_cons_self
        exact ih (planned_event m1 m2 hnow h1 hp) (fun a' h' => hm a' (List.mem_cons_of_mem _ h')) h

/-- Why a visit for an alert is asked for by the time `y`: the alert was announced, by then, at a time `t1` and is of a type to follow; the visit is one of those that are
planned for it, with the band, the position and the note of one of the times of the plan; and it was asked for at a time `t` that is around that time of the plan, which
counts from the alert or, if the survey is told so, from the time of the announcement. -/
def ForAlert (cfg : Too.Cfg) (as : List Too.Alert) (y : ℚ) (k : String × ℚ × ℚ × String) : Prop :=
  ∃ a ∈ as, Followed cfg a ∧ ∃ t1 ≤ y, AnnouncedAt a t1 ∧ ∃ (slot : ℕ) (time : ℚ) (bands : List String) (n i j : ℕ) (t : ℚ),
    cfg.times[slot]? = some time ∧ cfg.bands[slot]? = some bands ∧ cfg.nvis[slot]? = some n ∧ i < n ∧ k.2.2.2 ∈ bands ∧ Position cfg a slot i (k.2.1, k.2.2.1)
    ∧ k.1 = Script.tag (Script.cut (cfg.name ++ ", " ++ k.2.2.2 ++ ", " ++ toString a.id ++ ", i" ++ toString slot)) j
    ∧ t ≤ y ∧ (if cfg.updateMjd0 then t1 else a.start) + time - cfg.tol < t ∧ t < (if cfg.updateMjd0 then t1 else a.start) + time + cfg.flushtime

theorem PlannedRow.alert {cfg : Too.Cfg} {as : List Too.Alert} {y t : ℚ} {e : Script.Entry} (h : PlannedRow cfg as y e) (ht : t ≤ y) (hp : InPlan (planOf e) t) :
    ForAlert cfg as y (e.note, e.ra, e.dec, e.band) := by
  obtain ⟨a, ha, hf, t1, ht1, hw, e0, ⟨k, time, ex, bands, n, i, band, p, t0, g1, g2, g3, g4, g5, g6, g7, g8, g9⟩, j, hj⟩ := h
  subst g9
  unfold alertRow at hj
  simp only [Prod.mk.injEq] at hj
  obtain ⟨j1, j2, j3, j4, j5, j6, j7⟩ := hj
  have w1 : e.mjd - e.tol < t := hp.1
  have w2 : t < e.flush := hp.2
  rw [j5, j6, g8] at w1
  rw [j7, g8] at w2
  refine ⟨a, ha, hf, t1, ht1, hw, k, time, bands, n, i, j, t, g1, g2, g3, g5, ?_, ?_, ?_, ht, w1, w2⟩
  · show e.band ∈ bands
    rw [j4]; exact g6
  · show Position cfg a k i (e.ra, e.dec)
    rw [j2, j3]; exact g7
  · show e.note = _
    rw [j1]
    show Script.tag _ j = Script.tag (Script.cut (cfg.name ++ ", " ++ e.band ++ ", " ++ toString a.id ++ ", i" ++ toString k)) j
    rw [j4]

/-- What is told of surveys: those that follow alerts have the given settings and rows for alerts; nothing of others. -/
def AlertHeard (Mine : Too.Cfg → Prop) (as : List Too.Alert) (bar : ℚ) : Too.Sv ⊕ T → Prop
  | .inl s => Mine s.cfg ∧ KeepsRows s.base ∧ ∀ x, s.st = some x → RowsPlanned s.cfg as bar x.base
  | .inr _ => True

/-- The note is one that such a survey may give to a visit for an alert. -/
def AlertNote (Mine : Too.Cfg → Prop) (note : String) : Prop := ∃ cfg, Mine cfg ∧ ∃ i, NoteOf cfg note i

theorem alert_update {Mine : Too.Cfg → Prop} {as : List Too.Alert} {bar now : ℚ} (hnow : now ≤ bar) (idOf : String → Option ℕ) {s : Too.Sv}
    (h : AlertHeard (T := T) Mine as bar (.inl s)) : AlertHeard (T := T) Mine as bar (.inl (s.update idOf now (Too.serve as now))) := by
  refine ⟨h.1, h.2.1, fun x hx => ?_⟩
  obtain ⟨y, hy, hx⟩ := Option.bind_eq_some_iff.1 hx
  exact planned_update hnow hx (h.2.2 y hy)

theorem alert_gen {Mine : Too.Cfg → Prop} {as : List Too.Alert} {bar : ℚ} {s : Too.Sv} (h : AlertHeard (T := T) Mine as bar (.inl s)) (c : Script.Cond) :
    AlertHeard (T := T) Mine as bar (.inl (s.gen c).2) ∧ ∀ e ∈ (s.gen c).1, PlannedRow s.cfg as bar e ∧ InPlan (planOf e) c.mjd := by
  obtain ⟨h1, h2, h3⟩ := h
  unfold Too.Sv.gen
  split
  · exact ⟨⟨h1, h2, h3⟩, fun e he => absurd he List.not_mem_nil⟩
  · rename_i x hx
    obtain ⟨g1, g2⟩ := (h3 x hx).gen h2 c
    refine ⟨⟨h1, h2, fun y hy => ?_⟩, g2⟩
    cases hy
    exact g1

/-- Surveys that follow alerts offer visits for announced alerts only. -/
def alertCauses {E : Env C (Too.Sv ⊕ T) A} {cond : C → Script.Cond} {as : List Too.Alert} {idOf : String → Option ℕ} {value : ℚ} {other : SurveyOps C T}
    (hE : E.sv = Script.mixed (Too.ops cond (fun c => Too.serve as (E.q.mjdOf c)) idOf value) other) (htime : ∀ c, (cond c).mjd = E.q.mjdOf c) (Mine : Too.Cfg → Prop)
    (hother : ∀ s c, ∀ o ∈ (other.gen s c).1, ¬ AlertNote Mine o.schedulerNote) :
    Causes E (fun o => (o.schedulerNote, o.ra, o.dec, o.band)) (fun _ y k => AlertNote Mine k.1 → ∃ cfg, Mine cfg ∧ ForAlert cfg as y k) where
  Heard _ bar := AlertHeard Mine as bar
  later := by
    rintro hs x y (s | s) hxy h
    · exact ⟨h.1, h.2.1, fun z hz => (h.2.2 z hz).later hxy⟩
    · trivial
  reward := by
    rintro hs bar (s | s) c hle h
    · rw [hE]
      refine (alert_gen (T := T) ?_ (cond c)).1
      rw [htime]
      exact alert_update hle idOf h
    · rw [hE]; trivial
  gen := by
    rintro hs bar (s | s) c hle h
    · rw [hE]
      refine (alert_gen (T := T) (alert_gen (T := T) ?_ (cond c)).1 (cond c)).1
      rw [htime]
      exact alert_update hle idOf h
    · rw [hE]; trivial
  update := by
    rintro hs bar (s | s) c hle h
    · rw [hE]
      show AlertHeard Mine as bar (.inl (s.update idOf (cond c).mjd (Too.serve as (E.q.mjdOf c))))
      rw [htime]
      exact alert_update hle idOf h
    · rw [hE]; trivial
  hear := by
    rintro hs (s | s) o h
    · rw [hE]
      refine ⟨h.1, h.2.1, fun x hx => ?_⟩
      obtain ⟨y, hy, rfl⟩ := Option.map_eq_some_iff.1 hx
      have h3 := h.2.2 y hy
      show RowsPlanned s.cfg as o.mjd (Script.addOne s.base y.base o.schedulerNote)
      unfold Script.addOne
      split_ifs
      · refine ⟨?_, h3.obs, h3.rough⟩
        intro e he
        obtain ⟨e', h4, h5⟩ := markFirst_alert _ _ e he
        exact (h3.rows e' h4).congr h5
      · exact h3
    · rw [hE]; trivial
  cause := by
    rintro hs bar (s | s) c hle h o ho
    · refine ⟨bar, le_rfl, fun _ => ⟨s.cfg, h.1, ?_⟩⟩
      rw [hE] at ho
      have h1 : AlertHeard (T := T) Mine as bar (.inl (s.update idOf (cond c).mjd (Too.serve as (E.q.mjdOf c)))) := by
        rw [htime]; exact alert_update hle idOf h
      obtain ⟨-, g2⟩ := alert_gen (alert_gen h1 (cond c)).1 (cond c)
      obtain ⟨e, he, rfl⟩ := List.mem_map.1 ho
      have hcfg : (((s.update idOf (cond c).mjd (Too.serve as (E.q.mjdOf c))).gen (cond c)).2).cfg = s.cfg := by rw [gen_cfg]; rfl
      obtain ⟨r1, r2⟩ := g2 e he
      rw [hcfg] at r1
      exact r1.alert (t := (cond c).mjd) (by rw [htime]; exact hle) r2
    · refine ⟨_, hle, fun hn => ?_⟩
      rw [hE] at ho
      exact absurd hn (hother _ _ o ho)

/-- The settings of the surveys that follow alerts, at the start. -/
def AlertCfgs (tiers : List (List (Too.Sv ⊕ T))) (cfg : Too.Cfg) : Prop := ∃ tier ∈ tiers, ∃ s, .inl s ∈ tier ∧ s.cfg = cfg

/-- C245: every visit of a simulation that has a note of a survey that follows alerts is for an alert of a type to follow that had been announced, before the visit, in the time
of the alert; it is one of the visits planned for it, at a position of the plan and in a band of the plan, and it was asked for around its time in the plan. -/
theorem C245_alert (S : Obs.Site) (hn : Obs.Nights S.nights) (hd : Down.Ordered S.downs) (M : Obs.Kin K Obs) (hM : Obs.NonNeg M) (fuel : ℕ) {Bd : Type}
    (conds : Obs.St K → C) (mount : K → Bd → K) (E : Env C (Too.Sv ⊕ T) A) (hnow : ∀ st, E.q.mjdOf (conds st) = st.mjd)
    (cond : C → Script.Cond) (as : List Too.Alert) (idOf : String → Option ℕ) (value : ℚ) (other : SurveyOps C T)
    (hE : E.sv = Script.mixed (Too.ops cond (fun c => Too.serve as (E.q.mjdOf c)) idOf value) other) (htime : ∀ c, (cond c).mjd = E.q.mjdOf c)
    (hkey : KeptColumns E M (fun o => (o.schedulerNote, o.ra, o.dec, o.band)))
    (X : Rest H C Bd) (hX : ∀ h v, 0 ≤ (X.overhead h v).2) (cfg : Sim.Cfg) (hstep : 0 ≤ cfg.stepNone) (h1 : 0 < cfg.startSize) (h2 : 0 < cfg.appendSize) (m : ℕ)
    (w : World (Core C (Too.Sv ⊕ T) A × H) K) (hc : w.sched.1.conditions = none) (hq : w.sched.1.qm.desired = [])
    (hother : ∀ s c, ∀ o ∈ (other.gen s c).1, ¬ AlertNote (AlertCfgs w.sched.1.tiers) o.schedulerNote)
    (hnew : ∀ tier ∈ w.sched.1.tiers, ∀ s, .inl s ∈ tier → KeepsRows s.base ∧ ∃ id, s.st = some ⟨Script.init id, []⟩) :
    ∃ vs : List (Obs.Visit Obs), (Sim.run (V := Obs.Visit Obs) (env S M fuel conds mount (coreSched E X)) cfg m w).st.result = vs.map some
      ∧ ∀ v ∈ vs, AlertNote (AlertCfgs w.sched.1.tiers) v.target.schedulerNote →
        ∃ g, AlertCfgs w.sched.1.tiers g ∧ ForAlert g as (slewStart v) (v.target.schedulerNote, v.target.ra, v.target.dec, v.target.band) := by
  have key := cause_kept S hn hd M hM fuel conds mount (alertCauses hE htime (AlertCfgs w.sched.1.tiers) hother) hnow hkey X hX cfg hstep h1 h2 m w hc hq []
  obtain ⟨vs, hr, hv⟩ := key (by
    rintro tier ht (s | s) hs
    · obtain ⟨a, id, b⟩ := hnew tier ht s hs
      refine ⟨⟨tier, ht, s, hs, rfl⟩, a, fun x hx => ?_⟩
      rw [b] at hx
      cases hx
      exact ⟨fun e he => absurd he List.not_mem_nil, fun e he => absurd he List.not_mem_nil, fun e he => absurd he List.not_mem_nil⟩
    · trivial)
  refine ⟨vs, hr, ?_⟩
  intro v hmem hnote
  obtain ⟨j, hj⟩ := List.mem_iff_getElem?.1 hmem
  obtain ⟨h0, t, hp, ht, hb, -⟩ := hv j v hj
  obtain ⟨g, hg, a, ha, hf, t1, ht1, hw, slot, time, bands, n, i, l, t', q⟩ := hb hnote
  obtain ⟨q1, q2, q3, q4, q5, q6, q7, q8, q9⟩ := q
  exact ⟨g, hg, a, ha, hf, t1, ht1.trans ht, hw, slot, time, bands, n, i, l, t', q1, q2, q3, q4, q5, q6, q7, q8.trans ht, q9⟩

end

/-! ### Examples -/

/-- The alerts of the simulation: one from the start, one after a tenth of a day, one that is never announced in it. -/
def announcements : List Too.Alert := [alert 1 0 none, alert 2 (1 / 10) (some 1), alert 3 2 none]

/-- Surveys that follow the alerts that are announced, beside surveys whose visits have no notes. -/
def announceEnv : Env ToyC (Too.Sv ⊕ ToySv) Unit where
  q := toyE.q
  sv := Script.mixed (Too.ops (fun c => skyAt c.mjd) (fun c => Too.serve announcements (toyE.q.mjdOf c)) idOf0 2) plainSv
  toos := toyE.toos

/-- Notes and beginnings of the visits of a simulation. -/
def announceMade : List (Option (String × ℚ)) × Bool :=
  let o := Sim.run (V := Obs.Visit Obs) (env toySite wholeKin 20 (fun s => ⟨s.mjd, none⟩) (fun k _ => k) (coreSched announceEnv wholeRest))
    { duration := 1 / 5, startSize := 2, appendSize := 2 } 30 (alertStart [])
  (o.st.result.map fun r => r.map fun v => (v.target.schedulerNote, slewStart v), o.st.w.raised)

/-- Visits for the first two alerts, each as soon as it is announced; none for the third. -/
example : announceMade = ([some ("", 0), some ("ToO, g, 1, i0, 0", 103 / 4320), some ("ToO, r, 1, i0, 1", 103 / 2160), some ("", 103 / 1440), some ("", 103 / 1080),
    some ("ToO, g, 2, i0, 2", 103 / 864), some ("ToO, r, 2, i0, 3", 103 / 720), some ("", 721 / 4320), some ("", 103 / 540)], false) := by decide +kernel

theorem alert_starts {note : String} (h : AlertNote (AlertCfgs (alertStart []).sched.1.tiers) note) : note.toList.head? = some 'T' := by
  obtain ⟨g, ⟨tier, ht, s, hs, rfl⟩, i, band, -, k, j, rfl⟩ := h
  have ht : tier ∈ [[(.inl ⟨alertCfg, cfg0 .none [], some ⟨Script.init 0, []⟩⟩ : Too.Sv ⊕ ToySv)], [.inr ⟨[.fin 1], [{ targetId := 0, band := "y" }], none⟩]] := ht
  simp only [List.mem_cons, List.not_mem_nil, or_false] at ht
  rcases ht with rfl | rfl
  · simp only [List.mem_cons, List.not_mem_nil, or_false, Sum.inl.injEq] at hs
    subst hs
    show (Script.tag (Script.cut ("ToO" ++ ", " ++ band ++ ", " ++ toString i ++ ", i" ++ toString k)) j).toList.head? = some 'T'
    simp [Script.tag, Script.cut, String.toList_append]
  · simp at hs

/-- The assumptions of C245 are met by it, and the note of a visit is that of an alert. -/
example : announceEnv.sv = Script.mixed (Too.ops (fun c => skyAt c.mjd) (fun c => Too.serve announcements (announceEnv.q.mjdOf c)) idOf0 2) plainSv
    ∧ (∀ c : ToyC, (skyAt c.mjd).mjd = announceEnv.q.mjdOf c) ∧ KeptColumns announceEnv wholeKin (fun o => (o.schedulerNote, o.ra, o.dec, o.band))
    ∧ (∀ s c, ∀ o ∈ (plainSv.gen s c).1, ¬ AlertNote (AlertCfgs (alertStart []).sched.1.tiers) o.schedulerNote)
    ∧ (∀ tier ∈ (alertStart []).sched.1.tiers, ∀ s, .inl s ∈ tier → KeepsRows s.base ∧ ∃ id, s.st = some ⟨Script.init id, []⟩)
    ∧ AlertNote (AlertCfgs (alertStart []).sched.1.tiers) "ToO, r, 2, i0, 3" := by
  refine ⟨rfl, fun _ => rfl, ⟨fun _ _ _ => rfl, fun _ _ => rfl, fun _ _ l o ho => ⟨o, ho, rfl⟩, ?_⟩, ?_, ?_,
    ⟨alertCfg, ⟨_, List.mem_cons_self, _, List.mem_cons_self, rfl⟩, 2, "r", by decide +kernel, 0, 3, by decide +kernel⟩⟩
  · intro k t o o' h
    have h : some o = some o' := h
    cases h
    rfl
  · intro s c o ho h
    obtain ⟨o', -, rfl⟩ := List.mem_map.1 ho
    exact absurd (alert_starts h) (by show ¬ ("" : String).toList.head? = _; decide)
  · intro tier ht s hs
    have ht : tier ∈ [[(.inl ⟨alertCfg, cfg0 .none [], some ⟨Script.init 0, []⟩⟩ : Too.Sv ⊕ ToySv)], [.inr ⟨[.fin 1], [{ targetId := 0, band := "y" }], none⟩]] := ht
    simp only [List.mem_cons, List.not_mem_nil, or_false] at ht
    rcases ht with rfl | rfl
    · simp only [List.mem_cons, List.not_mem_nil, or_false, Sum.inl.injEq] at hs
      subst hs
      exact ⟨fun l e he => ⟨e, he, rfl⟩, 0, rfl⟩
    · simp at hs

end Verif
