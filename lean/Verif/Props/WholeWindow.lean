import Verif.Props.WholeNight
import Verif.Props.WholeScript
import Verif.Lemmas.CoreHom

/-!
Property C224: in a simulation the visits of a script are asked for in their time windows.
-/

namespace Verif

open Whole Core

section
variable {C B Sv A H K α : Type}

/-- What surveys ask for when they have a property that all their calls keep, and which they have in the beginning. -/
theorem asked_by_reached (Bar : ℚ → Prop) (S : Obs.Site) (hn : Obs.Nights S.nights) (hd : Down.Ordered S.downs) (M : Obs.Kin K Obs) (hM : Obs.NonNeg M) (fuel : ℕ)
    (conds : Obs.St K → C) (mount : K → B → K) (E : Env C Sv A) (key : Obs → α) (hkey : KeptColumns E M key)
    (X : Rest H C B) (hX : ∀ h v, 0 ≤ (X.overhead h v).2)
    (cfg : Sim.Cfg) (hstep : 0 ≤ cfg.stepNone) (h1 : 0 < cfg.startSize) (h2 : 0 < cfg.appendSize) (n : ℕ) (w : World (Core C Sv A × H) K)
    (hw : w.sched.1.conditions = none) (hq : w.sched.1.qm.desired = []) (rule : C → α → Prop)
    (I : Sv → Prop) (hI : Stable E I) (hstart : ∀ tier ∈ w.sched.1.tiers, ∀ v ∈ tier, I v)
    (hrule : ∀ sv c, I sv → ∀ g ∈ (E.sv.gen (E.sv.reward sv c).2 c).1, rule c (key g))
    (longest over : ℚ) (hover0 : 0 ≤ over) (hlong : ∀ k o t, ∀ s ∈ (M.observe k o t).2.1, (s + (M.observe k o t).2.2) / 24 / 3600 ≤ longest)
    (hover : ∀ h v, (X.overhead h v).2 / 86400 ≤ over)
    (hbar : ∀ x, Bar x → ∀ t, x < t → t ≤ x + (over + cfg.stepNone / 60 / 24 + longest) → ¬ Obs.Open S t)
    (hraised : (Sim.run (V := Obs.Visit Obs) (env S M fuel conds mount (coreSched E X)) cfg n w).st.w.raised = false) :
    ∃ vs : List (Obs.Visit Obs), (Sim.run (V := Obs.Visit Obs) (env S M fuel conds mount (coreSched E X)) cfg n w).st.result = vs.map some
      ∧ ∀ v ∈ vs, ∃ st : Obs.St K, st.mjd ≤ v.mjd - v.slewtime / 24 / 3600
        ∧ .update st.mjd (conds st) ∈ (Sim.run (V := Obs.Visit Obs) (env S M fuel conds mount (coreSched E X)).recorded cfg n (w, [])).st.w.2
        ∧ rule (conds st) (key v.target)
        ∧ ∀ x, Bar x → x < v.mjd + v.visittime / 24 / 3600 → x < st.mjd := by
  obtain ⟨w', rfl, e1, e2⟩ := sim_only E hI S M fuel conds mount X cfg n w hstart
  rw [e1] at hraised ⊢
  rw [e2]
  obtain ⟨vs, hr, hv⟩ := asked_before_bar Bar S hn hd M hM fuel conds mount (E.only hI) key ⟨hkey.fill, hkey.note, hkey.detail, hkey.prepare⟩ X hX cfg hstep h1 h2 n w'
    hw hq rule (fun sv c _ _ _ g hg => hrule sv.1 c sv.2 g hg) longest over hover0 hlong hover hbar (by
      generalize Sim.run (V := Obs.Visit Obs) (env S M fuel conds mount (coreSched (E.only hI) X)) cfg n w' = o at hraised
      cases o <;> exact hraised)
  refine ⟨vs, ?_, ?_⟩
  · rw [← hr]
    generalize Sim.run (V := Obs.Visit Obs) (env S M fuel conds mount (coreSched (E.only hI) X)) cfg n w' = o
    cases o <;> rfl
  · intro v hvm
    obtain ⟨st, a, b, c, d⟩ := hv v hvm
    refine ⟨st, a, ?_, c, d⟩
    generalize Sim.run (V := Obs.Visit Obs) (env S M fuel conds mount (coreSched (E.only hI) X)).recorded cfg n (w', []) = o at b
    cases o <;> exact b

end

/-! ### Scripts -/

/-- The columns of a row of a script that make its window: note, time, tolerance, end. -/
def planOf (e : Script.Entry) : String × ℚ × ℚ × ℚ := (e.note, e.mjd, e.tol, e.flush)

/-- The time is in the window of a row. -/
def InPlan (p : String × ℚ × ℚ × ℚ) (t : ℚ) : Prop := p.2.1 - p.2.2.1 < t ∧ t < p.2.2.2

/-- The rows have plans from `P`, and what is kept from the last question was in its window then; detailers do not change plans. -/
structure PlansKept (P : String × ℚ × ℚ × ℚ → Prop) (s : Script.Cfg × Script.St) : Prop where
  detail : ∀ l, ∀ e ∈ s.1.detail l, ∃ e' ∈ l, planOf e' = planOf e
  rows : ∀ e ∈ s.2.script, P (planOf e)
  obs : ∀ e ∈ s.2.obs, P (planOf e) ∧ InPlan (planOf e) s.2.lastMjd
  rough : ∀ e ∈ s.2.rough, P (planOf e) ∧ InPlan (planOf e) s.2.lastRough

theorem checkList_plan (cfg : Script.Cfg) (s : Script.St) (c : Script.Cond) : ∀ e ∈ Script.checkList cfg s c, e ∈ s.script ∧ InPlan (planOf e) c.mjd := by
  have h1 : ∀ e ∈ Script.checkAltsHa c (s.script.filter (Script.inWindow c)), e ∈ s.script ∧ InPlan (planOf e) c.mjd := by
    intro e he
    unfold Script.checkAltsHa at he
    simp only [List.mem_filter] at he
    have := he.1.1.1.1.1.2
    unfold Script.inWindow at this
    simp only [Bool.and_eq_true, decide_eq_true_eq] at this
    exact ⟨he.1.1.1.1.1.1, this.1⟩
  have htr : ∀ l : List Script.Entry, ∀ e ∈ Script.truncate cfg c l, e ∈ l := by
    intro l e he
    unfold Script.truncate at he
    split at he
    · exact List.mem_of_mem_take he
    · split_ifs at he
      · exact (List.mem_insertionSort _).1 (List.mem_of_mem_take he)
      · exact he
  intro e he
  unfold Script.checkList at he
  have he := (List.mem_filter.1 (htr _ e he)).1
  split_ifs at he
  · exact h1 e (List.mem_filter.1 (List.mem_filter.1 he).1).1
  · exact h1 e (List.mem_filter.1 he).1
  · exact h1 e (List.mem_filter.1 he).1
  · exact h1 e he

theorem PlansKept.gen {P : String × ℚ × ℚ × ℚ → Prop} {cfg : Script.Cfg} {st : Script.St} (h : PlansKept P (cfg, st)) (c : Script.Cond) :
    PlansKept P (cfg, (Script.gen cfg st c).1) ∧ ∀ e ∈ (Script.gen cfg st c).2, P (planOf e) ∧ InPlan (planOf e) c.mjd := by
  have hc : ∀ e ∈ Script.checkList cfg st c, P (planOf e) ∧ InPlan (planOf e) c.mjd := fun e he => ⟨h.rows e (checkList_plan cfg st c e he).1, (checkList_plan cfg st c e he).2⟩
  have hr : (Script.genRough cfg st c).1.script = st.script
      ∧ (∀ e ∈ (Script.genRough cfg st c).1.rough, P (planOf e) ∧ InPlan (planOf e) (Script.genRough cfg st c).1.lastRough)
      ∧ ∀ e ∈ (Script.genRough cfg st c).2, P (planOf e) ∧ InPlan (planOf e) c.mjd := by
    unfold Script.genRough
    by_cases h1 : st.lastRough = c.mjd
    · rw [if_pos h1]
      exact ⟨rfl, h.rough, fun e he => h1 ▸ h.rough e he⟩
    · rw [if_neg h1]
      dsimp only
      split_ifs
      · exact ⟨rfl, fun e he => absurd he List.not_mem_nil, fun e he => absurd he List.not_mem_nil⟩
      · exact ⟨rfl, fun e he => absurd he List.not_mem_nil, fun e he => absurd he List.not_mem_nil⟩
      · exact ⟨rfl, hc, hc⟩
  unfold Script.gen
  by_cases h1 : st.lastMjd = c.mjd
  · rw [if_pos h1]
    exact ⟨h, fun e he => h1 ▸ h.obs e he⟩
  · rw [if_neg h1]
    dsimp only
    have hN : ∀ e ∈ (if (Script.genRough cfg st c).2 = [] then (Script.genRough cfg st c).2 else cfg.detail (Script.genRough cfg st c).2),
        P (planOf e) ∧ InPlan (planOf e) c.mjd := by
      intro e he
      split_ifs at he
      · exact hr.2.2 e he
      · obtain ⟨e', h2, h3⟩ := h.detail _ e he
        rw [← h3]
        exact hr.2.2 e' h2
    exact ⟨⟨h.detail, by show ∀ e ∈ (Script.genRough cfg st c).1.script, _; rw [hr.1]; exact h.rows, hN, hr.2.1⟩, hN⟩

theorem markFirst_plan (P : String × ℚ × ℚ × ℚ → Prop) (m : String) (es : List Script.Entry) (h : ∀ e ∈ es, P (planOf e)) :
    ∀ e ∈ Script.markFirst m es, P (planOf e) := by
  induction es with
  | nil => exact h
  | cons a es ih =>
    unfold Script.markFirst
    split_ifs
    · intro e he
      rcases List.mem_cons.1 he with rfl | he'
      · exact h a List.mem_cons_self
      · exact h e (List.mem_cons_of_mem _ he')
    · intro e he
      rcases List.mem_cons.1 he with rfl | he'
      · exact h _ List.mem_cons_self
      · exact ih (fun e he => h e (List.mem_cons_of_mem _ he)) e he'

section
variable {C B T A H K : Type}

/-- Scripted surveys keep their plans; nothing is said about others. -/
def SurveyPlans (P : String × ℚ × ℚ × ℚ → Prop) : (Script.Cfg × Script.St) ⊕ T → Prop
  | .inl s => PlansKept P s
  | .inr _ => True

theorem plans_stable {E : Env C ((Script.Cfg × Script.St) ⊕ T) A} {cond : C → Script.Cond} {value : ℚ} {other : SurveyOps C T}
    (hE : E.sv = Script.mixed (Script.ops cond value) other) (P : String × ℚ × ℚ × ℚ → Prop) : Stable E (SurveyPlans P) := by
  constructor
  · rintro (⟨g, s⟩ | s) c h
    · rw [hE]; exact (PlansKept.gen (P := P) h (cond c)).1
    · rw [hE]; trivial
  · rintro (⟨g, s⟩ | s) c h
    · rw [hE]; exact (PlansKept.gen (P := P) h (cond c)).1
    · rw [hE]; trivial
  · rintro (⟨g, s⟩ | s) o h
    · rw [hE]
      show PlansKept P (g, Script.addOne g s o.schedulerNote)
      have h : PlansKept P (g, s) := h
      unfold Script.addOne
      split_ifs
      · exact ⟨h.detail, markFirst_plan P _ _ h.rows, h.obs, h.rough⟩
      · exact h
    · rw [hE]; trivial
  · rintro (⟨g, s⟩ | s) l h
    · rw [hE]
      show PlansKept P (g, Script.addArray s (l.map Obs.schedulerNote))
      have h : PlansKept P (g, s) := h
      unfold Script.addArray
      split_ifs
      · exact h
      · refine ⟨h.detail, ?_, h.obs, h.rough⟩
        intro e he
        obtain ⟨e', he', rfl⟩ := List.mem_map.1 he
        have := h.rows e' he'
        split_ifs <;> exact this
    · rw [hE]; trivial
  · rintro (⟨g, s⟩ | s) c h
    · rw [hE]; exact h
    · rw [hE]; trivial

/-- C224: every visit that a simulation returns with a note that only scripts use is one of the rows of a script that the simulation was started with, with the note and the
expiry time of the row. It was asked for in the window of the row, from its time less the tolerance to its expiry, in the night in which it was made, and begun no
earlier. Missing: it may be begun after its expiry (`C224_late_violated`). -/
theorem C224_window_partial (S : Obs.Site) (hn : Obs.Nights S.nights) (hd : Down.Ordered S.downs) (M : Obs.Kin K Obs) (hM : Obs.NonNeg M) (fuel : ℕ)
    (conds : Obs.St K → C) (mount : K → B → K) (E : Env C ((Script.Cfg × Script.St) ⊕ T) A) (cond : C → Script.Cond) (value : ℚ) (other : SurveyOps C T)
    (hE : E.sv = Script.mixed (Script.ops cond value) other) (htime : ∀ st, (cond (conds st)).mjd = st.mjd)
    (scripted : String → Prop) (hother : ∀ s c, ∀ o ∈ (other.gen s c).1, ¬ scripted o.schedulerNote)
    (hkey : KeptColumns E M (fun o => (o.schedulerNote, o.flushBy)))
    (X : Rest H C B) (hX : ∀ h v, 0 ≤ (X.overhead h v).2)
    (cfg : Sim.Cfg) (hstep : 0 ≤ cfg.stepNone) (h1 : 0 < cfg.startSize) (h2 : 0 < cfg.appendSize) (n : ℕ)
    (w : World (Core C ((Script.Cfg × Script.St) ⊕ T) A × H) K)
    (hw : w.sched.1.conditions = none) (hq : w.sched.1.qm.desired = [])
    (hscript : ∀ tier ∈ w.sched.1.tiers, ∀ s, .inl s ∈ tier → (∀ l, ∀ e ∈ s.1.detail l, ∃ e' ∈ l, planOf e' = planOf e) ∧ s.2.obs = [] ∧ s.2.rough = [])
    (longest over : ℚ) (hover0 : 0 ≤ over) (hlong : ∀ k o t, ∀ s ∈ (M.observe k o t).2.1, (s + (M.observe k o t).2.2) / 24 / 3600 ≤ longest)
    (hover : ∀ h v, (X.overhead h v).2 / 86400 ≤ over)
    (hday : ∀ a ∈ S.nights, ∀ b ∈ S.nights, a.2 < b.1 → a.2 + (over + cfg.stepNone / 60 / 24 + longest) < b.1)
    (hraised : (Sim.run (V := Obs.Visit Obs) (env S M fuel conds mount (coreSched E X)) cfg n w).st.w.raised = false) :
    ∃ vs : List (Obs.Visit Obs), (Sim.run (V := Obs.Visit Obs) (env S M fuel conds mount (coreSched E X)) cfg n w).st.result = vs.map some
      ∧ ∀ v ∈ vs, scripted v.target.schedulerNote → ∃ tier ∈ w.sched.1.tiers, ∃ s, .inl s ∈ tier ∧ ∃ row ∈ s.2.script,
        row.note = v.target.schedulerNote ∧ row.flush = v.target.flushBy
        ∧ row.mjd - row.tol < v.mjd - v.slewtime / 24 / 3600
        ∧ ∃ asked, row.mjd - row.tol < asked ∧ asked < row.flush ∧ asked ≤ v.mjd - v.slewtime / 24 / 3600
          ∧ ∀ a ∈ S.nights, a.2 < v.mjd + v.visittime / 24 / 3600 → a.2 < asked := by
  let P : String × ℚ × ℚ × ℚ → Prop := fun p => ∃ tier ∈ w.sched.1.tiers, ∃ s, .inl s ∈ tier ∧ ∃ row ∈ s.2.script, planOf row = p
  obtain ⟨vs, hr, hv⟩ := asked_by_reached (fun x => ∃ a ∈ S.nights, a.2 = x) S hn hd M hM fuel conds mount E _ hkey X hX cfg hstep h1 h2 n w hw hq
    (fun c k => scripted k.1 → ∃ p, P p ∧ InPlan p (cond c).mjd ∧ p.1 = k.1 ∧ p.2.2.2 = k.2) (SurveyPlans P) (plans_stable hE P) (by
      rintro tier ht (s | s) hs
      · obtain ⟨a, b, c⟩ := hscript tier ht s hs
        refine ⟨a, fun e he => ⟨tier, ht, s, hs, e, he, rfl⟩, ?_, ?_⟩
        · rw [b]; exact fun e he => absurd he List.not_mem_nil
        · rw [c]; exact fun e he => absurd he List.not_mem_nil
      · trivial) (by
      rintro (⟨g, s⟩ | s) c h o ho hsc
      · rw [hE] at ho
        obtain ⟨e, he, rfl⟩ := List.mem_map.1 ho
        obtain ⟨a, b⟩ := (PlansKept.gen (P := P) (PlansKept.gen (P := P) h (cond c)).1 (cond c)).2 e he
        exact ⟨planOf e, a, b, rfl, rfl⟩
      · rw [hE] at ho
        exact absurd hsc (hother _ _ o ho)) longest over hover0 hlong hover (night_end_bar hn hday) hraised
  refine ⟨vs, hr, ?_⟩
  intro v hvm hsc
  obtain ⟨st, ha, -, hrule, hnight⟩ := hv v hvm
  obtain ⟨p, ⟨tier, ht, s, hs, row, hrow, rfl⟩, ⟨hp1, hp2⟩, hnote, hflush⟩ := hrule hsc
  rw [htime] at hp1 hp2
  exact ⟨tier, ht, s, hs, row, hrow, hnote, hflush, lt_of_lt_of_le hp1 ha, st.mjd, hp1, hp2, ha, fun a haa => hnight _ ⟨a, haa, rfl⟩⟩

end

/-! ### Examples -/

/-- A script with room for three visits at a time, beside a survey of visits without notes. -/
def windowStart (script : List Script.Entry) : World (Core ToyC ((Script.Cfg × Script.St) ⊕ ToySv) Unit × Unit) ℚ :=
  ⟨⟨0, 0, 40⟩, (Core.init () [[.inl ({ cfg0 .none [] with limit := 3 }, { Script.init 0 with script := script })],
    [.inr ⟨[.fin 1], [{ targetId := 0, band := "y" }], none⟩]] 5 true [], ()), false⟩

/-- Notes, expiry times and beginnings of the visits of a simulation. -/
def windowMade (script : List Script.Entry) : List (Option (String × ℚ × ℚ)) × Bool :=
  let o := Sim.run (V := Obs.Visit Obs) scriptSim { duration := 3 / 20, startSize := 3, appendSize := 3 } 30 (windowStart script)
  (o.st.result.map fun r => r.map fun v => (v.target.schedulerNote, v.target.flushBy, v.mjd - v.slewtime / 24 / 3600), o.st.w.raised)

/-- A scripted visit waits until a hundredth of a day before its time; one whose window is over when the scheduler comes to it is left out. -/
example : windowMade [{ visit "a" "r" 0 with flush := 1 }, { visit "b" "g" 0 with flush := 1 / 50 }, { visit "c" "r" (1 / 10) with tol := 1 / 100, flush := 1 }]
    = ([some ("a", 1, 0), some ("", 0, 103 / 4320), some ("", 0, 103 / 2160), some ("", 0, 103 / 1440), some ("c", 1, 103 / 1080), some ("", 0, 103 / 864),
      some ("", 0, 103 / 720)], false) := by decide +kernel

/-- C224 is violated at the other end of the window: the second visit expires at 1/50, and is begun after that, because the third, which is good for longer, keeps the
simulation from renewing the conditions. -/
theorem C224_late_violated :
    ((windowMade [{ visit "a" "r" 0 with flush := 1 }, { visit "b" "g" 0 with flush := 1 / 50 }, { visit "c" "r" 0 with flush := 1 }]).1.take 3
      = [some ("a", 1, 0), some ("b", 1 / 50, 103 / 4320), some ("c", 1, 103 / 2160)]) ∧ (1 / 50 : ℚ) < 103 / 4320 := by decide +kernel

/-- The assumptions of C224 are met by these simulations. -/
example (script : List Script.Entry) : scriptEnv.sv = Script.mixed (Script.ops (fun c => skyAt c.mjd) 2) plainSv
    ∧ (∀ st : Obs.St ℚ, (skyAt (⟨st.mjd, none⟩ : ToyC).mjd).mjd = st.mjd)
    ∧ (∀ s c, ∀ o ∈ (plainSv.gen s c).1, ¬ o.schedulerNote ≠ "") ∧ KeptColumns scriptEnv wholeKin (fun o => (o.schedulerNote, o.flushBy))
    ∧ (∀ h v, 0 ≤ (wholeRest.overhead h v).2) ∧ (∀ h v, (wholeRest.overhead h v).2 / 86400 ≤ 5 / 86400)
    ∧ (∀ tier ∈ (windowStart script).sched.1.tiers, ∀ s, .inl s ∈ tier → (∀ l, ∀ e ∈ s.1.detail l, ∃ e' ∈ l, planOf e' = planOf e) ∧ s.2.obs = [] ∧ s.2.rough = [])
    ∧ (∀ k o t, ∀ s ∈ (wholeKin.observe k o t).2.1, (s + (wholeKin.observe k o t).2.2) / 24 / 3600 ≤ 103 / 4320)
    ∧ (∀ a ∈ toySite.nights, ∀ b ∈ toySite.nights, a.2 < b.1 → a.2 + (5 / 86400 + (15 : ℚ) / 60 / 24 + 103 / 4320) < b.1)
    ∧ (windowStart script).sched.1.conditions = none ∧ (windowStart script).sched.1.qm.desired = [] := by
  refine ⟨rfl, fun _ => rfl, ?_, ⟨fun _ _ _ => rfl, fun _ _ => rfl, fun _ _ l o ho => ⟨o, ho, rfl⟩, ?_⟩, fun _ _ => ?_, fun _ _ => ?_, ?_, ?_, by decide +kernel, rfl, rfl⟩
  · intro s c o ho
    obtain ⟨o', -, rfl⟩ := List.mem_map.1 ho
    exact fun h => h rfl
  · intro k t o o' h
    have h : some o = some o' := h
    cases h
    rfl
  · show (0 : ℚ) ≤ 5
    norm_num
  · show (5 : ℚ) / 86400 ≤ 5 / 86400
    norm_num
  · intro tier ht s hs
    have ht : tier ∈ [[(.inl ({ cfg0 .none [] with limit := 3 }, { Script.init 0 with script := script }) : (Script.Cfg × Script.St) ⊕ ToySv)],
      [.inr ⟨[.fin 1], [{ targetId := 0, band := "y" }], none⟩]] := ht
    simp only [List.mem_cons, List.not_mem_nil, or_false] at ht
    rcases ht with rfl | rfl
    · simp only [List.mem_cons, List.not_mem_nil, or_false, Sum.inl.injEq] at hs
      subst hs
      exact ⟨fun l e he => ⟨e, he, rfl⟩, rfl, rfl⟩
    · simp at hs
  · intro k o t s hs
    simp only [wholeKin] at hs ⊢
    split_ifs at hs
    · cases hs
    · cases hs; norm_num

end Verif
