import Verif.Props.WholeSource
import Verif.Model.ScriptedSim
import Verif.Lemmas.SimServes
import Verif.Props.ScriptedHistory

/-!
Property C211: in a simulation no visit of a script is made twice.
-/

namespace Verif

open Whole Core

/-! ### Scripts -/

/-- How many rows carry the note. -/
def countNote (n : String) (es : List Script.Entry) : ℕ := es.countP fun e => decide (e.note = n)

/-- How many rows with the note are still to be observed. -/
def outstanding (n : String) (es : List Script.Entry) : ℕ := es.countP fun e => decide (e.note = n) && !e.observed

theorem checkList_few (cfg : Script.Cfg) (s : Script.St) (c : Script.Cond) (n : String) : countNote n (Script.checkList cfg s c) ≤ outstanding n s.script := by
  have htr : ∀ l, countNote n (Script.truncate cfg c l) ≤ countNote n l := by
    intro l
    unfold Script.truncate
    split
    · exact (List.take_sublist _ _).countP_le
    · split
      · exact ((List.take_sublist _ _).countP_le).trans (((List.perm_insertionSort _ _).countP_eq _).le)
      · exact le_rfl
  have hw : countNote n (s.script.filter (Script.inWindow c)) ≤ outstanding n s.script := by
    unfold countNote outstanding
    rw [List.countP_filter]
    refine List.countP_mono_left ?_
    intro e _ he
    simp only [Bool.and_eq_true] at he ⊢
    refine ⟨he.1, ?_⟩
    have := he.2
    unfold Script.inWindow at this
    simp only [Bool.and_eq_true] at this
    exact this.2
  have hsub : ∀ l p, countNote n (List.filter p l) ≤ countNote n l := fun l p => (List.filter_sublist).countP_le
  unfold Script.checkList
  dsimp only
  refine (htr _).trans ((hsub _ _).trans ?_)
  have hall : countNote n (Script.checkAltsHa c (s.script.filter (Script.inWindow c))) ≤ outstanding n s.script := by
    unfold Script.checkAltsHa
    exact (hsub _ _).trans ((hsub _ _).trans ((hsub _ _).trans ((hsub _ _).trans ((hsub _ _).trans hw))))
  split_ifs
  · exact (hsub _ _).trans ((hsub _ _).trans hall)
  · exact (hsub _ _).trans hall
  · exact (hsub _ _).trans hall
  · exact hall

/-- Every entry expires no earlier than `t`. -/
def Lasting (t : ℚ) (l : List Script.Entry) : Prop := ∀ e ∈ l, t ≤ e.flush

theorem checkList_lasting (cfg : Script.Cfg) (s : Script.St) (c : Script.Cond) : Lasting c.mjd (Script.checkList cfg s c) := by
  have h1 : ∀ e ∈ Script.checkAltsHa c (s.script.filter (Script.inWindow c)), c.mjd ≤ e.flush := by
    intro e he
    unfold Script.checkAltsHa at he
    simp only [List.mem_filter] at he
    have := he.1.1.1.1.1.2
    unfold Script.inWindow at this
    simp only [Bool.and_eq_true, decide_eq_true_eq] at this
    exact this.1.2.le
  have htr : ∀ l : List Script.Entry, ∀ e ∈ Script.truncate cfg c l, e ∈ l := by
    intro l e he
    unfold Script.truncate at he
    split at he
    · exact List.mem_of_mem_take he
    · split_ifs at he
      · exact (List.mem_insertionSort _).1 (List.mem_of_mem_take he)
      · exact he
  intro e he
  unfold Script.checkList at he
  have he := (List.mem_filter.1 (htr _ e he)).1
  split_ifs at he
  · exact h1 e (List.mem_filter.1 (List.mem_filter.1 he).1).1
  · exact h1 e (List.mem_filter.1 he).1
  · exact h1 e (List.mem_filter.1 he).1
  · exact h1 e he

/-- What a scripted survey offers at the time `t` carries the note at most `N` times, and has not expired. -/
structure ScriptFew (n : String) (N : ℕ) (t : ℚ) (s : Script.Cfg × Script.St) : Prop where
  few : outstanding n s.2.script ≤ N
  past : s.2.lastMjd ≤ t
  pastRough : s.2.lastRough ≤ t
  kept : s.2.lastMjd = t → countNote n s.2.obs ≤ N ∧ Lasting t s.2.obs
  keptRough : s.2.lastRough = t → countNote n s.2.rough ≤ N ∧ Lasting t s.2.rough

theorem script_gen {n : String} {N : ℕ} {cfg : Script.Cfg} {st : Script.St} (c : Script.Cond) (h : ScriptFew n N c.mjd (cfg, st))
    (hd : ∀ l, countNote n (cfg.detail l) ≤ countNote n l) (hf : ∀ l, ∀ e ∈ cfg.detail l, ∃ e' ∈ l, e'.flush ≤ e.flush) :
    ScriptFew n N c.mjd (cfg, (Script.gen cfg st c).1) ∧ countNote n (Script.gen cfg st c).2 ≤ N ∧ Lasting c.mjd (Script.gen cfg st c).2 := by
  have hc : countNote n (Script.checkList cfg st c) ≤ N ∧ Lasting c.mjd (Script.checkList cfg st c) :=
    ⟨(checkList_few cfg st c n).trans h.few, checkList_lasting cfg st c⟩
  have h0 : countNote n [] ≤ N ∧ Lasting c.mjd [] := ⟨Nat.zero_le _, by rintro e ⟨⟩⟩
  have hr : (Script.genRough cfg st c).1.script = st.script ∧ (Script.genRough cfg st c).1.lastRough ≤ c.mjd
      ∧ ((Script.genRough cfg st c).1.lastRough = c.mjd → countNote n (Script.genRough cfg st c).1.rough ≤ N ∧ Lasting c.mjd (Script.genRough cfg st c).1.rough)
      ∧ countNote n (Script.genRough cfg st c).2 ≤ N ∧ Lasting c.mjd (Script.genRough cfg st c).2 := by
    unfold Script.genRough
    by_cases h1 : st.lastRough = c.mjd
    · rw [if_pos h1]
      exact ⟨rfl, h.pastRough, h.keptRough, h.keptRough h1⟩
    · rw [if_neg h1]
      dsimp only
      split_ifs
      · exact ⟨rfl, le_rfl, fun _ => h0, h0⟩
      · exact ⟨rfl, h.pastRough, fun _ => h0, h0⟩
      · exact ⟨rfl, le_rfl, fun _ => hc, hc⟩
  unfold Script.gen
  by_cases h1 : st.lastMjd = c.mjd
  · rw [if_pos h1]
    exact ⟨h, h.kept h1⟩
  · rw [if_neg h1]
    dsimp only
    have hN : countNote n (if (Script.genRough cfg st c).2 = [] then (Script.genRough cfg st c).2 else cfg.detail (Script.genRough cfg st c).2) ≤ N
        ∧ Lasting c.mjd (if (Script.genRough cfg st c).2 = [] then (Script.genRough cfg st c).2 else cfg.detail (Script.genRough cfg st c).2) := by
      split_ifs
      · exact hr.2.2.2
      · refine ⟨(hd _).trans hr.2.2.2.1, fun e he => ?_⟩
        obtain ⟨e', h2, h3⟩ := hf _ e he
        exact (hr.2.2.2.2 e' h2).trans h3
    exact ⟨⟨by show outstanding n (Script.genRough cfg st c).1.script ≤ N; rw [hr.1]; exact h.few, le_rfl, hr.2.1, fun _ => hN, hr.2.2.1⟩, hN⟩

theorem ScriptFew.later {n : String} {N : ℕ} {t t' : ℚ} {s : Script.Cfg × Script.St} (h : ScriptFew n N t s) (ht : t ≤ t') : ScriptFew n N t' s := by
  rcases ht.eq_or_lt with rfl | hlt
  · exact h
  · exact ⟨h.few, h.past.trans ht, h.pastRough.trans ht, fun e => absurd (h.past.trans_lt hlt) (by rw [e]; exact lt_irrefl _),
      fun e => absurd (h.pastRough.trans_lt hlt) (by rw [e]; exact lt_irrefl _)⟩

theorem outstanding_mark (n : String) (m : String) (es : List Script.Entry) :
    outstanding n (Script.markFirst m es) = if m = n then outstanding n es - 1 else outstanding n es := by
  unfold outstanding
  induction es with
  | nil => simp [Script.markFirst]
  | cons e es ih =>
    unfold Script.markFirst
    by_cases h1 : e.note = m ∧ e.observed = false
    · rw [if_pos h1]
      obtain ⟨h1, h2⟩ := h1
      by_cases h3 : m = n
      · subst h3
        simp [List.countP_cons, h1, h2]
      · have : e.note ≠ n := by rw [h1]; exact h3
        simp [List.countP_cons, this, h3]
    · rw [if_neg h1]
      by_cases h3 : m = n
      · subst h3
        rw [if_pos rfl] at ih ⊢
        have h4 : (decide (e.note = m) && !e.observed) = false := by
          by_contra hcon
          simp only [Bool.not_eq_false, Bool.and_eq_true, decide_eq_true_eq, Bool.not_eq_true'] at hcon
          exact h1 hcon
        simp only [List.countP_cons, h4, ih]
        simp
      · rw [if_neg h3] at ih ⊢
        simp only [List.countP_cons, ih]

/-- Hearing of a visit. -/
theorem script_hear {n : String} {N : ℕ} {cfg : Script.Cfg} {st : Script.St} (m : String) (hg : Script.goodNote cfg n = true) (h : outstanding n st.script ≤ N) :
    outstanding n (Script.addOne cfg st m).script ≤ (if m = n then N - 1 else N) ∧ (Script.addOne cfg st m).lastMjd = st.lastMjd
      ∧ (Script.addOne cfg st m).lastRough = st.lastRough ∧ (Script.addOne cfg st m).obs = st.obs ∧ (Script.addOne cfg st m).rough = st.rough := by
  refine ⟨?_, ?_⟩
  · unfold Script.addOne
    by_cases hm : m = n
    · subst hm
      rw [if_pos rfl, if_pos hg]
      show outstanding m (Script.markFirst m st.script) ≤ _
      rw [outstanding_mark, if_pos rfl]
      omega
    · rw [if_neg hm]
      split_ifs
      · show outstanding n (Script.markFirst m st.script) ≤ _
        rw [outstanding_mark, if_neg hm]
        exact h
      · exact h
  · unfold Script.addOne
    split_ifs <;> exact ⟨rfl, rfl, rfl, rfl⟩

/-! ### The queue -/

/-- How many visits carry the note. -/
def countObs (n : String) (l : List Obs) : ℕ := l.countP fun o => decide (o.schedulerNote = n)

theorem leA_of_le (t : Tol) (ps : List (ℚ × ℚ)) (i : ℕ) (p : ℚ × ℚ) (h : ps[i]? = some p) (hle : p.1 ≤ p.2) : (leA t ps)[i]? = some true := by
  unfold leA checkLimit
  split
  · simp [h, hle]
  · dsimp only
    split_ifs
    · simp only [List.map_map, List.getElem?_map, h, Option.map_some, Function.comp, Option.some.injEq, decide_eq_true_eq]
      exact_mod_cast roundHalfEven_mono (by linarith)
    · simp [h, hle]

/-- A row that has not expired at `x` is found to be in time then, whatever the tolerance does. -/
theorem verdict_lasting (d : List Obs) {x : ℚ} {i : ℕ} {o : Obs} (hd : d[i]? = some o) (hx : x ≤ o.flushBy) : (QM.mjdVerdict d x)[i]? = some true := by
  unfold QM.mjdVerdict
  rw [List.getElem?_zipWith, hd, leA_of_le Tol.default _ i (x, o.flushBy) (by simp [hd]) hx]
  simp

/-- The detailers of the queue keep target ids and notes, and give something when there is something. -/
structure DetKeepsNotes {C A : Type} (E : QEnv C A) : Prop where
  row : ∀ a c l, ∀ o ∈ (E.detail a c l).1, ∃ o' ∈ l, o'.targetId = o.targetId ∧ o'.schedulerNote = o.schedulerNote
  some : ∀ a c l, l ≠ [] → (E.detail a c l).1 ≠ []

theorem mem_active {A : Type} (q : QM A) {i : ℕ} {o : Obs} (h1 : q.desired[i]? = some o) (h2 : q.need[i]? = some true) : o ∈ q.active := by
  unfold QM.active
  refine List.mem_map.2 ⟨(o, true), List.mem_filter.2 ⟨?_, rfl⟩, rfl⟩
  exact List.mem_of_getElem? (List.getElem?_zip_eq_some.2 ⟨h1, h2⟩)

/-- What a request hands out is pending. -/
theorem qrequest_active {C A : Type} {E : QEnv C A} (hdet : DetKeepsNotes E) (q : QM A) (ha : q.Aligned) (c : C) :
    ∀ o ∈ (q.request E c false).1, ∃ r ∈ q.active, r.targetId = o.targetId ∧ r.schedulerNote = o.schedulerNote := by
  intro o ho
  rw [QM.request_eq E q c false ha] at ho
  simp only [if_false, Bool.false_eq_true] at ho
  split at ho
  · obtain ⟨o', h1, h2⟩ := hdet.row _ _ _ o ho
    obtain ⟨i, h3, h4, -⟩ := QM.selectable_mem E q c _ (List.mem_of_mem_take h1)
    exact ⟨o', mem_active q h3 h4, h2⟩
  · cases ho

/-- If the queue is found to hold something valid, and no pending row had expired at the time of the conditions, a request gets something. -/
theorem qrequest_some {C A : Type} {E : QEnv C A} (hdet : DetKeepsNotes E) (q : QM A) (ha : q.Aligned) (c : C) {y : ℚ}
    (hcl : ∀ o ∈ q.active, E.mjdOf c ≤ o.flushBy) (hq : q.checkQueueMjdOnly E y c = true) :
    q.nonePending = false ∧ (q.request E c false).1 ≠ [] := by
  unfold QM.checkQueueMjdOnly at hq
  simp only [gt_iff_lt, decide_eq_true_eq] at hq
  obtain ⟨i, hi⟩ := List.exists_mem_of_length_pos hq
  have hx : i ∈ q.findValid E c (E.mjdOf c) := by
    rw [QM.findValid_eq E q c _ ha] at hi ⊢
    simp only [List.mem_filter, Bool.and_eq_true, beq_iff_eq, List.mem_range] at hi ⊢
    have hg := List.getElem?_eq_getElem hi.1
    exact ⟨hi.1, ⟨hi.2.1.1, verdict_lasting _ hg (hcl _ (mem_active q hg hi.2.1.1))⟩, hi.2.2⟩
  have hx' := hx
  rw [QM.findValid_eq E q c _ ha] at hx'
  simp only [List.mem_filter, Bool.and_eq_true, beq_iff_eq, List.mem_range] at hx'
  constructor
  · unfold QM.nonePending
    rw [Bool.eq_false_iff]
    intro h
    rw [List.all_eq_true] at h
    have := h true (List.mem_of_getElem? hx'.2.1.1)
    cases this
  · rw [QM.request_eq E q c false ha]
    have hs : q.selectable E c (E.mjdOf c) ≠ [] := by
      rw [← QM.selected_eq E q c _ ha]
      intro he
      rw [List.filterMap_eq_nil_iff] at he
      have := he i hx
      rw [List.getElem?_eq_getElem hx'.1] at this
      cases this
    simp only [if_false, Bool.false_eq_true]
    have ht : (q.selectable E c (E.mjdOf c)).take 1 ≠ [] := by
      cases h : q.selectable E c (E.mjdOf c) with
      | nil => exact absurd h hs
      | cons a l => simp
    rw [if_pos (List.length_pos_iff.2 ht)]
    exact hdet.some _ _ _ ht

theorem active_of_mark {A : Type} (q : QM A) (o : Obs) : (q.mark o).active = q.active.filter fun d => !decide (d.targetId = o.targetId) := by
  have hz : ∀ z : List (Obs × Bool), (((z.map fun p => (p.1, p.2 && !decide (p.1.targetId = o.targetId))).filter fun p => p.2).map Prod.fst)
      = ((z.filter fun p => p.2).map Prod.fst).filter fun d => !decide (d.targetId = o.targetId) := by
    intro z
    induction z with
    | nil => rfl
    | cons p z ih =>
      obtain ⟨d, b⟩ := p
      cases b <;> by_cases hd : d.targetId = o.targetId <;> simp [hd] <;> simpa using ih
  unfold QM.active QM.mark
  dsimp only
  rw [QM.zip_clearWhere]
  exact hz _

/-- Telling the queue of a visit takes its rows off. -/
theorem active_mark {A : Type} (q : QM A) (o : Obs) (n : String) {r : Obs} (hr : r ∈ q.active) (h1 : r.targetId = o.targetId) (h2 : r.schedulerNote = o.schedulerNote) :
    (o.schedulerNote = n → 1 ≤ countObs n q.active)
      ∧ countObs n (q.mark o).active ≤ if o.schedulerNote = n then countObs n q.active - 1 else countObs n q.active := by
  rw [active_of_mark]
  unfold countObs
  constructor
  · intro hn
    rw [Nat.one_le_iff_ne_zero]
    intro h0
    rw [List.countP_eq_zero] at h0
    exact h0 r hr (by simp [h2, hn])
  · split_ifs with hn
    · rw [List.countP_filter]
      have hlt : List.countP (fun a => decide (a.schedulerNote = n) && !decide (a.targetId = o.targetId)) q.active
          < List.countP (fun a => decide (a.schedulerNote = n)) q.active := by
        obtain ⟨l1, l2, hl⟩ := List.append_of_mem hr
        rw [hl]
        simp only [List.countP_append, List.countP_cons, h1, h2, hn, decide_true, Bool.not_true, Bool.and_false, Bool.false_eq_true, if_false, if_true]
        have e1 := List.countP_mono_left (l := l1) (p := fun a : Obs => decide (a.schedulerNote = n) && !decide (a.targetId = o.targetId))
          (q := fun a => decide (a.schedulerNote = n)) (fun a _ h => by simp only [Bool.and_eq_true] at h; exact h.1)
        have e2 := List.countP_mono_left (l := l2) (p := fun a : Obs => decide (a.schedulerNote = n) && !decide (a.targetId = o.targetId))
          (q := fun a => decide (a.schedulerNote = n)) (fun a _ h => by simp only [Bool.and_eq_true] at h; exact h.1)
        omega
      omega
    · exact (List.filter_sublist).countP_le

/-! ### The scheduler -/

section
variable {C T A : Type}

/-- The surveys are scripted surveys and other ones, and the others never ask for visits with the note. -/
structure ScriptsBeside (E : Env C ((Script.Cfg × Script.St) ⊕ T) A) (cond : C → Script.Cond) (value : ℚ) (other : SurveyOps C T) (n : String) : Prop where
  sv : E.sv = Script.mixed (Script.ops cond value) other
  time : ∀ c, (cond c).mjd = E.q.mjdOf c
  others : ∀ s c, ∀ o ∈ (other.gen s c).1, o.schedulerNote ≠ n

/-- The survey does not ignore visits with the note, and its detailers neither make more of them nor let visits expire sooner. -/
structure MindsNote (n : String) (cfg : Script.Cfg) : Prop where
  good : Script.goodNote cfg n = true
  few : ∀ l, countNote n (cfg.detail l) ≤ countNote n l
  flush : ∀ l, ∀ e ∈ cfg.detail l, ∃ e' ∈ l, e'.flush ≤ e.flush

/-- What the survey offers at the time `t` carries the note at most `N` times. -/
def SurveyFew (n : String) (N : ℕ) (t : ℚ) : (Script.Cfg × Script.St) ⊕ T → Prop
  | .inl s => MindsNote n s.1 ∧ ScriptFew n N t s
  | .inr _ => True

/-- A survey that was last asked before the time `t`. -/
def SurveyOld (n : String) (N : ℕ) (t : ℚ) : (Script.Cfg × Script.St) ⊕ T → Prop
  | .inl s => MindsNote n s.1 ∧ outstanding n s.2.script ≤ N ∧ s.2.lastMjd < t ∧ s.2.lastRough < t
  | .inr _ => True

theorem SurveyFew.later {n : String} {N : ℕ} {t t' : ℚ} {s : (Script.Cfg × Script.St) ⊕ T} (h : SurveyFew n N t s) (ht : t ≤ t') : SurveyFew n N t' s := by
  cases s with
  | inl s => exact ⟨h.1, h.2.later ht⟩
  | inr s => trivial

theorem SurveyFew.old {n : String} {N : ℕ} {t t' : ℚ} {s : (Script.Cfg × Script.St) ⊕ T} (h : SurveyFew n N t s) (ht : t < t') : SurveyOld n N t' s := by
  cases s with
  | inl s => exact ⟨h.1, h.2.few, h.2.past.trans_lt ht, h.2.pastRough.trans_lt ht⟩
  | inr s => trivial

theorem SurveyOld.later {n : String} {N : ℕ} {t t' : ℚ} {s : (Script.Cfg × Script.St) ⊕ T} (h : SurveyOld n N t s) (ht : t ≤ t') : SurveyOld n N t' s := by
  cases s with
  | inl s => exact ⟨h.1, h.2.1, h.2.2.1.trans_le ht, h.2.2.2.trans_le ht⟩
  | inr s => trivial

theorem SurveyOld.few {n : String} {N : ℕ} {t : ℚ} {s : (Script.Cfg × Script.St) ⊕ T} (h : SurveyOld n N t s) : SurveyFew n N t s := by
  cases s with
  | inl s =>
    exact ⟨h.1, h.2.1, h.2.2.1.le, h.2.2.2.le, fun e => absurd h.2.2.1 (by rw [e]; exact lt_irrefl _), fun e => absurd h.2.2.2 (by rw [e]; exact lt_irrefl _)⟩
  | inr s => trivial

variable {E : Env C ((Script.Cfg × Script.St) ⊕ T) A} {cond : C → Script.Cond} {value : ℚ} {other : SurveyOps C T} {n : String}

/-- Every visit expires no earlier than `t`. -/
def LastingObs (t : ℚ) (l : List Obs) : Prop := ∀ o ∈ l, t ≤ o.flushBy

theorem survey_asked (hE : ScriptsBeside E cond value other n) (c : C) {N : ℕ} (sv : (Script.Cfg × Script.St) ⊕ T) (h : SurveyFew n N (E.q.mjdOf c) sv) :
    SurveyFew n N (E.q.mjdOf c) (E.sv.reward sv c).2 ∧ SurveyFew n N (E.q.mjdOf c) (E.sv.gen sv c).2 ∧ countObs n (E.sv.gen sv c).1 ≤ N
      ∧ (countObs n (E.sv.gen sv c).1 = 0 ∨ LastingObs (E.q.mjdOf c) (E.sv.gen sv c).1) := by
  rw [hE.sv]
  cases sv with
  | inl s =>
    have h2 := h.2
    rw [← hE.time c] at h2 ⊢
    obtain ⟨g1, g2, g3⟩ := script_gen (cfg := s.1) (st := s.2) (cond c) h2 h.1.few h.1.flush
    refine ⟨⟨h.1, g1⟩, ⟨h.1, g1⟩, ?_, .inr ?_⟩
    · show countObs n ((Script.gen s.1 s.2 (cond c)).2.map Script.toObs) ≤ N
      unfold countObs
      rw [List.countP_map]
      exact g2
    · intro o ho
      obtain ⟨e, he, rfl⟩ := List.mem_map.1 (show o ∈ (Script.gen s.1 s.2 (cond c)).2.map Script.toObs from ho)
      exact g3 e he
  | inr s =>
    have : countObs n (other.gen s c).1 = 0 := by
      unfold countObs
      rw [List.countP_eq_zero]
      intro o ho
      simpa using hE.others s c o ho
    exact ⟨trivial, trivial, this.le.trans (Nat.zero_le _), .inl this⟩

theorem survey_update (hE : ScriptsBeside E cond value other n) (c : C) (sv : (Script.Cfg × Script.St) ⊕ T) {P : (Script.Cfg × Script.St) ⊕ T → Prop}
    (hP : ∀ s, P (.inr s)) (h : P sv) : P (E.sv.update sv c) := by
  rw [hE.sv]
  cases sv with
  | inl s => exact h
  | inr s => exact hP _

theorem survey_hear (hE : ScriptsBeside E cond value other n) (o : Obs) {N : ℕ} {t : ℚ} (sv : (Script.Cfg × Script.St) ⊕ T) (h : SurveyOld n N t sv) :
    SurveyOld n (if o.schedulerNote = n then N - 1 else N) t (E.sv.addObs sv o) := by
  rw [hE.sv]
  cases sv with
  | inl s =>
    obtain ⟨a1, a2, a3, -, -⟩ := script_hear (cfg := s.1) (st := s.2) o.schedulerNote h.1.good h.2.1
    exact ⟨h.1, a1, a2.symm ▸ h.2.2.1, a3.symm ▸ h.2.2.2⟩
  | inr s => trivial

theorem survey_hear_other (hE : ScriptsBeside E cond value other n) (o : Obs) (ho : o.schedulerNote ≠ n) {N : ℕ} {t : ℚ} (sv : (Script.Cfg × Script.St) ⊕ T)
    (h : SurveyFew n N t sv) : SurveyFew n N t (E.sv.addObs sv o) := by
  rw [hE.sv]
  cases sv with
  | inl s =>
    obtain ⟨a1, a2, a3, a4, a5⟩ := script_hear (cfg := s.1) (st := s.2) o.schedulerNote h.1.good h.2.few
    rw [if_neg ho] at a1
    refine ⟨h.1, a1, ?_, ?_, ?_, ?_⟩
    · show (Script.addOne s.1 s.2 o.schedulerNote).lastMjd ≤ t
      rw [a2]; exact h.2.past
    · show (Script.addOne s.1 s.2 o.schedulerNote).lastRough ≤ t
      rw [a3]; exact h.2.pastRough
    · show (Script.addOne s.1 s.2 o.schedulerNote).lastMjd = t → countNote n (Script.addOne s.1 s.2 o.schedulerNote).obs ≤ N
        ∧ Lasting t (Script.addOne s.1 s.2 o.schedulerNote).obs
      rw [a2, a4]; exact h.2.kept
    · show (Script.addOne s.1 s.2 o.schedulerNote).lastRough = t → countNote n (Script.addOne s.1 s.2 o.schedulerNote).rough ≤ N
        ∧ Lasting t (Script.addOne s.1 s.2 o.schedulerNote).rough
      rw [a3, a5]; exact h.2.keptRough
  | inr s => trivial

/-- What the calls of a filling of the queue keep of each survey, the filling keeps. -/
theorem fillQueue_surveys {Sv : Type} {E : Env C Sv A} {s s' : Core C Sv A} {ev : List Ev} {c : C} (hc : s.conditions = some c)
    (h : s.fillQueue E = .ok (s', ev)) (P : Sv → Prop) (hr : ∀ sv, P sv → P (E.sv.reward sv c).2) (hg : ∀ sv, P sv → P (E.sv.gen sv c).2)
    (hp : ∀ t ∈ s.tiers, ∀ sv ∈ t, P sv) : ∀ t ∈ s'.tiers, ∀ sv ∈ t, P sv := by
  have hev : ∀ t ∈ s.tiers, ∀ sv ∈ (evalTier E.sv c t).2, P sv := by
    intro t ht sv hsv
    obtain ⟨sv0, h0, rfl⟩ := List.mem_map.1 hsv
    exact hr _ (hp t ht sv0 h0)
  unfold fillQueue at h
  rw [hc] at h
  dsimp only at h
  split at h
  · cases h
  · rename_i rs brk tiers' hl
    have ht : ∀ t ∈ tiers', ∀ sv ∈ t, P sv := by
      rcases tierLoop_spec E.sv c 0 s.tiers hl with ⟨_, _, ht, _⟩ | ⟨k, t, _, hk, _, _, _, ht⟩
      · rw [ht]
        intro t h1
        obtain ⟨t0, h0, rfl⟩ := List.mem_map.1 h1
        exact hev t0 h0
      · rw [ht]
        intro t' h1
        rcases List.mem_append.1 h1 with h1 | h1
        · obtain ⟨t0, h0, rfl⟩ := List.mem_map.1 h1
          exact hev t0 (List.mem_of_mem_take h0)
        · rcases List.mem_cons.1 h1 with rfl | h1
          · exact hev t (List.mem_of_getElem? hk)
          · exact hp t' (List.mem_of_mem_drop h1)
    split at h
    · cases h
    · split at h
      · cases h; exact ht
      · split at h
        · rename_i i0 i1 _
          split at h
          · cases h
          · rename_i tier hti
            split at h
            · cases h
            · rename_i sv hsv
              split at h
              · cases h
              · cases h
                dsimp only
                intro t h1 v hv
                have htier := ht tier (List.mem_of_getElem? hti)
                rcases List.mem_or_eq_of_mem_set h1 with h1 | rfl
                · exact ht t h1 v hv
                · rcases List.mem_or_eq_of_mem_set hv with hv | rfl
                  · exact htier v hv
                  · exact hg _ (htier sv (List.mem_of_getElem? hsv))
        · cases h

theorem all_pending (l : List Obs) : ((l.zip (List.replicate l.length true)).filter fun p => p.2).map Prod.fst = l := by
  induction l with
  | nil => rfl
  | cons a l ih => simpa [List.replicate_succ] using ih

/-- Every survey of the scheduler is so. -/
def AllSurveys {S : Type} (P : S → Prop) (s : Core C S A) : Prop := ∀ tier ∈ s.tiers, ∀ sv ∈ tier, P sv

/-- Neither the surveys nor the queue have more than `N` visits with the note to offer at the time `t`. -/
structure CoreFew (n : String) (N : ℕ) (t : ℚ) (s : Core C ((Script.Cfg × Script.St) ⊕ T) A) : Prop where
  surveys : AllSurveys (SurveyFew n N t) s
  queue : countObs n s.qm.active ≤ N
  aligned : s.qm.Aligned

/-- Conditions of the time `x` do no harm: the surveys may be asked again under them, as the queue holds no visit with the note or they have not been asked
under them; or no pending visit had expired then. -/
def AskSafe (n : String) (N : ℕ) (x : ℚ) (s : Core C ((Script.Cfg × Script.St) ⊕ T) A) : Prop :=
  (AllSurveys (SurveyFew n N x) s ∧ countObs n s.qm.active = 0) ∨ AllSurveys (SurveyOld n N x) s ∨ LastingObs x s.qm.active

theorem core_fill (hE : ScriptsBeside E cond value other n) {s s' : Core C ((Script.Cfg × Script.St) ⊕ T) A} {ev : List Ev} {c : C} {N : ℕ}
    (hc : s.conditions = some c) (h : s.fillQueue E = .ok (s', ev)) (hs : AllSurveys (SurveyFew n N (E.q.mjdOf c)) s) :
    CoreFew n N (E.q.mjdOf c) s' ∧ AskSafe n N (E.q.mjdOf c) s' := by
  have h1 : AllSurveys (SurveyFew n N (E.q.mjdOf c)) s' :=
    fillQueue_surveys hc h (SurveyFew n N (E.q.mjdOf c)) (fun sv hp => (survey_asked hE c sv hp).1) (fun sv hp => (survey_asked hE c sv hp).2.1) hs
  rcases fillQueue_spec hc h with ⟨-, hq, -, -⟩ | ⟨i, j, tier, sv, filled, hi, hj, -, -, -, -, -, hfill, hq, -⟩
  · refine ⟨⟨h1, ?_, ?_⟩, .inl ⟨h1, ?_⟩⟩
    · rw [hq]; exact Nat.zero_le _
    · rw [hq]; rfl
    · rw [hq]; rfl
  · have hact : s'.qm.active = filled := by
      rw [hq]
      unfold QM.active QM.setQueue
      exact all_pending filled
    have hfa := fillFilters_forall _ _ _ _ hfill
    have hcount : ∀ l l' : List Obs, List.Forall₂ (Filled s.bandToFilter) l l' → countObs n l' = countObs n l ∧ ∀ o ∈ l', ∃ o' ∈ l, o'.flushBy = o.flushBy := by
      intro l l' hf
      induction hf with
      | nil => exact ⟨rfl, by rintro o ⟨⟩⟩
      | @cons a b _ _ hab _ ih =>
        refine ⟨?_, ?_⟩
        · have e := congrArg Obs.schedulerNote hab.2.2.2
          have ih := ih.1
          unfold countObs at ih ⊢
          simp only [List.countP_cons, ih]
          dsimp only at e
          rw [e]
        · intro o ho
          rcases List.mem_cons.1 ho with rfl | ho
          · exact ⟨a, List.mem_cons_self, (congrArg Obs.flushBy hab.2.2.2).symm⟩
          · obtain ⟨o', h2, h3⟩ := ih.2 o ho
            exact ⟨o', List.mem_cons_of_mem _ h2, h3⟩
    obtain ⟨hc1, hc2⟩ := hcount _ _ hfa
    obtain ⟨-, -, hN, hsafe⟩ := survey_asked hE c _ (survey_asked hE c sv (hs tier (List.mem_of_getElem? hi) sv (List.mem_of_getElem? hj))).1
    refine ⟨⟨h1, ?_, ?_⟩, ?_⟩
    · rw [hact, hc1]; exact hN
    · rw [hq]; exact List.length_replicate
    · rcases hsafe with h0 | h0
      · exact .inl ⟨h1, by rw [hact, hc1]; exact h0⟩
      · right; right
        rw [hact]
        intro o ho
        obtain ⟨o', h2, h3⟩ := hc2 o ho
        rw [← h3]
        exact h0 o' h2

theorem CoreFew.queue_eq {N : ℕ} {t : ℚ} {s s' : Core C ((Script.Cfg × Script.St) ⊕ T) A} (h : CoreFew n N t s) (h1 : s'.tiers = s.tiers)
    (h2 : s'.qm.desired = s.qm.desired) (h3 : s'.qm.need = s.qm.need) : CoreFew n N t s' := by
  refine ⟨by unfold AllSurveys; rw [h1]; exact h.surveys, ?_, ?_⟩
  · have : s'.qm.active = s.qm.active := by unfold QM.active; rw [h2, h3]
    rw [this]; exact h.queue
  · have := h.aligned
    unfold QM.Aligned at this ⊢
    rw [h2, h3]; exact this

theorem AskSafe.queue_eq {N : ℕ} {x : ℚ} {s s' : Core C ((Script.Cfg × Script.St) ⊕ T) A} (h : AskSafe n N x s) (h1 : s'.tiers = s.tiers)
    (h2 : s'.qm.desired = s.qm.desired) (h3 : s'.qm.need = s.qm.need) : AskSafe n N x s' := by
  have : s'.qm.active = s.qm.active := by unfold QM.active; rw [h2, h3]
  unfold AskSafe AllSurveys
  rw [h1, this]
  exact h

theorem CoreFew.later {n : String} {N : ℕ} {t t' : ℚ} {s : Core C ((Script.Cfg × Script.St) ⊕ T) A} (h : CoreFew n N t s) (ht : t ≤ t') : CoreFew n N t' s :=
  ⟨fun tier h1 sv h2 => (h.surveys tier h1 sv h2).later ht, h.queue, h.aligned⟩

/-- What is so of the scheduler at the time `t`, with the conditions it holds. -/
structure CoreHeld (E : Env C ((Script.Cfg × Script.St) ⊕ T) A) (n : String) (N : ℕ) (t : ℚ) (s : Core C ((Script.Cfg × Script.St) ⊕ T) A) : Prop where
  few : CoreFew n N t s
  safe : AskSafe n N t s
  conds : ∀ c ∈ s.conditions, E.q.mjdOf c ≤ t ∧ AskSafe n N (E.q.mjdOf c) s

theorem CoreHeld.later {N : ℕ} {t t' : ℚ} {s : Core C ((Script.Cfg × Script.St) ⊕ T) A} (h : CoreHeld E n N t s) (ht : t ≤ t') : CoreHeld E n N t' s := by
  refine ⟨h.few.later ht, ?_, fun c hc => ⟨(h.conds c hc).1.trans ht, (h.conds c hc).2⟩⟩
  rcases ht.eq_or_lt with rfl | hlt
  · exact h.safe
  · exact .inr (.inl fun tier h1 sv h2 => (h.few.surveys tier h1 sv h2).old hlt)

theorem core_request (hE : ScriptsBeside E cond value other n) (hdet : DetKeepsNotes E.q) {s s' : Core C ((Script.Cfg × Script.St) ⊕ T) A} {c : C} {N : ℕ}
    {t x : ℚ} {r : Option Obs} (h : CoreHeld E n N t s) (hc : s.conditions = some c)
    (how : AllSurveys (SurveyFew n N (E.q.mjdOf c)) s ∨ (s.qm.nonePending = false ∧ (s.qm.request E.q c false).1 ≠ [])) (hr : coreRequest E s x = some (s', r)) :
    CoreHeld E n N t s' ∧ ∀ o ∈ r, ∃ row ∈ s'.qm.active, row.targetId = o.targetId ∧ row.schedulerNote = o.schedulerNote := by
  unfold coreRequest at hr
  cases hq : s.request E (some x) false with
  | error e => rw [hq] at hr; cases hr
  | ok z =>
    obtain ⟨s1, l, ev⟩ := z
    rw [hq] at hr
    have hr : some (s1, l.bind List.head?) = some (s', r) := hr
    simp only [Option.some.injEq, Prod.mk.injEq] at hr
    obtain ⟨rfl, rfl⟩ := hr
    obtain ⟨c', s2, ev2, hc', hfirst, hrest⟩ := request_cases hq
    rw [hc] at hc'
    cases hc'
    obtain ⟨hct, hsafe⟩ := h.conds c hc
    have hfill : ∀ (u u' : Core C ((Script.Cfg × Script.St) ⊕ T) A) (e : List Ev), u.conditions = some c → u.fillQueue E = .ok (u', e) →
        AllSurveys (SurveyFew n N (E.q.mjdOf c)) u → CoreHeld E n N t u' ∧ u'.conditions = some c ∧ AllSurveys (SurveyFew n N (E.q.mjdOf c)) u' := by
      intro u u' e hu hf ha
      obtain ⟨g1, g2⟩ := core_fill hE hu hf ha
      have hcu : u'.conditions = some c := (fillQueue_frame hf).1.trans hu
      have hx : CoreHeld E n N (E.q.mjdOf c) u' := ⟨g1, g2, fun c' hc' => by rw [hcu] at hc'; cases hc'; exact ⟨le_rfl, g2⟩⟩
      exact ⟨hx.later hct, hcu, g1.surveys⟩
    have h2 : CoreHeld E n N t s2 ∧ s2.conditions = some c
        ∧ (AllSurveys (SurveyFew n N (E.q.mjdOf c)) s2 ∨ (s2.qm.nonePending = false ∧ (s2.qm.request E.q c false).1 ≠ [])) := by
      rcases hfirst with ⟨hn, hf⟩ | ⟨-, rfl, -⟩
      · rcases how with ha | ⟨h0, -⟩
        · obtain ⟨a, b, d⟩ := hfill _ _ _ hc hf ha
          exact ⟨a, b, .inl d⟩
        · rw [hn] at h0; cases h0
      · exact ⟨h, hc, how⟩
    have hgive : ∀ u : Core C ((Script.Cfg × Script.St) ⊕ T) A, CoreHeld E n N t u →
        CoreHeld E n N t { u with qm := (u.qm.request E.q c false).2 }
        ∧ ∀ o ∈ (some ((u.qm.request E.q c false).1.map setNote)).bind List.head?, ∃ row ∈ (u.qm.request E.q c false).2.active,
          row.targetId = o.targetId ∧ row.schedulerNote = o.schedulerNote := by
      intro u hu
      have hqq := qrequest_queue E.q u.qm c false
      refine ⟨⟨hu.few.queue_eq rfl hqq.1 hqq.2, hu.safe.queue_eq rfl hqq.1 hqq.2, fun c' hc' => ⟨(hu.conds c' hc').1, (hu.conds c' hc').2.queue_eq rfl hqq.1 hqq.2⟩⟩, ?_⟩
      intro o ho
      have ho := List.mem_of_head? (show ((u.qm.request E.q c false).1.map setNote).head? = some o from ho)
      obtain ⟨o1, ho1, rfl⟩ := List.mem_map.1 ho
      obtain ⟨row, h3, h4, h5⟩ := qrequest_active hdet u.qm hu.few.aligned c o1 ho1
      have : (u.qm.request E.q c false).2.active = u.qm.active := by unfold QM.active; rw [hqq.1, hqq.2]
      rw [this]
      exact ⟨row, h3, h4, h5⟩
    obtain ⟨h2, h2c, h2a⟩ := h2
    rcases hrest with ⟨-, rfl, rfl, -⟩ | ⟨-, -, rfl, rfl, -⟩ | ⟨-, he, s3, ev3, hf, rfl, -, hout⟩
    · exact ⟨h2, by rintro o ⟨⟩⟩
    · exact hgive s2 h2
    · have h3 : CoreHeld E n N t s3 := by
        rcases h2a with ha | ⟨-, h0⟩
        · exact (hfill _ _ _ (by exact h2c) hf (by exact ha)).1
        · exact absurd he h0
      rcases hout with ⟨-, rfl⟩ | ⟨-, rfl⟩
      · exact ⟨(hgive s3 h3).1, by rintro o ⟨⟩⟩
      · exact hgive s3 h3

/-- The surveys may be asked again, or the queue gives something. -/
theorem AskSafe.ask (hdet : DetKeepsNotes E.q) {N : ℕ} {y : ℚ} {s : Core C ((Script.Cfg × Script.St) ⊕ T) A} {c : C} (h : AskSafe n N (E.q.mjdOf c) s) (ha : s.qm.Aligned)
    (hq : s.qm.checkQueueMjdOnly E.q y c = true) :
    AllSurveys (SurveyFew n N (E.q.mjdOf c)) s ∨ (s.qm.nonePending = false ∧ (s.qm.request E.q c false).1 ≠ []) := by
  rcases h with h | h | h
  · exact .inl h.1
  · exact .inl fun tier h1 sv h2 => (h tier h1 sv h2).few
  · exact .inr (qrequest_some hdet s.qm ha c h hq)

theorem core_update (hE : ScriptsBeside E cond value other n) {s : Core C ((Script.Cfg × Script.St) ⊕ T) A} {N : ℕ} {t : ℚ} (h : CoreHeld E n N t s) (c : C)
    (hc : E.q.mjdOf c = t) : CoreHeld E n N t (s.update E c) := by
  have ht : (s.tooStep E c).tiers = s.tiers ∧ ((s.tooStep E c).qm = s.qm ∨ (s.tooStep E c).qm = s.qm.flush) := by
    unfold tooStep
    split
    · split
      · exact ⟨rfl, .inl rfl⟩
      · dsimp only
        split_ifs
        · exact ⟨rfl, .inr rfl⟩
        · exact ⟨rfl, .inl rfl⟩
    · exact ⟨rfl, .inl rfl⟩
  have hall : ∀ P : (Script.Cfg × Script.St) ⊕ T → Prop, (∀ s, P (.inr s)) → AllSurveys P s → AllSurveys P (s.update E c) := by
    intro P hP hs
    show ∀ tier ∈ (s.tooStep E c).tiers.map (fun t => t.map fun v => E.sv.update v c), _
    rw [ht.1]
    intro tier h1 sv h2
    obtain ⟨t0, h3, rfl⟩ := List.mem_map.1 h1
    obtain ⟨sv0, h4, rfl⟩ := List.mem_map.1 h2
    exact survey_update hE c sv0 hP (hs t0 h3 sv0 h4)
  have hsafe : AskSafe n N t (s.update E c) := by
    rcases h.safe with ⟨h1, h2⟩ | h1 | h1
    · refine .inl ⟨hall _ (fun _ => trivial) h1, ?_⟩
      show countObs n (s.tooStep E c).qm.active = 0
      rcases ht.2 with e | e <;> rw [e]
      · exact h2
      · rfl
    · exact .inr (.inl (hall _ (fun _ => trivial) h1))
    · right; right
      show LastingObs t (s.tooStep E c).qm.active
      rcases ht.2 with e | e <;> rw [e]
      · exact h1
      · rintro o ⟨⟩
  refine ⟨⟨hall _ (fun _ => trivial) h.few.surveys, ?_, ?_⟩, hsafe, ?_⟩
  · show countObs n (s.tooStep E c).qm.active ≤ N
    rcases ht.2 with e | e <;> rw [e]
    · exact h.few.queue
    · exact Nat.zero_le _
  · show (s.tooStep E c).qm.Aligned
    rcases ht.2 with e | e <;> rw [e]
    · exact h.few.aligned
    · rfl
  · intro c' hc'
    have hc' : some c = some c' := hc'
    cases hc'
    rw [hc]
    exact ⟨le_rfl, hsafe⟩

theorem backfill_note (o : Obs) : (backfillBand o).schedulerNote = o.schedulerNote ∧ (backfillBand o).targetId = o.targetId := by
  unfold backfillBand
  split_ifs <;> exact ⟨rfl, rfl⟩

/-- A row of the queue that is pending stands for the visit. -/
def PendingRow (s : Core C ((Script.Cfg × Script.St) ⊕ T) A) (o : Obs) : Prop :=
  ∃ row ∈ s.qm.active, row.targetId = o.targetId ∧ row.schedulerNote = o.schedulerNote

/-- What is so of the scheduler between a completed visit and its report. -/
structure CoreDone (E : Env C ((Script.Cfg × Script.St) ⊕ T) A) (n : String) (N : ℕ) (t : ℚ) (o : Obs) (s : Core C ((Script.Cfg × Script.St) ⊕ T) A) : Prop where
  surveys : AllSurveys (SurveyOld n N t) s
  queue : countObs n s.qm.active ≤ N
  aligned : s.qm.Aligned
  row : PendingRow s o
  conds : ∀ c ∈ s.conditions, E.q.mjdOf c ≤ t ∧ AskSafe n N (E.q.mjdOf c) s

/-- Telling the scheduler of a visit that is pending. -/
theorem core_add (hE : ScriptsBeside E cond value other n) {s : Core C ((Script.Cfg × Script.St) ⊕ T) A} {N : ℕ} {t : ℚ} (o : Obs) (h : CoreDone E n N t o s) :
    (o.schedulerNote = n → 1 ≤ N) ∧ CoreHeld E n (if o.schedulerNote = n then N - 1 else N) t (s.addObs E o).1 := by
  obtain ⟨row, h1, h2, h3⟩ := h.row
  have hb := backfill_note o
  obtain ⟨m1, m2⟩ := active_mark s.qm (backfillBand o) n h1 (h2.trans hb.2.symm) (h3.trans hb.1.symm)
  rw [hb.1] at m1 m2
  have hd : 0 < s.qm.desired.length := by
    unfold QM.active at h1
    obtain ⟨p, hp, -⟩ := List.mem_map.1 h1
    have := List.length_pos_of_mem (List.mem_filter.1 hp).1
    rw [List.length_zip] at this
    omega
  have hact : (s.addObs E o).1.qm.active = (s.qm.mark (backfillBand o)).active := by
    show (s.qm.addObs E.q (backfillBand o)).active = _
    unfold QM.addObs
    dsimp only
    rw [if_pos hd]
    rfl
  have hall : ∀ P Q : (Script.Cfg × Script.St) ⊕ T → Prop, (∀ sv, P sv → Q (E.sv.addObs sv (backfillBand o))) → AllSurveys P s → AllSurveys Q (s.addObs E o).1 := by
    intro P Q hPQ hs
    show ∀ tier ∈ s.tiers.map (fun t => t.map fun v => E.sv.addObs v (backfillBand o)), _
    intro tier h1 sv h2
    obtain ⟨t0, h3, rfl⟩ := List.mem_map.1 h1
    obtain ⟨sv0, h4, rfl⟩ := List.mem_map.1 h2
    exact hPQ sv0 (hs t0 h3 sv0 h4)
  have hold : ∀ x, AllSurveys (SurveyOld n N x) s → AllSurveys (SurveyOld n (if o.schedulerNote = n then N - 1 else N) x) (s.addObs E o).1 := by
    intro x
    refine hall _ _ fun sv hsv => ?_
    have := survey_hear hE (backfillBand o) sv hsv
    rw [hb.1] at this
    exact this
  have hnew := hold t h.surveys
  refine ⟨fun e => (m1 e).trans h.queue, ⟨fun tier h1 sv h2 => (hnew tier h1 sv h2).few, ?_, Core.qaddObs_aligned _ _ _ h.aligned⟩, .inr (.inl hnew), ?_⟩
  · rw [hact]
    have hq := h.queue
    refine m2.trans ?_
    split_ifs <;> omega
  · intro c hc
    obtain ⟨hct, hsafe⟩ := h.conds c hc
    refine ⟨hct, ?_⟩
    rcases hsafe with ⟨s1, s2⟩ | s1 | s1
    · have hne : o.schedulerNote ≠ n := by
        intro e
        have := m1 e
        omega
      rw [if_neg hne] at m2 ⊢
      refine .inl ⟨hall _ _ (fun sv hsv => survey_hear_other hE _ (by rw [hb.1]; exact hne) sv hsv) s1, ?_⟩
      rw [hact]
      omega
    · exact .inr (.inl (hold _ s1))
    · right; right
      rw [hact]
      intro r hr
      refine s1 r ?_
      rw [active_of_mark] at hr
      exact (List.mem_filter.1 hr).1
end

/-! ### The simulation -/

section
variable {C B T A H K : Type}

/-- How many of the visits carry the note. -/
def madeWith (n : String) (vs : List (Obs.Visit Obs)) : ℕ := vs.countP fun v => decide (v.target.schedulerNote = n)

/-- With the visits told of so far, no more than `N0` visits with the note are made or to offer. -/
def SimFew (E : Env C ((Script.Cfg × Script.St) ⊕ T) A) (n : String) (N0 : ℕ)
    (p : World (Core C ((Script.Cfg × Script.St) ⊕ T) A × H) K × List (Sim.Ev (Obs.Visit Obs) C B)) : Prop :=
  ∃ N, N + madeWith n (Sim.toldOf p.2) = N0 ∧ CoreHeld E n N p.1.obs.mjd p.1.sched.1

/-- The same between a completed visit and its report. -/
def SimDone (E : Env C ((Script.Cfg × Script.St) ⊕ T) A) (n : String) (N0 : ℕ) (v : Obs.Visit Obs)
    (p : World (Core C ((Script.Cfg × Script.St) ⊕ T) A × H) K × List (Sim.Ev (Obs.Visit Obs) C B)) : Prop :=
  ∃ N, N + madeWith n (Sim.toldOf p.2) = N0 ∧ CoreDone E n N p.1.obs.mjd v.target p.1.sched.1

/-- The same before a request: the surveys may be asked, or the queue will give something. -/
def SimAsk (E : Env C ((Script.Cfg × Script.St) ⊕ T) A) (n : String) (N0 : ℕ)
    (p : World (Core C ((Script.Cfg × Script.St) ⊕ T) A × H) K × List (Sim.Ev (Obs.Visit Obs) C B)) : Prop :=
  ∃ N, N + madeWith n (Sim.toldOf p.2) = N0 ∧ CoreHeld E n N p.1.obs.mjd p.1.sched.1 ∧ ∃ c, p.1.sched.1.conditions = some c
    ∧ (AllSurveys (SurveyFew n N (E.q.mjdOf c)) p.1.sched.1 ∨ (p.1.sched.1.qm.nonePending = false ∧ (p.1.sched.1.qm.request E.q c false).1 ≠ []))

/-- The telescope keeps target ids and notes. -/
def KeepsNote (M : Obs.Kin K Obs) : Prop := ∀ k t o o', M.prepare k t o = some o' → o'.targetId = o.targetId ∧ o'.schedulerNote = o.schedulerNote

theorem SimFew.on {E : Env C ((Script.Cfg × Script.St) ⊕ T) A} {n : String} {N0 : ℕ}
    {p q : World (Core C ((Script.Cfg × Script.St) ⊕ T) A × H) K × List (Sim.Ev (Obs.Visit Obs) C B)} (h : SimFew E n N0 p) {e : Sim.Ev (Obs.Visit Obs) C B}
    (he : q.2 = p.2 ++ [e]) (ht : Sim.toldOf [e] = []) (hs : q.1.sched.1 = p.1.sched.1) (hm : p.1.obs.mjd ≤ q.1.obs.mjd) : SimFew E n N0 q := by
  obtain ⟨N, h1, h2⟩ := h
  refine ⟨N, ?_, ?_⟩
  · rw [he, told_one _ _ ht]; exact h1
  · rw [hs]; exact h2.later hm

theorem script_serves (S : Obs.Site) (hn : Obs.Nights S.nights) (hd : Down.Ordered S.downs) (M : Obs.Kin K Obs) (hM : Obs.NonNeg M) (hK : KeepsNote M) (fuel : ℕ)
    (δ : ℚ) (hδ : 0 < δ) (hlong : ∀ k o t, δ ≤ (M.observe k o t).2.2) (conds : Obs.St K → C) (mount : K → B → K)
    {E : Env C ((Script.Cfg × Script.St) ⊕ T) A} {cond : C → Script.Cond} {value : ℚ} {other : SurveyOps C T} {n : String}
    (hE : ScriptsBeside E cond value other n) (hdet : DetKeepsNotes E.q) (htime : ∀ st, E.q.mjdOf (conds st) = st.mjd) (X : Rest H C B) (N0 : ℕ) :
    Sim.Serves (env S M fuel conds mount (coreSched E X)).recorded (SimFew E n N0) (SimAsk E n N0)
      (fun v p => SimFew E n N0 p ∧ PendingRow p.1.sched.1 v.target) (SimDone E n N0) := by
  have hreq : ∀ (w : World (Core C ((Script.Cfg × Script.St) ⊕ T) A × H) K × List (Sim.Ev (Obs.Visit Obs) C B)) x, SimAsk E n N0 w →
      SimFew E n N0 ((env S M fuel conds mount (coreSched E X)).recorded.request w x).1
      ∧ ∀ v ∈ ((env S M fuel conds mount (coreSched E X)).recorded.request w x).2,
        PendingRow ((env S M fuel conds mount (coreSched E X)).recorded.request w x).1.1.sched.1 v.target := by
    intro w x h
    obtain ⟨N, h1, h2, c, hc, how⟩ := h
    show SimFew E n N0 ((requestOf (coreSched E X) w.1 x).1, w.2 ++ [.request w.1.obs.mjd x (requestOf (coreSched E X) w.1 x).2])
      ∧ ∀ v ∈ (requestOf (coreSched E X) w.1 x).2, PendingRow (requestOf (coreSched E X) w.1 x).1.sched.1 v.target
    have hr : (coreSched E X).request w.1.sched x = (coreRequest E w.1.sched.1 x).map fun r => ((r.1, w.1.sched.2), r.2) := rfl
    unfold requestOf
    rw [hr]
    cases hq : coreRequest E w.1.sched.1 x with
    | none => exact ⟨⟨N, by rw [told_one _ _ rfl]; exact h1, h2⟩, by rintro v ⟨⟩⟩
    | some r =>
      obtain ⟨s', o⟩ := r
      obtain ⟨a, d⟩ := core_request hE hdet h2 hc how hq
      refine ⟨⟨N, by rw [told_one _ _ rfl]; exact h1, a⟩, ?_⟩
      · intro v hv
        cases o with
        | none => cases hv
        | some o =>
          have hv : some (asked o) = some v := hv
          cases hv
          exact d o rfl
  have hobs : ∀ (w : World (Core C ((Script.Cfg × Script.St) ⊕ T) A × H) K × List (Sim.Ev (Obs.Visit Obs) C B)) v, (observeOf S M fuel w.1 v).1.sched = w.1.sched
      ∧ w.1.obs.mjd ≤ (observeOf S M fuel w.1 v).1.obs.mjd
      ∧ ∀ v', (observeOf S M fuel w.1 v).2.1 = some v' → w.1.obs.mjd < (observeOf S M fuel w.1 v).1.obs.mjd
        ∧ v'.target.targetId = v.target.targetId ∧ v'.target.schedulerNote = v.target.schedulerNote := by
    intro w v
    unfold observeOf
    cases ho : Obs.observe S M fuel w.1.obs v.target with
    | error e => exact ⟨rfl, le_rfl, by rintro v' ⟨⟩⟩
    | ok r =>
      obtain ⟨s', r, nn⟩ := r
      refine ⟨rfl, Obs.observe_forward hn hd hM ho, ?_⟩
      intro v' hv'
      have hv' : r = some v' := hv'
      subst hv'
      refine ⟨?_, ?_⟩
      · rcases C62_observatory_progress S hn hd M hM δ hlong fuel _ _ _ _ _ ho with h | ⟨h, -⟩
        · have : 0 < δ / 24 / 3600 := by positivity
          dsimp only
          linarith
        · cases h
      · obtain ⟨-, -, -, -, -, -, -, -, k, hk⟩ := observe_some hn hd hM ho
        exact hK _ _ _ _ hk
  refine ⟨fun w h => h.on rfl rfl rfl le_rfl, ?_, fun w x h hx => h.on rfl rfl rfl hx, fun w v h => h.on rfl rfl rfl le_rfl, ?_,
    fun w c h => h.on rfl rfl rfl le_rfl, fun w b h => h.on rfl rfl rfl le_rfl, ?_, ?_, ?_, ?_, ?_, ?_, ?_⟩
  · rintro w ⟨N, h1, h2⟩
    refine ⟨N, ?_, core_update hE h2 _ (htime _)⟩
    have e : Sim.toldOf (Sim.updateNow (env S M fuel conds mount (coreSched E X)).recorded w).2
        = Sim.toldOf ((env S M fuel conds mount (coreSched E X)).recorded.conds w).1.2 := told_one _ _ rfl
    have e2 : Sim.toldOf ((env S M fuel conds mount (coreSched E X)).recorded.conds w).1.2 = Sim.toldOf w.2 := told_one _ _ rfl
    rw [e, e2]; exact h1
  · rintro w ⟨N, h1, h2⟩
    refine ⟨N, ?_, ⟨h2.few.surveys, Nat.zero_le _, rfl⟩, .inr (.inr (by rintro o ⟨⟩)), fun c hc => ⟨(h2.conds c hc).1, .inr (.inr (by rintro o ⟨⟩))⟩⟩
    have e : Sim.toldOf ((env S M fuel conds mount (coreSched E X)).recorded.flush w).2 = Sim.toldOf w.2 := told_one _ _ rfl
    rw [e]; exact h1
  · intro w u h hr
    have := (hreq w ((env S M fuel conds mount (coreSched E X)).recorded.clock w) h).1
    rw [hr] at this
    exact this
  · intro w u v h hr
    have := hreq w ((env S M fuel conds mount (coreSched E X)).recorded.clock w) h
    rw [hr] at this
    exact ⟨this.1, this.2 v rfl⟩
  · rintro w v x nn ⟨h, -⟩ ho
    have hx : x = ((observeOf S M fuel w.1 v).1, w.2 ++ [.observe w.1.obs.mjd v (observeOf S M fuel w.1 v).1.obs.mjd
      (observeOf S M fuel w.1 v).2.1 (observeOf S M fuel w.1 v).2.2]) := (congrArg Prod.fst ho).symm
    subst hx
    exact h.on rfl rfl (by rw [(hobs w v).1]) (hobs w v).2.1
  · rintro w v x v' nn ⟨⟨N, h1, h2⟩, hrow⟩ ho
    have hx : x = ((observeOf S M fuel w.1 v).1, w.2 ++ [.observe w.1.obs.mjd v (observeOf S M fuel w.1 v).1.obs.mjd
      (observeOf S M fuel w.1 v).2.1 (observeOf S M fuel w.1 v).2.2]) := (congrArg Prod.fst ho).symm
    have hv : (observeOf S M fuel w.1 v).2.1 = some v' := congrArg (fun z => z.2.1) ho
    obtain ⟨o1, o2, o3⟩ := hobs w v
    obtain ⟨o4, o5, o6⟩ := o3 v' hv
    subst hx
    refine ⟨N, by rw [told_one _ _ rfl]; exact h1, ?_⟩
    dsimp only
    rw [o1]
    refine ⟨fun tier t1 sv t2 => (h2.few.surveys tier t1 sv t2).old o4, h2.few.queue, h2.few.aligned, ?_, fun c hc => ⟨(h2.conds c hc).1.trans o2, (h2.conds c hc).2⟩⟩
    obtain ⟨row, r1, r2, r3⟩ := hrow
    exact ⟨row, r1, r2.trans o5.symm, r3.trans o6.symm⟩
  · rintro w v ⟨N, h1, h2⟩
    refine ⟨N, ?_, h2⟩
    have e : Sim.toldOf ((env S M fuel conds mount (coreSched E X)).recorded.overhead w v).1.2 = Sim.toldOf w.2 := told_one _ _ rfl
    rw [e]; exact h1
  · rintro w v x ⟨N, h1, h2⟩ hx
    have hx : w.1.obs.mjd ≤ x := hx
    refine ⟨N, ?_, fun tier t1 sv t2 => (h2.surveys tier t1 sv t2).later hx, h2.queue, h2.aligned, h2.row, fun c hc => ⟨(h2.conds c hc).1.trans hx, (h2.conds c hc).2⟩⟩
    have e : Sim.toldOf ((env S M fuel conds mount (coreSched E X)).recorded.setClock w x).2 = Sim.toldOf w.2 := told_one _ _ rfl
    rw [e]; exact h1
  · rintro w v ⟨N, h1, h2⟩
    have ht : Sim.toldOf ((env S M fuel conds mount (coreSched E X)).recorded.add w v).2 = Sim.toldOf w.2 ++ [v] := by
      show Sim.toldOf (w.2 ++ [.add w.1.obs.mjd v]) = _
      rw [Sim.toldOf_append]
      rfl
    obtain ⟨a, b⟩ := core_add hE (told v) ⟨h2.surveys, h2.queue, h2.aligned, h2.row, h2.conds⟩
    refine ⟨_, ?_, b⟩
    rw [ht]
    unfold madeWith at h1 ⊢
    rw [List.countP_append]
    have hnote : (told v).schedulerNote = v.target.schedulerNote := rfl
    rw [hnote] at a ⊢
    by_cases e : v.target.schedulerNote = n
    · have := a e
      simp only [e, if_true, List.countP_singleton, decide_true]
      omega
    · simp only [e, if_false, List.countP_singleton, decide_false, Bool.false_eq_true]
      omega

/-- C211 (partial): a simulation makes no more visits with a note than a script has still to observe. `N` bounds how often the note is outstanding in the
script of each scripted survey. Missing are notes that a survey ignores. -/
theorem C211_script_partial (S : Obs.Site) (hn : Obs.Nights S.nights) (hd : Down.Ordered S.downs) (M : Obs.Kin K Obs) (hM : Obs.NonNeg M) (hK : KeepsNote M)
    (fuel : ℕ) (δ : ℚ) (hδ : 0 < δ) (hlong : ∀ k o t, δ ≤ (M.observe k o t).2.2) (conds : Obs.St K → C) (mount : K → B → K)
    (E : Env C ((Script.Cfg × Script.St) ⊕ T) A) (cond : C → Script.Cond) (value : ℚ) (other : SurveyOps C T) (n : String)
    (hE : ScriptsBeside E cond value other n) (hdet : DetKeepsNotes E.q) (htime : ∀ st, E.q.mjdOf (conds st) = st.mjd)
    (X : Rest H C B) (hX : ∀ h v, 0 ≤ (X.overhead h v).2) (cfg : Sim.Cfg) (hstep : 0 ≤ cfg.stepNone) (h1 : 0 < cfg.startSize) (h2 : 0 < cfg.appendSize)
    (m : ℕ) (w : World (Core C ((Script.Cfg × Script.St) ⊕ T) A × H) K) (hw : w.sched.1.conditions = none) (hq : w.sched.1.qm.desired = [])
    (hneed : w.sched.1.qm.need = [])
    (N : ℕ) (hscript : ∀ tier ∈ w.sched.1.tiers, ∀ s, .inl s ∈ tier → MindsNote n s.1 ∧ outstanding n s.2.script ≤ N
      ∧ s.2.lastMjd < cfg.simStart.getD w.obs.mjd ∧ s.2.lastRough < cfg.simStart.getD w.obs.mjd) :
    ∃ vs : List (Obs.Visit Obs), (Sim.run (V := Obs.Visit Obs) (env S M fuel conds mount (coreSched E X)) cfg m w).st.result = vs.map some
      ∧ vs.countP (fun v => decide (v.target.schedulerNote = n)) ≤ N := by
  have Kc := whole_contract S hn hd M hM fuel conds mount (coreSched E X) (fun u v => hX _ _)
  obtain ⟨hres, -, htold⟩ := recorded_result (env S M fuel conds mount (coreSched E X)) cfg h1 h2 m w
  have Sv := script_serves S hn hd M hM hK fuel δ hδ hlong conds mount hE hdet htime X N
  have h0 : ∀ p : World (Core C ((Script.Cfg × Script.St) ⊕ T) A × H) K × List (Sim.Ev (Obs.Visit Obs) C B), p.1.sched.1 = w.sched.1 → Sim.toldOf p.2 = [] →
      p.1.obs.mjd = cfg.simStart.getD w.obs.mjd → SimFew E n N p := by
    intro p hp ht hm
    have hold : AllSurveys (SurveyOld n N p.1.obs.mjd) p.1.sched.1 := by
      rw [hp, hm]
      intro tier t1 sv t2
      cases sv with
      | inl s => exact hscript tier t1 s t2
      | inr s => trivial
    refine ⟨N, by rw [ht]; rfl, ⟨fun tier t1 sv t2 => (hold tier t1 sv t2).few, ?_, ?_⟩, .inr (.inl hold), ?_⟩
    · rw [hp]
      unfold QM.active
      rw [hq]
      exact Nat.zero_le _
    · rw [hp]
      unfold QM.Aligned
      rw [hq, hneed]; rfl
    · rw [hp, hw]
      rintro c ⟨⟩
  have key := Sim.run_serves (cfg := cfg) (Sim.recorded_contract Kc) hstep Sv (by
    intro p hp
    have hnow : ∀ q : World (Core C ((Script.Cfg × Script.St) ⊕ T) A × H) K × List (Sim.Ev (Obs.Visit Obs) C B), SimFew E n N q →
        SimFew E n N (Sim.updateNow (env S M fuel conds mount (coreSched E X)).recorded q)
        ∧ ∃ c, (Sim.updateNow (env S M fuel conds mount (coreSched E X)).recorded q).1.sched.1.conditions = some c
          ∧ E.q.mjdOf c = (Sim.updateNow (env S M fuel conds mount (coreSched E X)).recorded q).1.obs.mjd :=
      fun q h => ⟨Sv.now q h, conds q.1.obs, rfl, htime _⟩
    rcases Sim.refresh_cases (cfg := cfg) (G := fun q : World (Core C ((Script.Cfg × Script.St) ⊕ T) A × H) K × List (Sim.Ev (Obs.Visit Obs) C B) =>
        ∃ c, q.1.sched.1.conditions = some c ∧ E.q.mjdOf c = q.1.obs.mjd) hnow (fun q x h => h.on rfl rfl rfl le_rfl) (fun q x _ h => h) p hp with h | ⟨h3, h4, h5, h6⟩
    · obtain ⟨⟨M0, a1, a2⟩, c, hc, he⟩ := h
      exact ⟨M0, a1, a2, c, hc, .inl (by rw [he]; exact a2.few.surveys)⟩
    · rw [h6]
      obtain ⟨M0, a1, a2⟩ := hp
      have h4 : p.1.sched.1.conditions.isSome = true := h4
      obtain ⟨c, hc⟩ := Option.isSome_iff_exists.1 h4
      have h5 : coreCheck E p.1.sched.1 p.1.obs.mjd = true := h5
      unfold coreCheck at h5
      rw [hc] at h5
      obtain ⟨-, hsafe⟩ := a2.conds c hc
      obtain ⟨M1, b1, b2⟩ : SimFew E n N ((env S M fuel conds mount (coreSched E X)).recorded.check p ((env S M fuel conds mount (coreSched E X)).recorded.clock p)).1 :=
        SimFew.on ⟨M0, a1, a2⟩ rfl rfl rfl le_rfl
      have e : Sim.toldOf ((env S M fuel conds mount (coreSched E X)).recorded.check p ((env S M fuel conds mount (coreSched E X)).recorded.clock p)).1.2
          = Sim.toldOf p.2 := told_one _ _ rfl
      have hM : M1 = M0 := by rw [e] at b1; omega
      subst hM
      exact ⟨M1, b1, b2, c, hc, hsafe.ask hdet a2.few.aligned h5⟩) m (w, []) (by
    intro hs
    exact h0 _ rfl rfl (by rw [hs]; rfl)) (by
    intro x hs
    exact h0 _ rfl rfl (by rw [hs]; rfl))
  refine ⟨_, hres, ?_⟩
  rw [← htold]
  obtain ⟨M0, hM0, -⟩ := key
  show madeWith n _ ≤ N
  omega

/-- C211 (partial): where the notes of each script differ, as `set_script` makes sure, a simulation makes no scripted visit twice, and none that was marked as
observed before. -/
theorem C211_once_partial (S : Obs.Site) (hn : Obs.Nights S.nights) (hd : Down.Ordered S.downs) (M : Obs.Kin K Obs) (hM : Obs.NonNeg M) (hK : KeepsNote M)
    (fuel : ℕ) (δ : ℚ) (hδ : 0 < δ) (hlong : ∀ k o t, δ ≤ (M.observe k o t).2.2) (conds : Obs.St K → C) (mount : K → B → K)
    (E : Env C ((Script.Cfg × Script.St) ⊕ T) A) (cond : C → Script.Cond) (value : ℚ) (other : SurveyOps C T) (n : String)
    (hE : ScriptsBeside E cond value other n) (hdet : DetKeepsNotes E.q) (htime : ∀ st, E.q.mjdOf (conds st) = st.mjd)
    (X : Rest H C B) (hX : ∀ h v, 0 ≤ (X.overhead h v).2) (cfg : Sim.Cfg) (hstep : 0 ≤ cfg.stepNone) (h1 : 0 < cfg.startSize) (h2 : 0 < cfg.appendSize)
    (m : ℕ) (w : World (Core C ((Script.Cfg × Script.St) ⊕ T) A × H) K) (hw : w.sched.1.conditions = none) (hq : w.sched.1.qm.desired = [])
    (hneed : w.sched.1.qm.need = [])
    (hscript : ∀ tier ∈ w.sched.1.tiers, ∀ s, .inl s ∈ tier → MindsNote n s.1 ∧ (s.2.script.map Script.Entry.note).Nodup
      ∧ s.2.lastMjd < cfg.simStart.getD w.obs.mjd ∧ s.2.lastRough < cfg.simStart.getD w.obs.mjd) :
    ∃ vs : List (Obs.Visit Obs), (Sim.run (V := Obs.Visit Obs) (env S M fuel conds mount (coreSched E X)) cfg m w).st.result = vs.map some
      ∧ vs.countP (fun v => decide (v.target.schedulerNote = n)) ≤ 1
      ∧ ((∀ tier ∈ w.sched.1.tiers, ∀ s, .inl s ∈ tier → ∀ e ∈ s.2.script, e.note = n → e.observed = true) → ∀ v ∈ vs, v.target.schedulerNote ≠ n) := by
  have hone : ∀ es : List Script.Entry, (es.map Script.Entry.note).Nodup → outstanding n es ≤ 1 := by
    intro es hes
    unfold outstanding
    calc es.countP (fun e => decide (e.note = n) && !e.observed) ≤ es.countP (fun e => decide (e.note = n)) :=
          List.countP_mono_left fun e _ h => by simp only [Bool.and_eq_true] at h; exact h.1
      _ = (es.map Script.Entry.note).count n := by
          rw [List.count, List.countP_map]
          refine List.countP_congr fun e _ => ?_
          simp
      _ ≤ 1 := List.nodup_iff_count_le_one.1 hes n
  obtain ⟨vs, v1, v2⟩ := C211_script_partial S hn hd M hM hK fuel δ hδ hlong conds mount E cond value other n hE hdet htime X hX cfg hstep h1 h2 m w hw hq hneed 1
    (fun tier t1 s t2 => ⟨(hscript tier t1 s t2).1, hone _ (hscript tier t1 s t2).2.1, (hscript tier t1 s t2).2.2⟩)
  refine ⟨vs, v1, v2, fun hobs => ?_⟩
  obtain ⟨vs', v3, v4⟩ := C211_script_partial S hn hd M hM hK fuel δ hδ hlong conds mount E cond value other n hE hdet htime X hX cfg hstep h1 h2 m w hw hq hneed 0
    (fun tier t1 s t2 => ⟨(hscript tier t1 s t2).1, by
      unfold outstanding
      rw [Nat.le_zero, List.countP_eq_zero]
      intro e he hcon
      simp only [Bool.and_eq_true, decide_eq_true_eq, Bool.not_eq_true'] at hcon
      rw [hobs tier t1 s t2 e he hcon.1] at hcon
      exact absurd hcon.2 (by decide), (hscript tier t1 s t2).2.2⟩)
  have hsame : vs' = vs := by
    have := v3.symm.trans v1
    exact List.map_injective_iff.2 (Option.some_injective _) this
  subst hsame
  rw [Nat.le_zero, List.countP_eq_zero] at v4
  intro v hv hcon
  exact v4 v hv (by simpa using hcon)

end

/-! ### A small simulation -/

/-- Surveys whose visits have no notes. -/
def plainSv : SurveyOps ToyC ToySv := { toyE.sv with gen := fun s _ => (s.visits.map fun o => { o with schedulerNote := "" }, s) }

/-- Scripted surveys beside them. -/
def scriptEnv : Env ToyC ((Script.Cfg × Script.St) ⊕ ToySv) Unit where
  q := toyE.q
  sv := Script.mixed (Script.ops (fun c => skyAt c.mjd) 2) plainSv
  toos := toyE.toos

/-- A script in the first tier, a survey of visits in the y band in the second. -/
def scriptStart (ignore : List String) (script : List Script.Entry) : World (Core ToyC ((Script.Cfg × Script.St) ⊕ ToySv) Unit × Unit) ℚ :=
  ⟨⟨0, 0, 40⟩, (Core.init () [[.inl (cfg0 .none ignore, { Script.init 0 with script := script })],
    [.inr ⟨[.fin 1], [{ targetId := 0, band := "y" }], none⟩]] 5 true [], ()), false⟩

def scriptSim : Sim.Env (World (Core ToyC ((Script.Cfg × Script.St) ⊕ ToySv) Unit × Unit) ℚ) (Obs.Visit Obs) ToyC Unit :=
  env toySite wholeKin 20 (fun s => ⟨s.mjd, none⟩) (fun k _ => k) (coreSched scriptEnv wholeRest)

/-- Notes and bands of the visits of a simulation. -/
def scriptMade (ignore : List String) (script : List Script.Entry) : List (Option (String × String)) :=
  (Sim.run (V := Obs.Visit Obs) scriptSim { duration := 1 / 5, startSize := 2, appendSize := 2 } 30 (scriptStart ignore script)).st.result.map
    fun r => r.map fun v => (v.target.schedulerNote, v.target.band)

/-- Three scripted visits are made, two at a time, and then the other survey has its turn. -/
example : (scriptMade [] [visit "a" "r" 0, visit "b" "g" 0, visit "c" "r" 0]).take 5
    = [some ("a", "r"), some ("b", "g"), some ("c", "r"), some ("", "y"), some ("", "y")] := by decide +kernel

/-- C211 is violated by a visit whose note the survey ignores: it is made again and again, and keeps all surveys of lower tiers from observing. -/
theorem C211_ignored_violated : scriptMade ["DD"] [visit "a" "r" 0, visit "DD:b" "g" 0, visit "c" "r" 0]
    = [some ("a", "r"), some ("DD:b", "g"), some ("DD:b", "g"), some ("c", "r"), some ("DD:b", "g"), some ("DD:b", "g"), some ("DD:b", "g"), some ("DD:b", "g"),
      some ("DD:b", "g")] := by decide +kernel

/-- The assumptions of C211 are met by this simulation, for the note of the second visit. -/
example : KeepsNote wholeKin ∧ (∀ k o t, 2000 ≤ (wholeKin.observe k o t).2.2) ∧ ScriptsBeside scriptEnv (fun c => skyAt c.mjd) 2 plainSv "b"
    ∧ DetKeepsNotes scriptEnv.q ∧ MindsNote "b" (cfg0 .none []) ∧ (scriptStart [] [visit "a" "r" 0, visit "b" "g" 0]).sched.1.conditions = none
    ∧ (scriptStart [] [visit "a" "r" 0, visit "b" "g" 0]).sched.1.qm.desired = [] ∧ (scriptStart [] [visit "a" "r" 0, visit "b" "g" 0]).sched.1.qm.need = [] := by
  refine ⟨?_, fun _ _ _ => le_rfl, ⟨rfl, fun _ => rfl, ?_⟩, ⟨fun _ _ l o ho => ⟨o, ho, rfl, rfl⟩, fun _ _ l h => h⟩,
    ⟨by decide +kernel, fun l => le_rfl, fun l e he => ⟨e, he, le_rfl⟩⟩, rfl, rfl, rfl⟩
  · intro k t o o' h
    cases h
    exact ⟨rfl, rfl⟩
  · intro s c o ho
    obtain ⟨o', -, rfl⟩ := List.mem_map.1 ho
    show "" ≠ "b"
    decide

end Verif
