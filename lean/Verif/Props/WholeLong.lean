import Verif.Lemmas.Cause
import Verif.Model.LongSim
import Verif.Props.LongGap
import Verif.Props.WholeWindow

/-!
Property C244: in a simulation, the third visits of long gap surveys come after second visits of pairs, in the same night, with the gap of that night between them.
-/

namespace Verif

open Whole Core

section
variable {C B T A H K ι : Type}

/-- The row of the script was made for the visit `b`, the second one of a pair. -/
def FromPair (g : Lgs.Cfg C B) (b : Obs) (e : Script.Entry) : Prop :=
  b.schedulerNote = g.long.blobNote ++ ", b" ∧ (∃ k, e.note = Script.tag g.long.longName k) ∧ e.ra = b.ra ∧ e.dec = b.dec ∧ e.tol = g.long.tol
    ∧ ∃ n : ℕ, (g.long.avoid = false → n = 0) ∧ e.mjd = b.mjd + g.long.gaps (g.visitNight b) + n * g.long.step ∧ e.flush = e.mjd + g.long.flush

/-- The columns of a row that matter here. -/
def rowPlan (e : Script.Entry) : String × ℚ × ℚ × ℚ × ℚ × ℚ := (e.note, e.ra, e.dec, e.mjd, e.tol, e.flush)

/-- At the time `t`, in its window, the row was for a visit of the same night. -/
def GoodRow (g : Lgs.Cfg C B) (nightOf : ℚ → ℤ) (hs : List Obs) (t : ℚ) (e : Script.Entry) : Prop :=
  ∃ b ∈ hs, FromPair g b e ∧ nightOf b.mjd = nightOf t ∧ InPlan (planOf e) t

theorem FromPair.congr {g : Lgs.Cfg C B} {b : Obs} {e e' : Script.Entry} (h : rowPlan e' = rowPlan e) (hf : FromPair g b e') : FromPair g b e := by
  unfold rowPlan at h
  simp only [Prod.mk.injEq] at h
  obtain ⟨h1, h2, h3, h4, h5, h6⟩ := h
  unfold FromPair at hf ⊢
  rw [← h1, ← h2, ← h3, ← h4, ← h5, ← h6]
  exact hf

theorem GoodRow.congr {g : Lgs.Cfg C B} {nightOf : ℚ → ℤ} {hs : List Obs} {t : ℚ} {e e' : Script.Entry} (h : rowPlan e' = rowPlan e) (hf : GoodRow g nightOf hs t e') :
    GoodRow g nightOf hs t e := by
  obtain ⟨b, hb, h1, h2, h3⟩ := hf
  refine ⟨b, hb, h1.congr h, h2, ?_⟩
  have hp : planOf e' = planOf e := by
    unfold rowPlan at h
    simp only [Prod.mk.injEq] at h
    unfold planOf
    simp only [Prod.mk.injEq]
    exact ⟨h.1, h.2.2.2.1, h.2.2.2.2.1, h.2.2.2.2.2⟩
  rw [← hp]
  exact h3

theorem GoodRow.more {g : Lgs.Cfg C B} {nightOf : ℚ → ℤ} {hs hs' : List Obs} {t : ℚ} {e : Script.Entry} (h : GoodRow g nightOf hs t e) :
    GoodRow g nightOf (hs ++ hs') t e := by
  obtain ⟨b, hb, h⟩ := h
  exact ⟨b, List.mem_append_left _ hb, h⟩

/-- The survey has heard of the visits: its rows are for visits since its last night began. -/
structure LongHeard (cfgs : ι → Lgs.Cfg C B) (nightOf : ℚ → ℤ) (hs : List Obs) (bar : ℚ) (p : ι × Lgs.St B) : Prop where
  night : p.2.night ≤ nightOf bar
  rows : ∀ e ∈ p.2.script.script, ∃ b ∈ hs, FromPair (cfgs p.1) b e ∧ p.2.night ≤ nightOf b.mjd
  obs : ∀ e ∈ p.2.script.obs, GoodRow (cfgs p.1) nightOf hs p.2.script.lastMjd e
  rough : ∀ e ∈ p.2.script.rough, GoodRow (cfgs p.1) nightOf hs p.2.script.lastRough e

/-- What is asked of the settings: gaps are not smaller than the tolerance, steps are forward, and detailers of the script keep these columns. -/
structure LongSane (cfgs : ι → Lgs.Cfg C B) : Prop where
  gap : ∀ i n, (cfgs i).long.tol ≤ (cfgs i).long.gaps n
  step : ∀ i, 0 ≤ (cfgs i).long.step
  detail : ∀ i l, ∀ e ∈ (cfgs i).script.detail l, ∃ e' ∈ l, rowPlan e' = rowPlan e

theorem FromPair.before {cfgs : ι → Lgs.Cfg C B} (hs : LongSane cfgs) {i : ι} {b : Obs} {e : Script.Entry} {t : ℚ} (h : FromPair (cfgs i) b e) (hp : InPlan (planOf e) t) :
    b.mjd < t := by
  obtain ⟨-, -, -, -, ht, n, -, hm, -⟩ := h
  have h1 : e.mjd - e.tol < t := hp.1
  rw [hm, ht] at h1
  have h2 := hs.gap i ((cfgs i).visitNight b)
  have h3 : 0 ≤ (n : ℚ) * (cfgs i).long.step := mul_nonneg (by positivity) (hs.step i)
  linarith

/-- A scripted survey that is asked in the night of its rows. -/
theorem long_gen {cfgs : ι → Lgs.Cfg C B} (hsane : LongSane cfgs) {nightOf : ℚ → ℤ} (hmono : Monotone nightOf) {hs : List Obs} {bar : ℚ} {i : ι} {s : Lgs.St B}
    (h : LongHeard cfgs nightOf hs bar (i, s)) (c : Script.Cond) (hnow : s.night = nightOf c.mjd) :
    (Script.gen (cfgs i).script s.script c).1.script = s.script.script
      ∧ (∀ e ∈ (Script.gen (cfgs i).script s.script c).1.obs, GoodRow (cfgs i) nightOf hs (Script.gen (cfgs i).script s.script c).1.lastMjd e)
      ∧ (∀ e ∈ (Script.gen (cfgs i).script s.script c).1.rough, GoodRow (cfgs i) nightOf hs (Script.gen (cfgs i).script s.script c).1.lastRough e)
      ∧ ∀ e ∈ (Script.gen (cfgs i).script s.script c).2, GoodRow (cfgs i) nightOf hs c.mjd e := by
  have hc : ∀ e ∈ Script.checkList (cfgs i).script s.script c, GoodRow (cfgs i) nightOf hs c.mjd e := by
    intro e he
    obtain ⟨h1, h2⟩ := checkList_plan _ _ _ e he
    obtain ⟨b, hb, hf, hn⟩ := h.rows e h1
    refine ⟨b, hb, hf, ?_, h2⟩
    have hlt := hf.before hsane h2
    exact le_antisymm (hmono hlt.le) (by rw [← hnow]; exact hn)
  have hr : (Script.genRough (cfgs i).script s.script c).1.script = s.script.script
      ∧ (∀ e ∈ (Script.genRough (cfgs i).script s.script c).1.rough, GoodRow (cfgs i) nightOf hs (Script.genRough (cfgs i).script s.script c).1.lastRough e)
      ∧ ∀ e ∈ (Script.genRough (cfgs i).script s.script c).2, GoodRow (cfgs i) nightOf hs c.mjd e := by
    unfold Script.genRough
    by_cases h1 : s.script.lastRough = c.mjd
    · rw [if_pos h1]
      exact ⟨rfl, h.rough, fun e he => h1 ▸ h.rough e he⟩
    · rw [if_neg h1]
      dsimp only
      split_ifs
      · exact ⟨rfl, fun e he => absurd he List.not_mem_nil, fun e he => absurd he List.not_mem_nil⟩
      · exact ⟨rfl, fun e he => absurd he List.not_mem_nil, fun e he => absurd he List.not_mem_nil⟩
      · exact ⟨rfl, hc, hc⟩
  unfold Script.gen
  by_cases h1 : s.script.lastMjd = c.mjd
  · rw [if_pos h1]
    exact ⟨rfl, h.obs, h.rough, fun e he => h1 ▸ h.obs e he⟩
  · rw [if_neg h1]
    dsimp only
    have hN : ∀ e ∈ (if (Script.genRough (cfgs i).script s.script c).2 = [] then (Script.genRough (cfgs i).script s.script c).2
        else (cfgs i).script.detail (Script.genRough (cfgs i).script s.script c).2), GoodRow (cfgs i) nightOf hs c.mjd e := by
      intro e he
      split_ifs at he
      · exact hr.2.2 e he
      · obtain ⟨e', h2, h3⟩ := hsane.detail i _ e he
        exact (hr.2.2 e' h2).congr h3
    exact ⟨hr.1, hN, hr.2.1, hN⟩

/-- The rows of the night are for visits of the night. -/
theorem long_clean {cfgs : ι → Lgs.Cfg C B} {nightOf : ℚ → ℤ} {hs : List Obs} {bar : ℚ} {i : ι} {s : Lgs.St B} (h : LongHeard cfgs nightOf hs bar (i, s)) (c : C)
    (hle : (cfgs i).night c ≤ nightOf bar) : LongHeard cfgs nightOf hs bar (i, Lgs.clean (cfgs i) s c) ∧ (Lgs.clean (cfgs i) s c).night = (cfgs i).night c := by
  unfold Lgs.clean
  split_ifs with hne
  · exact ⟨⟨hle, fun e he => absurd he List.not_mem_nil, h.obs, h.rough⟩, rfl⟩
  · exact ⟨h, (not_not.1 hne).symm⟩

theorem tagAll_mem (l : List Script.Entry) : ∀ k, ∀ e ∈ Script.tagAll k l, ∃ e0 ∈ l, ∃ j, e = { e0 with note := Script.tag e0.note j } := by
  induction l with
  | nil => intro k e he; cases he
  | cons a l ih =>
    intro k e he
    rcases List.mem_cons.1 he with rfl | he
    · exact ⟨a, List.mem_cons_self, k, rfl⟩
    · obtain ⟨e0, h0, j, h⟩ := ih _ e he
      exact ⟨e0, List.mem_cons_of_mem _ h0, j, h⟩

theorem long_schedule {cfgs : ι → Lgs.Cfg C B} {nightOf : ℚ → ℤ} {hs : List Obs} {i : ι} {s : Lgs.St B} (o : Obs) (h : LongHeard cfgs nightOf hs o.mjd (i, s)) :
    LongHeard cfgs nightOf (hs ++ [o]) o.mjd (i, Lgs.schedule (cfgs i) [o] s) := by
  have h0 : LongHeard cfgs nightOf (hs ++ [o]) o.mjd (i, s) :=
    ⟨h.night, fun e he => by obtain ⟨b, hb, hf⟩ := h.rows e he; exact ⟨b, List.mem_append_left _ hb, hf⟩, fun e he => (h.obs e he).more, fun e he => (h.rough e he).more⟩
  have hr : LongHeard cfgs nightOf (hs ++ [o]) o.mjd (i, { s with raised := true }) := ⟨h0.night, h0.rows, h0.obs, h0.rough⟩
  unfold Lgs.schedule
  rw [if_neg (by simp)]
  cases hp : Long.planned (cfgs i).long (cfgs i).fuel ([o].map (Lgs.seen (cfgs i))) with
  | none => exact hr
  | some l =>
    cases l with
    | nil => exact h0
    | cons e es =>
      dsimp only
      cases hs' : Script.setScript (fun _ => none) s.script ((e :: es).map (Lgs.row (cfgs i))) true true with
      | none => exact hr
      | some t =>
        dsimp only
        unfold Script.setScript at hs'
        simp only [if_true] at hs'
        split_ifs at hs' with hnd
        cases hs'
        obtain ⟨k, hk, hsrc, hrow⟩ := C102_scheduled _ _ _ _ hp
        refine ⟨h0.night, ?_, h0.obs, h0.rough⟩
        intro x hx
        rcases List.mem_append.1 hx with hx | hx
        · exact h0.rows x hx
        · obtain ⟨e0, he0, j, rfl⟩ := tagAll_mem _ _ x hx
          obtain ⟨e1, he1, rfl⟩ := List.mem_map.1 he0
          obtain ⟨hm, hfl, hnote⟩ := hrow e1 he1
          obtain ⟨hin, hbn, -⟩ := (hsrc e1.src).1 ⟨e1, he1, rfl⟩
          have hin : e1.src = Lgs.seen (cfgs i) o := by simpa using hin
          refine ⟨o, by simp, ⟨?_, ⟨j, ?_⟩, ?_, ?_, rfl, k, hk, ?_, hfl⟩, h0.night⟩
          · rw [hin] at hbn; exact hbn
          · show Script.tag e1.note j = _
            rw [hnote]
          · show e1.src.ra = _
            rw [hin]; rfl
          · show e1.src.dec = _
            rw [hin]; rfl
          · show e1.mjd = _
            rw [hm, hin]; rfl

theorem markFirst_row (m : String) (es : List Script.Entry) : ∀ e ∈ Script.markFirst m es, ∃ e' ∈ es, rowPlan e' = rowPlan e := by
  induction es with
  | nil => intro e he; cases he
  | cons a es ih =>
    unfold Script.markFirst
    split_ifs
    · intro e he
      rcases List.mem_cons.1 he with rfl | he'
      · exact ⟨a, List.mem_cons_self, rfl⟩
      · exact ⟨e, List.mem_cons_of_mem _ he', rfl⟩
    · intro e he
      rcases List.mem_cons.1 he with rfl | he'
      · exact ⟨_, List.mem_cons_self, rfl⟩
      · obtain ⟨e', h1, h2⟩ := ih e he'
        exact ⟨e', List.mem_cons_of_mem _ h1, h2⟩

/-- The note is that of a third visit. -/
def ThirdNote (cfgs : ι → Lgs.Cfg C B) (note : String) : Prop := ∃ i k, note = Script.tag (cfgs i).long.longName k

/-- Why a third visit is asked for at a time `t`: a second visit of a pair, among those heard of, at the same position and in the same night, and the time is around that
of the visit and the gap of its night, perhaps with some steps to keep away from the zenith. -/
def ThirdOf (cfgs : ι → Lgs.Cfg C B) (nightOf : ℚ → ℤ) (hs : List Obs) (t : ℚ) (k : String × ℚ × ℚ) : Prop :=
  ∃ i, ∃ b ∈ hs, b.schedulerNote = (cfgs i).long.blobNote ++ ", b" ∧ b.ra = k.2.1 ∧ b.dec = k.2.2 ∧ nightOf b.mjd = nightOf t
    ∧ (∃ j, k.1 = Script.tag (cfgs i).long.longName j)
    ∧ ∃ n : ℕ, ((cfgs i).long.avoid = false → n = 0)
      ∧ b.mjd + (cfgs i).long.gaps ((cfgs i).visitNight b) + n * (cfgs i).long.step - (cfgs i).long.tol < t
      ∧ t < b.mjd + (cfgs i).long.gaps ((cfgs i).visitNight b) + n * (cfgs i).long.step + (cfgs i).long.flush

theorem GoodRow.third {cfgs : ι → Lgs.Cfg C B} {nightOf : ℚ → ℤ} {hs : List Obs} {t : ℚ} {i : ι} {e : Script.Entry} (h : GoodRow (cfgs i) nightOf hs t e) :
    ThirdOf cfgs nightOf hs t (e.note, e.ra, e.dec) := by
  obtain ⟨b, hb, ⟨h1, h2, h3, h4, h5, n, h6, h7, h8⟩, hn, hp⟩ := h
  refine ⟨i, b, hb, h1, h3.symm, h4.symm, hn, h2, n, h6, ?_, ?_⟩
  · have := hp.1
    unfold planOf at this
    rw [h5, h7] at this
    exact this
  · have := hp.2
    unfold planOf at this
    rw [h8, h7] at this
    exact this

/-- What is told of surveys: of long gap surveys what they have heard; nothing of others. -/
def MixHeard (cfgs : ι → Lgs.Cfg C B) (nightOf : ℚ → ℤ) (hs : List Obs) (bar : ℚ) : (ι × Lgs.St B) ⊕ T → Prop
  | .inl p => LongHeard cfgs nightOf hs bar p
  | .inr _ => True

theorem long_reward {cfgs : ι → Lgs.Cfg C B} (hsane : LongSane cfgs) {nightOf : ℚ → ℤ} (hmono : Monotone nightOf) {mjdOf : C → ℚ}
    (htime : ∀ i c, ((cfgs i).cond c).mjd = mjdOf c) (hnight : ∀ i c, (cfgs i).night c = nightOf (mjdOf c))
    {hs : List Obs} {bar : ℚ} {i : ι} {s : Lgs.St B} (h : LongHeard cfgs nightOf hs bar (i, s)) (c : C) (hle : mjdOf c ≤ bar) :
    LongHeard cfgs nightOf hs bar (i, (Lgs.reward (cfgs i) s c).2) ∧ (Lgs.reward (cfgs i) s c).2.night = nightOf (mjdOf c) := by
  obtain ⟨h1, h2⟩ := long_clean h c (by rw [hnight]; exact hmono hle)
  rw [hnight] at h2
  obtain ⟨g1, g2, g3, -⟩ := long_gen hsane hmono h1 ((cfgs i).cond c) (by rw [h2, htime])
  refine ⟨⟨h1.night, ?_, g2, g3⟩, h2⟩
  show ∀ e ∈ (Script.gen (cfgs i).script (Lgs.clean (cfgs i) s c).script ((cfgs i).cond c)).1.script, _
  rw [g1]
  exact h1.rows

/-- Long gap surveys offer third visits only after second ones. -/
def longCauses {E : Env C ((ι × Lgs.St B) ⊕ T) A} {cfgs : ι → Lgs.Cfg C B} {other : SurveyOps C T} (hE : E.sv = Script.mixed (Lgs.ops cfgs) other) (hsane : LongSane cfgs)
    {nightOf : ℚ → ℤ} (hmono : Monotone nightOf) (htime : ∀ i c, ((cfgs i).cond c).mjd = E.q.mjdOf c) (hnight : ∀ i c, (cfgs i).night c = nightOf (E.q.mjdOf c))
    (hother : ∀ s c, ∀ o ∈ (other.gen s c).1, ¬ ThirdNote cfgs o.schedulerNote) (hblob : ∀ i s c, ∀ o ∈ ((cfgs i).blob.gen s c).1, ¬ ThirdNote cfgs o.schedulerNote) :
    Causes E (fun o => (o.schedulerNote, o.ra, o.dec)) (fun hs t k => ThirdNote cfgs k.1 → ThirdOf cfgs nightOf hs t k) where
  Heard := MixHeard cfgs nightOf
  later := by
    rintro hs x y (⟨i, s⟩ | s) hxy h
    · have h : LongHeard cfgs nightOf hs x (i, s) := h
      exact ⟨h.night.trans (hmono hxy), h.rows, h.obs, h.rough⟩
    · trivial
  reward := by
    rintro hs bar (⟨i, s⟩ | s) c hle h
    · rw [hE]; exact (long_reward hsane hmono htime hnight h c hle).1
    · rw [hE]; trivial
  gen := by
    rintro hs bar (⟨i, s⟩ | s) c hle h
    · rw [hE]
      obtain ⟨h1, h2⟩ := long_reward hsane hmono htime hnight h c hle
      show LongHeard cfgs nightOf hs bar (i, (Lgs.gen (cfgs i) (Lgs.reward (cfgs i) s c).2 c).2)
      generalize (Lgs.reward (cfgs i) s c).2 = u at h1 h2
      unfold Lgs.gen
      split_ifs
      · exact h1
      · obtain ⟨g1, g2, g3, -⟩ := long_gen hsane hmono h1 ((cfgs i).cond c) (by rw [h2, htime])
        refine ⟨h1.night, ?_, g2, g3⟩
        show ∀ e ∈ (Script.gen (cfgs i).script u.script ((cfgs i).cond c)).1.script, _
        rw [g1]
        exact h1.rows
      · exact ⟨h1.night, h1.rows, h1.obs, h1.rough⟩
    · rw [hE]; trivial
  update := by
    rintro hs bar (⟨i, s⟩ | s) c hle h
    · rw [hE]; exact h
    · rw [hE]; trivial
  hear := by
    rintro hs (⟨i, s⟩ | s) o h
    · rw [hE]
      have h1 := long_schedule o h
      show LongHeard cfgs nightOf (hs ++ [o]) o.mjd (i, Lgs.addObs (cfgs i) s o)
      unfold Lgs.addObs
      generalize Lgs.schedule (cfgs i) [o] s = u at h1
      dsimp only
      unfold Script.addOne
      split_ifs
      · refine ⟨h1.night, ?_, h1.obs, h1.rough⟩
        intro e he
        obtain ⟨e', h2, h3⟩ := markFirst_row _ _ e he
        obtain ⟨b, hb, hf, hn⟩ := h1.rows e' h2
        exact ⟨b, hb, hf.congr h3, hn⟩
      · exact ⟨h1.night, h1.rows, h1.obs, h1.rough⟩
    · rw [hE]; trivial
  cause := by
    rintro hs bar (⟨i, s⟩ | s) c hle h o ho
    · refine ⟨_, hle, fun hthird => ?_⟩
      rw [hE] at ho
      obtain ⟨h1, h2⟩ := long_reward hsane hmono htime hnight h c hle
      have ho : o ∈ (Lgs.gen (cfgs i) (Lgs.reward (cfgs i) s c).2 c).1 := ho
      generalize (Lgs.reward (cfgs i) s c).2 = u at h1 h2 ho
      unfold Lgs.gen at ho
      split_ifs at ho
      · cases ho
      · obtain ⟨-, -, -, g4⟩ := long_gen hsane hmono h1 ((cfgs i).cond c) (by rw [h2, htime])
        obtain ⟨e, he, rfl⟩ := List.mem_map.1 ho
        have := (g4 e he).third
        rw [htime] at this
        exact this
      · exact absurd hthird (hblob i _ _ o ho)
    · refine ⟨_, hle, fun hthird => ?_⟩
      rw [hE] at ho
      exact absurd hthird (hother _ _ o ho)

/-- C244: every visit of a simulation that has a note of a third visit follows the second visit of a pair, made before in this simulation, at the same position;
it is asked for in the same night as that, and when the gap of the night is over: not earlier than the tolerance allows, and not after it expires. -/
theorem C244_third (S : Obs.Site) (hn : Obs.Nights S.nights) (hd : Down.Ordered S.downs) (M : Obs.Kin K Obs) (hM : Obs.NonNeg M) (fuel : ℕ) {Bd : Type}
    (conds : Obs.St K → C) (mount : K → Bd → K) (E : Env C ((ι × Lgs.St B) ⊕ T) A) (hnow : ∀ st, E.q.mjdOf (conds st) = st.mjd)
    (cfgs : ι → Lgs.Cfg C B) (other : SurveyOps C T) (hE : E.sv = Script.mixed (Lgs.ops cfgs) other) (hsane : LongSane cfgs)
    (nightOf : ℚ → ℤ) (hmono : Monotone nightOf) (htime : ∀ i c, ((cfgs i).cond c).mjd = E.q.mjdOf c) (hnight : ∀ i c, (cfgs i).night c = nightOf (E.q.mjdOf c))
    (hother : ∀ s c, ∀ o ∈ (other.gen s c).1, ¬ ThirdNote cfgs o.schedulerNote) (hblob : ∀ i s c, ∀ o ∈ ((cfgs i).blob.gen s c).1, ¬ ThirdNote cfgs o.schedulerNote)
    (hkey : KeptColumns E M (fun o => (o.schedulerNote, o.ra, o.dec)))
    (X : Rest H C Bd) (hX : ∀ h v, 0 ≤ (X.overhead h v).2) (cfg : Sim.Cfg) (hstep : 0 ≤ cfg.stepNone) (h1 : 0 < cfg.startSize) (h2 : 0 < cfg.appendSize) (m : ℕ)
    (w : World (Core C ((ι × Lgs.St B) ⊕ T) A × H) K) (hc : w.sched.1.conditions = none) (hq : w.sched.1.qm.desired = [])
    (hnew : ∀ tier ∈ w.sched.1.tiers, ∀ p, .inl p ∈ tier → p.2.night ≤ nightOf (cfg.simStart.getD w.obs.mjd)
      ∧ p.2.script.script = [] ∧ p.2.script.obs = [] ∧ p.2.script.rough = []) :
    ∃ vs : List (Obs.Visit Obs), (Sim.run (V := Obs.Visit Obs) (env S M fuel conds mount (coreSched E X)) cfg m w).st.result = vs.map some
      ∧ ∀ j v, vs[j]? = some v → ThirdNote cfgs v.target.schedulerNote →
        ∃ t ≤ slewStart v, ThirdOf cfgs nightOf ((vs.take j).map madeRow) t (v.target.schedulerNote, v.target.ra, v.target.dec) := by
  have key := cause_kept S hn hd M hM fuel conds mount (longCauses hE hsane hmono htime hnight hother hblob) hnow hkey X hX cfg hstep h1 h2 m w hc hq []
  obtain ⟨vs, hr, hv⟩ := key (by
    rintro tier ht (p | s) hs
    · obtain ⟨a, b, c, d⟩ := hnew tier ht p hs
      refine ⟨a, ?_, ?_, ?_⟩
      · rw [b]; exact fun e he => absurd he List.not_mem_nil
      · rw [c]; exact fun e he => absurd he List.not_mem_nil
      · rw [d]; exact fun e he => absurd he List.not_mem_nil
    · trivial)
  refine ⟨vs, hr, ?_⟩
  intro j v hj hthird
  obtain ⟨h0, t, hp, ht, hb, -⟩ := hv j v hj
  obtain ⟨i, b, hb0, hrest⟩ := hb hthird
  exact ⟨t, ht, i, b, hp.subset hb0, hrest⟩

end

/-! ### Examples -/

/-- Pairs at one position again and again. -/
def pairSv : SurveyOps ToyC Unit where
  reward s _ := ([.fin 1], s)
  gen s _ := ([{ targetId := 0, ra := 1, dec := 5, band := "g", schedulerNote := "pair, a" }, { targetId := 0, ra := 1, dec := 5, band := "g", schedulerNote := "pair, b" }], s)
  addObs s _ := s
  addArr s _ := s
  update s _ := s
  scheduled _ := none

/-- A third visit a twentieth of a day later; the position is near the zenith until 1/10. -/
def longCfg : Lgs.Cfg ToyC Unit where
  long := { blobNote := "pair", longName := "long", gaps := fun _ => 1 / 20, tol := 1 / 100, flush := 1 / 10, block := 1 / 50, avoid := true, altMax := 8, step := 1 / 50,
            alt := fun _ t => if t < 1 / 10 then 9 else 5 }
  fuel := 100
  blob := pairSv
  script := cfg0 .none []
  value := 2
  cond c := skyAt c.mjd
  night c := ⌊c.mjd⌋
  visitNight o := ⌊o.mjd⌋.toNat
  exptime := 30
  altMin := 2
  altMax := 8
  haMax := 20
  haMin := 4
  sunMax := 0

def longEnv : Env ToyC ((Unit × Lgs.St Unit) ⊕ ToySv) Unit where
  q := toyE.q
  sv := Script.mixed (Lgs.ops fun _ => longCfg) plainSv
  toos := toyE.toos

def longStart : World (Core ToyC ((Unit × Lgs.St Unit) ⊕ ToySv) Unit × Unit) ℚ :=
  ⟨⟨0, 0, 40⟩, (Core.init () [[.inl ((), Lgs.init () 0)], [.inr ⟨[.fin 1], [{ targetId := 0, band := "y" }], none⟩]] 5 true [], ()), false⟩

/-- Notes and beginnings of the visits of a simulation. -/
def longMade : List (Option (String × ℚ)) × Bool :=
  let o := Sim.run (V := Obs.Visit Obs) (env toySite wholeKin 20 (fun s => ⟨s.mjd, none⟩) (fun k _ => k) (coreSched longEnv wholeRest))
    { duration := 1, startSize := 3, appendSize := 3 } 40 longStart
  (o.st.result.map fun r => r.map fun v => (v.target.schedulerNote, slewStart v), o.st.w.raised)

/-- The first three pairs are followed later in the night, one after the other. -/
example : longMade = ([some ("pair, a", 0), some ("pair, b", 103 / 4320), some ("pair, a", 103 / 2160), some ("pair, b", 103 / 1440),
    some ("pair, a", 103 / 1080), some ("pair, b", 103 / 864), some ("long, 0", 103 / 720), some ("long, 1", 721 / 4320), some ("long, 2", 103 / 540),
    some ("pair, a", 103 / 480)], false) := by decide +kernel

theorem third_starts {note : String} (h : ThirdNote (fun _ : Unit => longCfg) note) : note.toList.head? = some 'l' := by
  obtain ⟨-, k, rfl⟩ := h
  show (Script.tag "long" k).toList.head? = some 'l'
  simp [Script.tag, Script.cut, String.toList_append]

/-- The assumptions of C244 are met by it. -/
example : LongSane (fun _ : Unit => longCfg) ∧ Monotone (fun x : ℚ => ⌊x⌋) ∧ (∀ c, (longCfg.cond c).mjd = longEnv.q.mjdOf c) ∧ (∀ c, longCfg.night c = ⌊longEnv.q.mjdOf c⌋)
    ∧ (∀ s c, ∀ o ∈ (plainSv.gen s c).1, ¬ ThirdNote (fun _ : Unit => longCfg) o.schedulerNote)
    ∧ (∀ s c, ∀ o ∈ (longCfg.blob.gen s c).1, ¬ ThirdNote (fun _ : Unit => longCfg) o.schedulerNote)
    ∧ KeptColumns longEnv wholeKin (fun o => (o.schedulerNote, o.ra, o.dec))
    ∧ (∀ tier ∈ longStart.sched.1.tiers, ∀ p, .inl p ∈ tier → p.2.night ≤ ⌊(0 : ℚ)⌋ ∧ p.2.script.script = [] ∧ p.2.script.obs = [] ∧ p.2.script.rough = []) := by
  refine ⟨⟨fun _ _ => ?_, fun _ => ?_, fun _ l e he => ⟨e, he, rfl⟩⟩, Int.floor_mono, fun _ => rfl, fun _ => rfl, ?_, ?_,
    ⟨fun _ _ _ => rfl, fun _ _ => rfl, fun _ _ l o ho => ⟨o, ho, rfl⟩, ?_⟩, ?_⟩
  · show (1 / 100 : ℚ) ≤ 1 / 20
    norm_num
  · show (0 : ℚ) ≤ 1 / 50
    norm_num
  · intro s c o ho h
    obtain ⟨o', -, rfl⟩ := List.mem_map.1 ho
    exact absurd (third_starts h) (by show ¬ ("" : String).toList.head? = _; decide)
  · intro s c o ho h
    have ho : o ∈ (pairSv.gen s c).1 := ho
    simp only [pairSv, List.mem_cons, List.not_mem_nil, or_false] at ho
    rcases ho with rfl | rfl <;> exact absurd (third_starts h) (by decide)
  · intro k t o o' h
    have h : some o = some o' := h
    cases h
    rfl
  · intro tier ht p hp
    have ht : tier ∈ [[(.inl ((), Lgs.init () 0) : (Unit × Lgs.St Unit) ⊕ ToySv)], [.inr ⟨[.fin 1], [{ targetId := 0, band := "y" }], none⟩]] := ht
    simp only [List.mem_cons, List.not_mem_nil, or_false] at ht
    rcases ht with rfl | rfl
    · simp only [List.mem_cons, List.not_mem_nil, or_false, Sum.inl.injEq] at hp
      subst hp
      exact ⟨by show (-1 : ℤ) ≤ ⌊(0 : ℚ)⌋; simp, rfl, rfl, rfl⟩
    · simp at hp

end Verif
