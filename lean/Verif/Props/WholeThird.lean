import Verif.Props.WholeLong
import Verif.Props.WholeToo

/-!
Property C248: in a simulation every third visit that a long gap survey plans is made at most once, and there are no more third visits than second ones.
-/

namespace Verif

open Whole Core

section
variable {C B T A H K ι : Type}

/-- The note `n` is that of the third visit with the number `k`. -/
def ThirdNumber (g : Lgs.Cfg C B) (n : String) (k : ℕ) : Prop := n = Script.tag g.long.longName k

/-- A note that was not cut tells the number. -/
theorem third_number_unique {g : Lgs.Cfg C B} {n : String} (hn : n.length < 60) {k k' : ℕ} (h : ThirdNumber g n k) (h' : ThirdNumber g n k') : k = k' := by
  have key : ∀ k, ThirdNumber g n k → n.toList = g.long.longName.toList ++ ((", ").toList ++ (toString k).toList) := by
    intro k e
    have : (Script.tag g.long.longName k).toList = (g.long.longName ++ ", " ++ toString k).toList := uncut (by have e : n = Script.tag g.long.longName k := e; unfold Script.tag at e; rw [← e]; exact hn)
    rw [show n = _ from e, this, String.toList_append, String.toList_append, List.append_assoc]
  have e := (key k h).symm.trans (key k' h')
  exact nat_text_inj (List.append_cancel_left (List.append_cancel_left e))

/-- The survey has planned the visit of the note. -/
def Numbered (g : Lgs.Cfg C B) (n : String) (s : Script.St) : Prop := ∃ k < s.idStart, ThirdNumber g n k

/-- How many visits with the note the script may have: none before it is planned; it may still be planned only while one more such visit is allowed. -/
structure LongOpen (g : Lgs.Cfg C B) (n : String) (N : ℕ) (s : Script.St) : Prop where
  few : outstanding n s.script ≤ N
  none : ¬ Numbered g n s → outstanding n s.script = 0
  left : (∃ k, ThirdNumber g n k) → ¬ Numbered g n s → 1 ≤ N

/-- Rows for the third visits are numbered on. -/
theorem tagAll_number (l : List Script.Entry) : ∀ k, ∀ e ∈ Script.tagAll k l, ∃ e0 ∈ l, ∃ j, k ≤ j ∧ j < k + l.length ∧ e.note = Script.tag e0.note j := by
  induction l with
  | nil => intro k e he; cases he
  | cons a l ih =>
    intro k e he
    rcases List.mem_cons.1 he with rfl | he
    · exact ⟨a, List.mem_cons_self, k, le_rfl, by simp, rfl⟩
    · obtain ⟨e0, h0, j, h1, h2, h⟩ := ih _ e he
      exact ⟨e0, List.mem_cons_of_mem _ h0, j, by omega, by rw [List.length_cons]; omega, h⟩

/-- What a visit reported to the survey does to the script: nothing, or there are new rows with the next numbers. -/
theorem schedule_rows (g : Lgs.Cfg C B) (l : List Obs) (s : Lgs.St B) : (Lgs.schedule g l s).script = s.script
    ∨ ∃ new : List Script.Entry, (∀ e ∈ new, e.note = g.long.longName) ∧ (Lgs.schedule g l s).script.script = s.script.script ++ Script.tagAll s.script.idStart new
      ∧ (Lgs.schedule g l s).script.idStart = s.script.idStart + new.length ∧ ((Lgs.schedule g l s).script.script.map Script.Entry.note).Nodup
      ∧ (Lgs.schedule g l s).script.lastMjd = s.script.lastMjd ∧ (Lgs.schedule g l s).script.lastRough = s.script.lastRough
      ∧ (Lgs.schedule g l s).script.obs = s.script.obs ∧ (Lgs.schedule g l s).script.rough = s.script.rough
      ∧ ∃ es, Long.planned g.long g.fuel (l.map (Lgs.seen g)) = some es ∧ new.length = es.length := by
  unfold Lgs.schedule
  split_ifs with h0
  · exact .inl rfl
  cases hp : Long.planned g.long g.fuel (l.map (Lgs.seen g)) with
  | none => exact .inl rfl
  | some l' =>
    cases l' with
    | nil => exact .inl rfl
    | cons e es =>
      dsimp only
      cases hs' : Script.setScript (fun _ => none) s.script ((e :: es).map (Lgs.row g)) true true with
      | none => exact .inl rfl
      | some t =>
        dsimp only
        obtain ⟨added, k, e1, hnd, e2, -⟩ := setScript_some hs'
        obtain ⟨rfl, rfl⟩ := e2 rfl
        obtain ⟨k1, k2, k3, k4, -⟩ := setScript_kept hs'
        refine .inr ⟨(e :: es).map (Lgs.row g), ?_, ?_, ?_, hnd, k1, k2, k3, k4, _, rfl, List.length_map _⟩
        · intro x hx
          obtain ⟨e1, he1, rfl⟩ := List.mem_map.1 hx
          obtain ⟨_, -, -, hrow⟩ := C102_scheduled _ _ _ _ hp
          exact (hrow e1 he1).2.2
        · rw [e1]; rfl
        · rw [e1]

/-- Reported visits keep the bound. -/
theorem longOpen_schedule {g : Lgs.Cfg C B} {n : String} (hu : ∀ k k', ThirdNumber g n k → ThirdNumber g n k' → k = k') {N : ℕ} (l : List Obs) {s : Lgs.St B}
    (ho : LongOpen g n N s.script) : LongOpen g n N (Lgs.schedule g l s).script ∧ (Numbered g n s.script → Numbered g n (Lgs.schedule g l s).script)
      ∧ (Lgs.schedule g l s).script.lastMjd = s.script.lastMjd ∧ (Lgs.schedule g l s).script.lastRough = s.script.lastRough
      ∧ (Lgs.schedule g l s).script.obs = s.script.obs ∧ (Lgs.schedule g l s).script.rough = s.script.rough := by
  rcases schedule_rows g l s with e | ⟨new, hnew, e1, e2, hnd, k1, k2, k3, k4, -⟩
  · rw [e]; exact ⟨ho, id, rfl, rfl, rfl, rfl⟩
  · have hb : Numbered g n s.script → Numbered g n (Lgs.schedule g l s).script := by
      rintro ⟨k, hk, h⟩
      exact ⟨k, by rw [e2]; omega, h⟩
    refine ⟨?_, hb, k1, k2, k3, k4⟩
    have happ : outstanding n (Lgs.schedule g l s).script.script = outstanding n s.script.script + outstanding n (Script.tagAll s.script.idStart new) := by
      rw [e1]; unfold outstanding; exact List.countP_append
    by_cases hin : ∃ k, s.script.idStart ≤ k ∧ k < s.script.idStart + new.length ∧ ThirdNumber g n k
    · obtain ⟨k, h1, h2, h3⟩ := hin
      have hnb : ¬ Numbered g n s.script := by
        rintro ⟨k', h4, h5⟩
        rw [hu k' k h5 h3] at h4
        omega
      have hb' : Numbered g n (Lgs.schedule g l s).script := ⟨k, by rw [e2]; omega, h3⟩
      exact ⟨(outstanding_nodup hnd).trans (ho.left ⟨_, h3⟩ hnb), fun hc => absurd hb' hc, fun _ hc => absurd hb' hc⟩
    · have h0 : outstanding n (Script.tagAll s.script.idStart new) = 0 := by
        unfold outstanding
        rw [List.countP_eq_zero]
        intro e he hc
        obtain ⟨e0, he0, j, h1, h2, h3⟩ := tagAll_number _ _ e he
        simp only [Bool.and_eq_true, decide_eq_true_eq] at hc
        refine hin ⟨j, h1, h2, ?_⟩
        show n = _
        rw [← hc.1, h3, hnew e0 he0]
      rw [h0, Nat.add_zero] at happ
      exact ⟨happ ▸ ho.few, fun hc => happ ▸ ho.none fun x => hc (hb x), fun hm hc => ho.left hm fun x => hc (hb x)⟩

/-! ### Surveys of a scheduler -/

/-- What the survey offers at the time `t` carries the note at most `N` times, and not at all before the visit is planned. -/
structure LongFew (g : Lgs.Cfg C B) (n : String) (N : ℕ) (t : ℚ) (s : Script.St) : Prop where
  open' : LongOpen g n N s
  few : ScriptFew n N t (g.script, s)
  none : ¬ Numbered g n s → ScriptFew n 0 t (g.script, s)

/-- Long gap surveys and other ones; the others and the pair surveys never ask for visits with the note, the scripts do not ignore it, and it tells its number. -/
structure LongBeside (E : Env C ((ι × Lgs.St B) ⊕ T) A) (cfgs : ι → Lgs.Cfg C B) (other : SurveyOps C T) (n : String) : Prop where
  sv : E.sv = Script.mixed (Lgs.ops cfgs) other
  time : ∀ i c, ((cfgs i).cond c).mjd = E.q.mjdOf c
  others : ∀ s c, ∀ o ∈ (other.gen s c).1, o.schedulerNote ≠ n
  pairs : ∀ i s c, ∀ o ∈ ((cfgs i).blob.gen s c).1, o.schedulerNote ≠ n
  minds : ∀ i, MindsNote n (cfgs i).script

def longFewOf (cfgs : ι → Lgs.Cfg C B) (n : String) (N : ℕ) (t : ℚ) : (ι × Lgs.St B) ⊕ T → Prop
  | .inl p => LongFew (cfgs p.1) n N t p.2.script
  | .inr _ => True

def longOldOf (cfgs : ι → Lgs.Cfg C B) (n : String) (N : ℕ) (t : ℚ) : (ι × Lgs.St B) ⊕ T → Prop
  | .inl p => LongOpen (cfgs p.1) n N p.2.script ∧ p.2.script.lastMjd < t ∧ p.2.script.lastRough < t
  | .inr _ => True

def longReady (cfgs : ι → Lgs.Cfg C B) (n : String) : (ι × Lgs.St B) ⊕ T → Prop
  | .inl p => (∃ k, ThirdNumber (cfgs p.1) n k) → Numbered (cfgs p.1) n p.2.script
  | .inr _ => True

/-- May the survey come to plan visits with the note? -/
def PlansThird (cfgs : ι → Lgs.Cfg C B) (n : String) : (ι × Lgs.St B) ⊕ T → Prop
  | .inl p => ∃ k, ThirdNumber (cfgs p.1) n k
  | .inr _ => False

open Classical in
noncomputable def longMine (cfgs : ι → Lgs.Cfg C B) (n : String) (s : (ι × Lgs.St B) ⊕ T) : Bool := decide (PlansThird cfgs n s)

theorem long_ask {g : Lgs.Cfg C B} {n : String} {N : ℕ} {s : Script.St} (hm : MindsNote n g.script) (c : Script.Cond) (h : LongFew g n N c.mjd s) :
    LongFew g n N c.mjd (Script.gen g.script s c).1 ∧ countNote n (Script.gen g.script s c).2 ≤ N
      ∧ (countNote n (Script.gen g.script s c).2 = 0 ∨ (Lasting c.mjd (Script.gen g.script s c).2 ∧ Numbered g n (Script.gen g.script s c).1)) := by
  obtain ⟨f1, f2, f3⟩ := h
  obtain ⟨g1, g2, g3⟩ := script_gen c f2 hm.few hm.flush
  obtain ⟨s1, s2, -⟩ := gen_script g.script s c
  have hb : Numbered g n (Script.gen g.script s c).1 ↔ Numbered g n s := by unfold Numbered; rw [s2]
  refine ⟨⟨⟨?_, ?_, ?_⟩, g1, fun h => (script_gen c (f3 fun x => h (hb.2 x)) hm.few hm.flush).1⟩, g2, ?_⟩
  · rw [s1]; exact f1.few
  · rw [s1, hb]; exact f1.none
  · rw [hb]; exact f1.left
  · by_cases h : Numbered g n s
    · exact .inr ⟨g3, hb.2 h⟩
    · exact .inl (Nat.le_zero.1 (script_gen c (f3 h) hm.few hm.flush).2.1)

theorem long_clear {g : Lgs.Cfg C B} {n : String} {N : ℕ} {t : ℚ} {s : Lgs.St B} (c : C) (h : LongFew g n N t s.script) : LongFew g n N t (Lgs.clean g s c).script := by
  unfold Lgs.clean
  split_ifs
  · exact ⟨⟨Nat.zero_le _, fun _ => rfl, h.open'.left⟩, scriptFew_of h.few rfl rfl rfl rfl le_rfl (Nat.zero_le _),
      fun hb => scriptFew_of (h.none hb) rfl rfl rfl rfl le_rfl (Nat.zero_le _)⟩
  · exact h

theorem long_mark {g : Lgs.Cfg C B} {n : String} {N M : ℕ} {s : Script.St} (m : String) (hM : MindsNote n g.script) (h : LongOpen g n N s) (hN : M = if m = n then N - 1 else N)
    (hr : m = n → (∃ k, ThirdNumber g n k) → Numbered g n s) :
    LongOpen g n M (Script.addOne g.script s m) ∧ (Script.addOne g.script s m).lastMjd = s.lastMjd ∧ (Script.addOne g.script s m).lastRough = s.lastRough
      ∧ (Script.addOne g.script s m).obs = s.obs ∧ (Script.addOne g.script s m).rough = s.rough ∧ (Script.addOne g.script s m).idStart = s.idStart := by
  obtain ⟨a1, a2, a3, a4, a5⟩ := script_hear (cfg := g.script) (st := s) m hM.good h.few
  have hid : (Script.addOne g.script s m).idStart = s.idStart := by
    unfold Script.addOne
    split_ifs <;> rfl
  have hb : Numbered g n (Script.addOne g.script s m) ↔ Numbered g n s := by unfold Numbered; rw [hid]
  refine ⟨⟨hN ▸ a1, fun h' => ?_, fun hm h' => ?_⟩, a2, a3, a4, a5, hid⟩
  · have := (script_hear (cfg := g.script) (st := s) m hM.good (h.none fun x => h' (hb.2 x)).le).1
    have h0 : (if m = n then 0 - 1 else 0) = 0 := by split <;> rfl
    rw [h0] at this
    exact Nat.le_zero.1 this
  · by_cases e : m = n
    · exact absurd (hb.2 (hr e hm)) h'
    · rw [hN, if_neg e]; exact h.left hm fun x => h' (hb.2 x)

variable {E : Env C ((ι × Lgs.St B) ⊕ T) A} {cfgs : ι → Lgs.Cfg C B} {other : SurveyOps C T} {n : String}

/-- A survey asked for its reward. -/
theorem longFew_reward (hE : LongBeside E cfgs other n) (c : C) {N : ℕ} {i : ι} {s : Lgs.St B} (h : LongFew (cfgs i) n N (E.q.mjdOf c) s.script) :
    LongFew (cfgs i) n N (E.q.mjdOf c) (Lgs.reward (cfgs i) s c).2.script := by
  rw [← hE.time i c] at h ⊢
  exact (long_ask (hE.minds i) ((cfgs i).cond c) (long_clear c h)).1

theorem numbered_reward {g : Lgs.Cfg C B} {s : Lgs.St B} (c : C) (h : Numbered g n s.script) : Numbered g n (Lgs.reward g s c).2.script := by
  obtain ⟨k, hk, h⟩ := h
  refine ⟨k, ?_, h⟩
  show k < (Script.gen g.script (Lgs.clean g s c).script (g.cond c)).1.idStart
  rw [(gen_script g.script _ _).2.1]
  unfold Lgs.clean
  split_ifs <;> exact hk

theorem numbered_gen {g : Lgs.Cfg C B} {s : Lgs.St B} (c : C) (h : Numbered g n s.script) : Numbered g n (Lgs.gen g s c).2.script := by
  unfold Lgs.gen
  split_ifs
  · exact h
  · obtain ⟨k, hk, h⟩ := h
    refine ⟨k, ?_, h⟩
    show k < (Script.gen g.script s.script (g.cond c)).1.idStart
    rw [(gen_script g.script _ _).2.1]
    exact hk
  · exact h

theorem numbered_hear {g : Lgs.Cfg C B} {s : Lgs.St B} (o : Obs) (h : Numbered g n s.script) : Numbered g n (Lgs.addObs g s o).script := by
  obtain ⟨k, hk, h⟩ := h
  refine ⟨k, ?_, h⟩
  have h1 : s.script.idStart ≤ (Lgs.schedule g [o] s).script.idStart := by
    rcases schedule_rows g [o] s with e | ⟨new, -, -, e, -⟩
    · rw [e]
    · rw [e]; omega
  show k < (Script.addOne g.script (Lgs.schedule g [o] s).script o.schedulerNote).idStart
  unfold Script.addOne
  split_ifs <;> exact hk.trans_le h1

/-- What the surveys offer of the note. -/
noncomputable def longOffers (hE : LongBeside E cfgs other n) (hu : ∀ i k k', ThirdNumber (cfgs i) n k → ThirdNumber (cfgs i) n k' → k = k') : Offers E n where
  Few := longFewOf cfgs n
  Old := longOldOf cfgs n
  Ready := longReady cfgs n
  Mine := longMine cfgs n
  later := by
    rintro N t t' (p | s) h ht
    · exact ⟨h.open', h.few.later ht, fun hb => (h.none hb).later ht⟩
    · trivial
  old := by
    rintro N t t' (p | s) h ht
    · exact ⟨h.open', h.few.past.trans_lt ht, h.few.pastRough.trans_lt ht⟩
    · trivial
  oldLater := by
    rintro N t t' (p | s) h ht
    · exact ⟨h.1, h.2.1.trans_le ht, h.2.2.trans_le ht⟩
    · trivial
  few := by
    rintro N t (p | s) h
    · obtain ⟨h1, h2, h3⟩ := h
      exact ⟨h1, scriptFew_last h1.few h2 h3, fun hb => scriptFew_last (h1.none hb).le h2 h3⟩
    · trivial
  reward := by
    rintro c N (⟨i, s⟩ | s) h
    · rw [hE.sv]; exact longFew_reward hE c h
    · rw [hE.sv]; trivial
  gen := by
    rintro c N (⟨i, s⟩ | s) h
    · rw [hE.sv]
      have h : LongFew (cfgs i) n N (E.q.mjdOf c) s.script := h
      show LongFew (cfgs i) n N (E.q.mjdOf c) (Lgs.gen (cfgs i) s c).2.script ∧ countObs n (Lgs.gen (cfgs i) s c).1 ≤ N
        ∧ (countObs n (Lgs.gen (cfgs i) s c).1 = 0 ∨ (LastingObs (E.q.mjdOf c) (Lgs.gen (cfgs i) s c).1
          ∧ ((∃ k, ThirdNumber (cfgs i) n k) → Numbered (cfgs i) n (Lgs.gen (cfgs i) s c).2.script) ∧ longMine (T := T) cfgs n (.inl (i, s)) = true))
      unfold Lgs.gen
      split_ifs
      · exact ⟨h, Nat.zero_le _, .inl rfl⟩
      · rw [← hE.time i c] at h ⊢
        obtain ⟨g1, g2, g3⟩ := long_ask (hE.minds i) ((cfgs i).cond c) h
        have hc : countObs n ((Script.gen (cfgs i).script s.script ((cfgs i).cond c)).2.map Script.toObs)
            = countNote n (Script.gen (cfgs i).script s.script ((cfgs i).cond c)).2 := by
          unfold countObs
          rw [List.countP_map]
          rfl
        refine ⟨g1, ?_, ?_⟩
        · show countObs n ((Script.gen (cfgs i).script s.script ((cfgs i).cond c)).2.map Script.toObs) ≤ N
          rw [hc]; exact g2
        · show countObs n ((Script.gen (cfgs i).script s.script ((cfgs i).cond c)).2.map Script.toObs) = 0 ∨ _
          rw [hc]
          refine g3.imp id fun g => ⟨?_, fun _ => g.2, ?_⟩
          · intro o ho
            obtain ⟨e, he, rfl⟩ := List.mem_map.1 (show o ∈ (Script.gen (cfgs i).script s.script ((cfgs i).cond c)).2.map Script.toObs from ho)
            exact g.1 e he
          · obtain ⟨k, -, hk⟩ := g.2
            exact @decide_eq_true _ (Classical.propDecidable _) (show PlansThird (T := T) cfgs n (.inl (i, s)) from ⟨k, hk⟩)
      · have : countObs n ((cfgs i).blob.gen s.blob c).1 = 0 := by
          unfold countObs
          rw [List.countP_eq_zero]
          intro o ho
          simpa using hE.pairs i s.blob c o ho
        exact ⟨h, this.le.trans (Nat.zero_le _), .inl this⟩
    · rw [hE.sv]
      have : countObs n (other.gen s c).1 = 0 := by
        unfold countObs
        rw [List.countP_eq_zero]
        intro o ho
        simpa using hE.others s c o ho
      exact ⟨trivial, this.le.trans (Nat.zero_le _), .inl this⟩
  update := by
    rintro c N (p | s)
    · rw [hE.sv]; exact ⟨id, id⟩
    · rw [hE.sv]; exact ⟨fun _ => trivial, fun _ => trivial⟩
  hear := by
    rintro o N t (⟨i, s⟩ | s) h hr
    · rw [hE.sv]
      obtain ⟨h1, h2, h3⟩ := (show LongOpen (cfgs i) n N s.script ∧ s.script.lastMjd < t ∧ s.script.lastRough < t from h)
      have hr : o.schedulerNote = n → (∃ k, ThirdNumber (cfgs i) n k) → Numbered (cfgs i) n s.script := hr
      obtain ⟨s1, s2, s3, s4, -⟩ := longOpen_schedule (hu i) [o] h1
      obtain ⟨o1, k1, k2, -⟩ := long_mark o.schedulerNote (hE.minds i) s1 rfl (fun e hm => s2 (hr e hm))
      refine ⟨o1, ?_, ?_⟩
      · show (Script.addOne (cfgs i).script (Lgs.schedule (cfgs i) [o] s).script o.schedulerNote).lastMjd < t
        rw [k1, s3]; exact h2
      · show (Script.addOne (cfgs i).script (Lgs.schedule (cfgs i) [o] s).script o.schedulerNote).lastRough < t
        rw [k2, s4]; exact h3
    · rw [hE.sv]; trivial
  hearOther := by
    rintro o N t (⟨i, s⟩ | s) ho h
    · rw [hE.sv]
      obtain ⟨h1, h2, h3⟩ := (show LongFew (cfgs i) n N t s.script from h)
      obtain ⟨s1, s2, s3, s4, s5, s6⟩ := longOpen_schedule (hu i) [o] h1
      obtain ⟨o1, k1, k2, k3, k4, k5⟩ := long_mark (M := N) o.schedulerNote (hE.minds i) s1 (by rw [if_neg ho]) (fun e _ => absurd e ho)
      show LongFew (cfgs i) n N t (Script.addOne (cfgs i).script (Lgs.schedule (cfgs i) [o] s).script o.schedulerNote)
      refine ⟨o1, scriptFew_of h2 (k1.trans s3) (k2.trans s4) (k3.trans s5) (k4.trans s6) le_rfl o1.few, fun hb => ?_⟩
      have hb' : ¬ Numbered (cfgs i) n s.script := fun x => hb (by
        obtain ⟨k, hk, hx⟩ := s2 x
        exact ⟨k, by rw [k5]; exact hk, hx⟩)
      exact scriptFew_of (h3 hb') (k1.trans s3) (k2.trans s4) (k3.trans s5) (k4.trans s6) le_rfl (o1.none hb).le
    · rw [hE.sv]; trivial
  notMine := by
    rintro (p | s) h
    · exact fun hm => absurd hm (@of_decide_eq_false _ (Classical.propDecidable _) h)
    · trivial
  readyReward := by
    rintro (⟨i, s⟩ | s) c h
    · rw [hE.sv]; exact fun hm => numbered_reward c (h hm)
    · rw [hE.sv]; trivial
  readyGen := by
    rintro (⟨i, s⟩ | s) c h
    · rw [hE.sv]; exact fun hm => numbered_gen c (h hm)
    · rw [hE.sv]; trivial
  readyUpdate := by
    rintro (⟨i, s⟩ | s) c h
    · rw [hE.sv]; exact h
    · rw [hE.sv]; trivial
  readyHear := by
    rintro (⟨i, s⟩ | s) o h
    · rw [hE.sv]; exact fun hm => numbered_hear o (h hm)
    · rw [hE.sv]; trivial
  mineReward := by rintro (p | s) c <;> rw [hE.sv] <;> rfl
  mineGen := by rintro (p | s) c <;> rw [hE.sv] <;> rfl
  mineUpdate := by rintro (p | s) c <;> rw [hE.sv] <;> rfl
  mineHear := by rintro (p | s) o <;> rw [hE.sv] <;> rfl

/-- **C248 (partial).** In a simulation with new long gap surveys beside other surveys, a third visit is made at most once: there is at most one visit with its note. At most
one of the surveys may plan visits with the note, and it must not have been cut short. -/
theorem C248_once_partial (S : Obs.Site) (hn : Obs.Nights S.nights) (hd : Down.Ordered S.downs) (M : Obs.Kin K Obs) (hM : Obs.NonNeg M) (hK : KeepsNote M)
    (fuel : ℕ) (δ : ℚ) (hδ : 0 < δ) (hlong : ∀ k o t, δ ≤ (M.observe k o t).2.2) {Bd : Type} (conds : Obs.St K → C) (mount : K → Bd → K)
    (E : Env C ((ι × Lgs.St B) ⊕ T) A) (cfgs : ι → Lgs.Cfg C B) (other : SurveyOps C T) (n : String) (hE : LongBeside E cfgs other n)
    (hdet : DetKeepsNotes E.q) (htime : ∀ st, E.q.mjdOf (conds st) = st.mjd)
    (X : Rest H C Bd) (hX : ∀ h v, 0 ≤ (X.overhead h v).2) (cfg : Sim.Cfg) (hstep : 0 ≤ cfg.stepNone) (h1 : 0 < cfg.startSize) (h2 : 0 < cfg.appendSize)
    (m : ℕ) (w : World (Core C ((ι × Lgs.St B) ⊕ T) A × H) K) (hw : w.sched.1.conditions = none) (hq : w.sched.1.qm.desired = [])
    (hneed : w.sched.1.qm.need = []) (hlen : n.length < 60)
    (hone : w.sched.1.tiers.flatten.Pairwise fun s s' => ¬ (PlansThird cfgs n s ∧ PlansThird cfgs n s'))
    (hnew : ∀ tier ∈ w.sched.1.tiers, ∀ p, .inl p ∈ tier → p.2.script.script = [] ∧ p.2.script.lastMjd < cfg.simStart.getD w.obs.mjd
      ∧ p.2.script.lastRough < cfg.simStart.getD w.obs.mjd) :
    ∃ vs : List (Obs.Visit Obs), (Sim.run (V := Obs.Visit Obs) (env S M fuel conds mount (coreSched E X)) cfg m w).st.result = vs.map some
      ∧ vs.countP (fun v => decide (v.target.schedulerNote = n)) ≤ 1 := by
  refine noted_at_most S hn hd M hM hK fuel δ hδ hlong conds mount (longOffers hE fun i k k' => third_number_unique hlen) hdet htime X hX cfg hstep h1 h2 m w hw hq hneed 1 ?_ ?_
  · have e : (shapeOf (longMine cfgs n) w.sched.1.tiers).flatten.count true = w.sched.1.tiers.flatten.countP (longMine cfgs n) := by
      unfold shapeOf
      rw [← List.map_flatten, List.count, List.countP_map]
      refine List.countP_congr fun x _ => ?_
      show (longMine cfgs n x == true) = true ↔ _
      simp
    show (shapeOf (longMine cfgs n) w.sched.1.tiers).flatten.count true ≤ 1
    rw [e]
    refine pairwise_count (hone.imp ?_)
    intro a b hab hc
    exact hab ⟨@of_decide_eq_true _ (Classical.propDecidable _) hc.1, @of_decide_eq_true _ (Classical.propDecidable _) hc.2⟩
  · rintro tier ht (p | s) hs
    · obtain ⟨a1, a2, a3⟩ := hnew tier ht p hs
      refine ⟨⟨?_, fun _ => ?_, fun _ _ => le_rfl⟩, a2, a3⟩ <;> rw [a1]
      · exact Nat.zero_le _
      · rfl
    · trivial

/-! ### How many there are -/

/-- A single visit plans at most one third visit, and none unless it is the second one of a pair. -/
theorem planned_one {g : Lgs.Cfg C B} {o : Obs} {es : List Long.Sched} (h : Long.planned g.long g.fuel ([o].map (Lgs.seen g)) = some es) :
    es.length ≤ [o].countP (fun b => decide (b.schedulerNote = g.long.blobNote ++ ", b")) := by
  have hset : ∀ fuel l es, Long.settle g.long fuel l = some es → es.length = l.length := by
    intro fuel
    induction fuel with
    | zero => intro l es h; cases h
    | succ k ih =>
      intro l es h
      unfold Long.settle at h
      split_ifs at h
      · rw [ih _ _ h]; exact List.length_map _
      · cases h; rfl
  have hsec : es.length = (Long.second g.long ([o].map (Lgs.seen g))).length := by
    unfold Long.planned at h
    split at h
    · rename_i e0
      cases h
      exact (List.length_map (as := Long.second g.long ([o].map (Lgs.seen g))) _).symm.trans (by rw [e0]) |>.symm
    · rename_i e0 es0 e1
      have hl : (e0 :: es0).length = (Long.second g.long ([o].map (Lgs.seen g))).length := by rw [← e1]; exact List.length_map _
      split_ifs at h
      · rw [hset _ _ _ h, hl]
      · cases h; exact hl
  rw [hsec]
  unfold Long.second
  rw [← List.countP_eq_length_filter, List.countP_map]
  refine List.countP_mono_left fun b _ hb => ?_
  simp only [Function.comp_apply, Bool.and_eq_true, decide_eq_true_eq] at hb
  exact decide_eq_true hb.1

/-- How many of the visits are second visits of pairs of the survey. -/
def seconds (g : Lgs.Cfg C B) (hs : List Obs) : ℕ := hs.countP fun b => decide (b.schedulerNote = g.long.blobNote ++ ", b")

/-- The note has a number among the first ones, as many as second visits. -/
def FirstNumbers (g : Lgs.Cfg C B) (id0 : ℕ) (hs : List Obs) (n : String) : Prop := ∃ k, id0 ≤ k ∧ k < id0 + seconds g hs ∧ ThirdNumber g n k

/-- The survey has heard of the visits: it has given out no more numbers than there are second visits. -/
structure LongCounted (g : Lgs.Cfg C B) (id0 : ℕ) (hs : List Obs) (s : Script.St) : Prop where
  low : id0 ≤ s.idStart
  high : s.idStart ≤ id0 + seconds g hs
  rows : ∀ e ∈ s.script, FirstNumbers g id0 hs e.note
  obs : ∀ e ∈ s.obs, FirstNumbers g id0 hs e.note
  rough : ∀ e ∈ s.rough, FirstNumbers g id0 hs e.note

theorem FirstNumbers.more {g : Lgs.Cfg C B} {id0 : ℕ} {hs : List Obs} {n : String} (h : FirstNumbers g id0 hs n) (o : Obs) : FirstNumbers g id0 (hs ++ [o]) n := by
  obtain ⟨k, h1, h2, h3⟩ := h
  refine ⟨k, h1, ?_, h3⟩
  unfold seconds at h2 ⊢
  rw [List.countP_append]
  omega

theorem counted_gen {g : Lgs.Cfg C B} (hdet : ∀ l, ∀ e ∈ g.script.detail l, ∃ e' ∈ l, e'.note = e.note) {id0 : ℕ} {hs : List Obs} {s : Script.St} (h : LongCounted g id0 hs s) (c : Script.Cond) :
    LongCounted g id0 hs (Script.gen g.script s c).1 ∧ ∀ e ∈ (Script.gen g.script s c).2, FirstNumbers g id0 hs e.note := by
  have hc : ∀ e ∈ Script.checkList g.script s c, FirstNumbers g id0 hs e.note := fun e he => h.rows e (checkList_plan _ _ _ e he).1
  have hr : LongCounted g id0 hs (Script.genRough g.script s c).1 ∧ ∀ e ∈ (Script.genRough g.script s c).2, FirstNumbers g id0 hs e.note := by
    unfold Script.genRough
    by_cases h1 : s.lastRough = c.mjd
    · rw [if_pos h1]
      exact ⟨h, h.rough⟩
    · rw [if_neg h1]
      dsimp only
      split_ifs
      · exact ⟨⟨h.low, h.high, h.rows, h.obs, fun e he => absurd he List.not_mem_nil⟩, fun e he => absurd he List.not_mem_nil⟩
      · exact ⟨⟨h.low, h.high, h.rows, h.obs, fun e he => absurd he List.not_mem_nil⟩, fun e he => absurd he List.not_mem_nil⟩
      · exact ⟨⟨h.low, h.high, h.rows, h.obs, hc⟩, hc⟩
  unfold Script.gen
  by_cases h1 : s.lastMjd = c.mjd
  · rw [if_pos h1]
    exact ⟨h, h.obs⟩
  · rw [if_neg h1]
    dsimp only
    have hN : ∀ e ∈ (if (Script.genRough g.script s c).2 = [] then (Script.genRough g.script s c).2 else g.script.detail (Script.genRough g.script s c).2),
        FirstNumbers g id0 hs e.note := by
      intro e he
      split_ifs at he
      · exact hr.2 e he
      · obtain ⟨e', h2, h3⟩ := hdet _ e he
        exact h3 ▸ hr.2 e' h2
    exact ⟨⟨hr.1.low, hr.1.high, hr.1.rows, hN, hr.1.rough⟩, hN⟩

theorem counted_reward {g : Lgs.Cfg C B} (hdet : ∀ l, ∀ e ∈ g.script.detail l, ∃ e' ∈ l, e'.note = e.note) {id0 : ℕ} {hs : List Obs} {s : Lgs.St B}
    (h : LongCounted g id0 hs s.script) (c : C) : LongCounted g id0 hs (Lgs.reward g s c).2.script := by
  have : LongCounted g id0 hs (Lgs.clean g s c).script := by
    unfold Lgs.clean
    split_ifs
    · exact ⟨h.low, h.high, fun e he => absurd he List.not_mem_nil, h.obs, h.rough⟩
    · exact h
  exact (counted_gen hdet this (g.cond c)).1

theorem markFirst_sameNote (m : String) (es : List Script.Entry) (e : Script.Entry) (he : e ∈ Script.markFirst m es) : ∃ e' ∈ es, e'.note = e.note := by
  obtain ⟨e', h1, h2⟩ := markFirst_row m es e he
  exact ⟨e', h1, congrArg Prod.fst h2⟩

theorem counted_hear {g : Lgs.Cfg C B} {id0 : ℕ} {hs : List Obs} {s : Lgs.St B} (h : LongCounted g id0 hs s.script) (o : Obs) :
    LongCounted g id0 (hs ++ [o]) (Lgs.addObs g s o).script := by
  have hadd : seconds g (hs ++ [o]) = seconds g hs + [o].countP (fun b => decide (b.schedulerNote = g.long.blobNote ++ ", b")) := List.countP_append
  have h1 : LongCounted g id0 (hs ++ [o]) (Lgs.schedule g [o] s).script := by
    have h0 : LongCounted g id0 (hs ++ [o]) s.script :=
      ⟨h.low, by rw [hadd]; have := h.high; omega, fun e he => (h.rows e he).more o, fun e he => (h.obs e he).more o, fun e he => (h.rough e he).more o⟩
    rcases schedule_rows g [o] s with e | ⟨new, hnew, e1, e2, -, -, -, k3, k4, es, hes, hlen⟩
    · rw [e]; exact h0
    · have hle := planned_one hes
      have hhigh := h.high
      have hlow := h.low
      refine ⟨by omega, by rw [hadd, e2]; omega, ?_, by rw [k3]; exact h0.obs, by rw [k4]; exact h0.rough⟩
      rw [e1]
      intro e he
      rcases List.mem_append.1 he with he | he
      · exact h0.rows e he
      · obtain ⟨e0, he0, j, j1, j2, j3⟩ := tagAll_number _ _ e he
        exact ⟨j, by omega, by rw [hadd]; omega, by show e.note = _; rw [j3, hnew e0 he0]⟩
  show LongCounted g id0 (hs ++ [o]) (Script.addOne g.script (Lgs.schedule g [o] s).script o.schedulerNote)
  unfold Script.addOne
  split_ifs
  · refine ⟨h1.low, h1.high, ?_, h1.obs, h1.rough⟩
    intro e he
    obtain ⟨e', h2, h3⟩ := markFirst_sameNote _ _ e he
    exact h3 ▸ h1.rows e' h2
  · exact h1

/-- Long gap surveys offer third visits with the numbers of second ones. -/
def countCauses {E : Env C ((ι × Lgs.St B) ⊕ T) A} {cfgs : ι → Lgs.Cfg C B} {other : SurveyOps C T} (hE : E.sv = Script.mixed (Lgs.ops cfgs) other)
    (hdet : ∀ i l, ∀ e ∈ (cfgs i).script.detail l, ∃ e' ∈ l, e'.note = e.note)
    (hother : ∀ s c, ∀ o ∈ (other.gen s c).1, ¬ ThirdNote cfgs o.schedulerNote) (hblob : ∀ i s c, ∀ o ∈ ((cfgs i).blob.gen s c).1, ¬ ThirdNote cfgs o.schedulerNote)
    (id0 : ι → ℕ) : Causes E Obs.schedulerNote (fun hs _ n => ThirdNote cfgs n → ∃ i, FirstNumbers (cfgs i) (id0 i) hs n) where
  Heard hs _ s := match s with
    | .inl p => LongCounted (cfgs p.1) (id0 p.1) hs p.2.script
    | .inr _ => True
  later := by
    rintro hs x y (⟨i, s⟩ | s) - h
    · exact h
    · trivial
  reward := by
    rintro hs bar (⟨i, s⟩ | s) c - h
    · rw [hE]; exact counted_reward (hdet i) h c
    · rw [hE]; trivial
  gen := by
    rintro hs bar (⟨i, s⟩ | s) c - h
    · rw [hE]
      have h1 := counted_reward (hdet i) h c
      show LongCounted (cfgs i) (id0 i) hs (Lgs.gen (cfgs i) (Lgs.reward (cfgs i) s c).2 c).2.script
      generalize (Lgs.reward (cfgs i) s c).2 = u at h1
      unfold Lgs.gen
      split_ifs
      · exact h1
      · exact (counted_gen (hdet i) h1 ((cfgs i).cond c)).1
      · exact h1
    · rw [hE]; trivial
  update := by
    rintro hs bar (⟨i, s⟩ | s) c - h
    · rw [hE]; exact h
    · rw [hE]; trivial
  hear := by
    rintro hs (⟨i, s⟩ | s) o h
    · rw [hE]; exact counted_hear h o
    · rw [hE]; trivial
  cause := by
    rintro hs bar (⟨i, s⟩ | s) c hle h o ho
    · refine ⟨_, hle, fun hthird => ?_⟩
      rw [hE] at ho
      have h1 := counted_reward (hdet i) h c
      have ho : o ∈ (Lgs.gen (cfgs i) (Lgs.reward (cfgs i) s c).2 c).1 := ho
      generalize (Lgs.reward (cfgs i) s c).2 = u at h1 ho
      unfold Lgs.gen at ho
      split_ifs at ho
      · cases ho
      · obtain ⟨e, he, rfl⟩ := List.mem_map.1 ho
        exact ⟨i, (counted_gen (hdet i) h1 ((cfgs i).cond c)).2 e he⟩
      · exact absurd hthird (hblob i _ _ o ho)
    · refine ⟨_, hle, fun hthird => ?_⟩
      rw [hE] at ho
      exact absurd hthird (hother _ _ o ho)

/-- C248: the numbers of third visits are the first ones, and no more have been given out when a third visit is made than second visits have been made before it. -/
theorem C248_numbers (S : Obs.Site) (hn : Obs.Nights S.nights) (hd : Down.Ordered S.downs) (M : Obs.Kin K Obs) (hM : Obs.NonNeg M) (fuel : ℕ) {Bd : Type}
    (conds : Obs.St K → C) (mount : K → Bd → K) (E : Env C ((ι × Lgs.St B) ⊕ T) A) (hnow : ∀ st, E.q.mjdOf (conds st) = st.mjd)
    (cfgs : ι → Lgs.Cfg C B) (other : SurveyOps C T) (hE : E.sv = Script.mixed (Lgs.ops cfgs) other)
    (hdet : ∀ i l, ∀ e ∈ (cfgs i).script.detail l, ∃ e' ∈ l, e'.note = e.note)
    (hother : ∀ s c, ∀ o ∈ (other.gen s c).1, ¬ ThirdNote cfgs o.schedulerNote) (hblob : ∀ i s c, ∀ o ∈ ((cfgs i).blob.gen s c).1, ¬ ThirdNote cfgs o.schedulerNote)
    (hkey : KeptColumns E M Obs.schedulerNote)
    (X : Rest H C Bd) (hX : ∀ h v, 0 ≤ (X.overhead h v).2) (cfg : Sim.Cfg) (hstep : 0 ≤ cfg.stepNone) (h1 : 0 < cfg.startSize) (h2 : 0 < cfg.appendSize) (m : ℕ)
    (w : World (Core C ((ι × Lgs.St B) ⊕ T) A × H) K) (hc : w.sched.1.conditions = none) (hq : w.sched.1.qm.desired = []) (id0 : ι → ℕ)
    (hnew : ∀ tier ∈ w.sched.1.tiers, ∀ p, .inl p ∈ tier → p.2.script.idStart = id0 p.1 ∧ p.2.script.script = [] ∧ p.2.script.obs = [] ∧ p.2.script.rough = []) :
    ∃ vs : List (Obs.Visit Obs), (Sim.run (V := Obs.Visit Obs) (env S M fuel conds mount (coreSched E X)) cfg m w).st.result = vs.map some
      ∧ ∀ j v, vs[j]? = some v → ThirdNote cfgs v.target.schedulerNote →
        ∃ i, FirstNumbers (cfgs i) (id0 i) ((vs.take j).map madeRow) v.target.schedulerNote := by
  have key := cause_kept S hn hd M hM fuel conds mount (countCauses hE hdet hother hblob id0) hnow hkey X hX cfg hstep h1 h2 m w hc hq []
  obtain ⟨vs, hr, hv⟩ := key (by
    rintro tier ht (p | s) hs
    · obtain ⟨a, b, c, d⟩ := hnew tier ht p hs
      refine ⟨a.ge, by rw [a]; omega, ?_, ?_, ?_⟩
      · rw [b]; exact fun e he => absurd he List.not_mem_nil
      · rw [c]; exact fun e he => absurd he List.not_mem_nil
      · rw [d]; exact fun e he => absurd he List.not_mem_nil
    · trivial)
  refine ⟨vs, hr, ?_⟩
  intro j v hj hthird
  obtain ⟨h0, t, hp, ht, hb, -⟩ := hv j v hj
  obtain ⟨i, k, k1, k2, k3⟩ := hb hthird
  refine ⟨i, k, k1, k2.trans_le ?_, k3⟩
  have : seconds (cfgs i) h0 ≤ seconds (cfgs i) ((vs.take j).map madeRow) := hp.sublist.countP_le
  omega

/-- Visits with one of `c` notes, each of which occurs at most once. -/
theorem count_notes {X : Type} (note : X → String) (f : ℕ → String) (p : X → Bool) (l : List X) : ∀ c,
    (∀ x ∈ l, p x = true → ∃ k < c, note x = f k ∧ l.countP (fun y => decide (note y = f k)) ≤ 1) → l.countP p ≤ c := by
  intro c
  induction c generalizing p with
  | zero =>
    intro h
    rw [Nat.le_zero, List.countP_eq_zero]
    intro x hx hp
    obtain ⟨k, hk, -⟩ := h x hx hp
    omega
  | succ c ih =>
    intro h
    have h1 := ih (fun x => p x && !decide (note x = f c)) (by
      intro x hx hp
      simp only [Bool.and_eq_true, Bool.not_eq_true', decide_eq_false_iff_not] at hp
      obtain ⟨k, hk, e, hle⟩ := h x hx hp.1
      refine ⟨k, ?_, e, hle⟩
      have : k ≠ c := by rintro rfl; exact hp.2 e
      omega)
    have h2 : l.countP (fun x => p x && decide (note x = f c)) ≤ 1 := by
      by_cases hz : l.countP (fun x => p x && decide (note x = f c)) = 0
      · omega
      · obtain ⟨x, hx, hp⟩ := List.countP_pos_iff.1 (Nat.pos_of_ne_zero hz)
        simp only [Bool.and_eq_true, decide_eq_true_eq] at hp
        obtain ⟨k, -, e, hle⟩ := h x hx hp.1
        rw [← e, hp.2] at hle
        refine le_trans (List.countP_mono_left fun y _ hy => ?_) hle
        simp only [Bool.and_eq_true] at hy
        exact hy.2
    have h3 : l.countP p = l.countP (fun x => p x && decide (note x = f c)) + l.countP (fun x => p x && !decide (note x = f c)) := by
      clear h ih h1 h2
      induction l with
      | nil => rfl
      | cons x l ih =>
        simp only [List.countP_cons, ih]
        cases p x <;> cases decide (note x = f c) <;> simp <;> omega
    omega

open Classical in
/-- **C248 (partial).** A simulation makes no more third visits of a survey than second visits of its pairs, if no other survey uses notes of these; third visits whose notes
were cut short are not counted. -/
theorem C248_no_more_partial (S : Obs.Site) (hn : Obs.Nights S.nights) (hd : Down.Ordered S.downs) (M : Obs.Kin K Obs) (hM : Obs.NonNeg M) (hK : KeepsNote M)
    (fuel : ℕ) (δ : ℚ) (hδ : 0 < δ) (hlong : ∀ k o t, δ ≤ (M.observe k o t).2.2) {Bd : Type} (conds : Obs.St K → C) (mount : K → Bd → K)
    (E : Env C ((ι × Lgs.St B) ⊕ T) A) (hnow : ∀ st, E.q.mjdOf (conds st) = st.mjd)
    (cfgs : ι → Lgs.Cfg C B) (other : SurveyOps C T) (hE : E.sv = Script.mixed (Lgs.ops cfgs) other) (htime : ∀ i c, ((cfgs i).cond c).mjd = E.q.mjdOf c)
    (hdet : ∀ i l, ∀ e ∈ (cfgs i).script.detail l, ∃ e' ∈ l, e'.note = e.note)
    (hother : ∀ s c, ∀ o ∈ (other.gen s c).1, ¬ ThirdNote cfgs o.schedulerNote) (hblob : ∀ i s c, ∀ o ∈ ((cfgs i).blob.gen s c).1, ¬ ThirdNote cfgs o.schedulerNote)
    (hminds : ∀ i n, ThirdNote cfgs n → MindsNote n (cfgs i).script) (hdq : DetKeepsNotes E.q) (hkey : KeptColumns E M Obs.schedulerNote)
    (X : Rest H C Bd) (hX : ∀ h v, 0 ≤ (X.overhead h v).2) (cfg : Sim.Cfg) (hstep : 0 ≤ cfg.stepNone) (h1 : 0 < cfg.startSize) (h2 : 0 < cfg.appendSize) (m : ℕ)
    (w : World (Core C ((ι × Lgs.St B) ⊕ T) A × H) K) (hc : w.sched.1.conditions = none) (hq : w.sched.1.qm.desired = []) (hneed : w.sched.1.qm.need = [])
    (id0 : ι → ℕ) (hnames : ∀ n i i', (∃ k, ThirdNumber (cfgs i) n k) → (∃ k, ThirdNumber (cfgs i') n k) → i = i')
    (hone : ∀ n, w.sched.1.tiers.flatten.Pairwise fun s s' => ¬ (PlansThird cfgs n s ∧ PlansThird cfgs n s'))
    (hnew : ∀ tier ∈ w.sched.1.tiers, ∀ p, .inl p ∈ tier → p.2.script.idStart = id0 p.1 ∧ p.2.script.script = [] ∧ p.2.script.obs = [] ∧ p.2.script.rough = []
      ∧ p.2.script.lastMjd < cfg.simStart.getD w.obs.mjd ∧ p.2.script.lastRough < cfg.simStart.getD w.obs.mjd) (i : ι) :
    ∃ vs : List (Obs.Visit Obs), (Sim.run (V := Obs.Visit Obs) (env S M fuel conds mount (coreSched E X)) cfg m w).st.result = vs.map some
      ∧ vs.countP (fun v => decide ((∃ k, v.target.schedulerNote = Script.tag (cfgs i).long.longName k) ∧ v.target.schedulerNote.length < 60))
        ≤ vs.countP (fun v => decide (v.target.schedulerNote = (cfgs i).long.blobNote ++ ", b")) := by
  obtain ⟨vs, hr, hv⟩ := C248_numbers S hn hd M hM fuel conds mount E hnow cfgs other hE hdet hother hblob hkey X hX cfg hstep h1 h2 m w hc hq id0
    (fun tier ht p hp => by obtain ⟨a, b, c, d, -⟩ := hnew tier ht p hp; exact ⟨a, b, c, d⟩)
  refine ⟨vs, hr, ?_⟩
  have hsec : vs.countP (fun v => decide (v.target.schedulerNote = (cfgs i).long.blobNote ++ ", b")) = seconds (cfgs i) (vs.map madeRow) := by
    unfold seconds
    rw [List.countP_map]
    rfl
  rw [hsec]
  refine count_notes (fun v => v.target.schedulerNote) (fun k => Script.tag (cfgs i).long.longName (id0 i + k)) _ vs _ ?_
  intro v hvm hp
  obtain ⟨hk, hlen⟩ := of_decide_eq_true hp
  obtain ⟨j, hj⟩ := List.mem_iff_getElem?.1 hvm
  have hthird : ThirdNote cfgs v.target.schedulerNote := ⟨i, hk⟩
  obtain ⟨i', k, k1, k2, k3⟩ := hv j v hj hthird
  obtain rfl := hnames _ i i' hk ⟨k, k3⟩
  obtain ⟨vs', hr', hle⟩ := C248_once_partial S hn hd M hM hK fuel δ hδ hlong conds mount E cfgs other v.target.schedulerNote
    ⟨hE, htime, fun s c o ho e => hother s c o ho (e ▸ hthird), fun i s c o ho e => hblob i s c o ho (e ▸ hthird), fun i => hminds i _ hthird⟩ hdq hnow X hX cfg hstep h1 h2 m w
    hc hq hneed hlen (hone _) (fun tier ht p hp => by obtain ⟨-, b, -, -, c, d⟩ := hnew tier ht p hp; exact ⟨b, c, d⟩)
  have hvs : vs = vs' := List.map_injective_iff.2 (Option.some_injective _) (hr.symm.trans hr')
  rw [← hvs] at hle
  refine ⟨k - id0 i, ?_, ?_, ?_⟩
  · have : seconds (cfgs i) ((vs.take j).map madeRow) ≤ seconds (cfgs i) (vs.map madeRow) := ((List.take_sublist _ _).map _).countP_le
    omega
  · show _ = Script.tag _ (id0 i + (k - id0 i))
    rw [Nat.add_sub_cancel' k1]; exact k3
  · show vs.countP (fun y => decide (y.target.schedulerNote = Script.tag _ (id0 i + (k - id0 i)))) ≤ 1
    rw [Nat.add_sub_cancel' k1, ← show v.target.schedulerNote = _ from k3]
    exact hle

end

/-! ### Examples -/

/-- As in the example for C244, but the script is told to ignore third visits. -/
def longIgnoring : Env ToyC ((Unit × Lgs.St Unit) ⊕ ToySv) Unit where
  q := toyE.q
  sv := Script.mixed (Lgs.ops fun _ => { longCfg with script := cfg0 .none ["long"] }) plainSv
  toos := toyE.toos

/-- C248 is violated by a survey whose script ignores its own visits: third visits are made again. -/
theorem C248_ignored_violated : ((Sim.run (V := Obs.Visit Obs) (env toySite wholeKin 20 (fun s => ⟨s.mjd, none⟩) (fun k _ => k) (coreSched longIgnoring wholeRest))
    { duration := 1, startSize := 3, appendSize := 3 } 40 longStart).st.result.map fun r => r.map fun v => v.target.schedulerNote)
      = [some "pair, a", some "pair, b", some "pair, a", some "pair, b", some "pair, a", some "pair, b", some "long, 0", some "long, 1", some "long, 0",
        some "long, 1"] := by decide +kernel

/-- The assumptions of C248 are met by the simulation of C244. -/
example : LongBeside longEnv (fun _ : Unit => longCfg) plainSv "long, 1" ∧ DetKeepsNotes longEnv.q ∧ KeepsNote wholeKin ∧ ThirdNumber longCfg "long, 1" 1
    ∧ (∀ n, ThirdNote (fun _ : Unit => longCfg) n → MindsNote n longCfg.script)
    ∧ KeptColumns longEnv wholeKin Obs.schedulerNote
    ∧ (∀ n, longStart.sched.1.tiers.flatten.Pairwise fun s s' => ¬ (PlansThird (fun _ : Unit => longCfg) n s ∧ PlansThird (fun _ : Unit => longCfg) n s'))
    ∧ (∀ tier ∈ longStart.sched.1.tiers, ∀ p, .inl p ∈ tier → p.2.script.idStart = 0 ∧ p.2.script.script = [] ∧ p.2.script.obs = [] ∧ p.2.script.rough = []
      ∧ p.2.script.lastMjd < (none : Option ℚ).getD longStart.obs.mjd ∧ p.2.script.lastRough < (none : Option ℚ).getD longStart.obs.mjd) := by
  have hminds : ∀ n, MindsNote n longCfg.script := fun n => ⟨by show (!List.any [] _) = true; rfl, fun l => le_rfl, fun l e he => ⟨e, he, le_rfl⟩⟩
  refine ⟨⟨rfl, fun _ _ => rfl, ?_, ?_, fun _ => hminds _⟩, ⟨fun _ _ l o ho => ⟨o, ho, rfl, rfl⟩, fun _ _ l h => h⟩, ?_, by show _ = _; decide +kernel, fun n _ => hminds n,
    ⟨fun _ _ _ => rfl, fun _ _ => rfl, fun _ _ l o ho => ⟨o, ho, rfl⟩, ?_⟩, ?_, ?_⟩
  · intro s c o ho
    obtain ⟨o', -, rfl⟩ := List.mem_map.1 ho
    show "" ≠ "long, 1"
    decide
  · intro i s c o ho
    have ho : o ∈ (pairSv.gen s c).1 := ho
    simp only [pairSv, List.mem_cons, List.not_mem_nil, or_false] at ho
    rcases ho with rfl | rfl <;> decide
  · intro k t o o' h
    cases h
    exact ⟨rfl, rfl⟩
  · intro k t o o' h
    have h : some o = some o' := h
    cases h
    rfl
  · intro n
    refine List.pairwise_cons.2 ⟨?_, List.pairwise_singleton _ _⟩
    intro s hs hc
    rw [List.mem_singleton.1 hs] at hc
    exact hc.2
  · intro tier ht p hp
    have ht : tier ∈ [[(.inl ((), Lgs.init () 0) : (Unit × Lgs.St Unit) ⊕ ToySv)], [.inr ⟨[.fin 1], [{ targetId := 0, band := "y" }], none⟩]] := ht
    simp only [List.mem_cons, List.not_mem_nil, or_false] at ht
    rcases ht with rfl | rfl
    · simp only [List.mem_cons, List.not_mem_nil, or_false, Sum.inl.injEq] at hp
      subst hp
      exact ⟨rfl, rfl, rfl, rfl, by show (-1 : ℚ) < 0; norm_num, by show (-1 : ℚ) < 0; norm_num⟩
    · simp at hp

end Verif
