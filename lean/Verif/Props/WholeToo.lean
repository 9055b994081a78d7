import Verif.Lemmas.NoteOnce
import Verif.Model.TooSim
import Verif.Props.TooSurvey

/-!
Property C218: in a simulation every visit planned for an alert is made at most once.
-/

namespace Verif

open Whole Core

/-! ### Notes tell the alerts apart -/

/-- The note `n` is one that the survey may give to a visit planned for the alert with number `i`. -/
def NoteOf (cfg : Too.Cfg) (n : String) (i : Int) : Prop :=
  ∃ band ∈ cfg.bands.flatten, ∃ k j : ℕ, n = Script.tag (Script.cut (cfg.name ++ ", " ++ band ++ ", " ++ toString i ++ ", i" ++ toString k)) j

theorem split_comma {a b r r' : List Char} (ha : ',' ∉ a) (hb : ',' ∉ b) (h : a ++ ',' :: r = b ++ ',' :: r') : a = b ∧ r = r' := by
  have key : ∀ (a r : List Char), ',' ∉ a → (a ++ ',' :: r).takeWhile (fun x => x != ',') = a := by
    intro a r ha
    rw [List.takeWhile_append_of_pos]
    · simp
    · intro x hx
      rw [bne_iff_ne]
      rintro rfl
      exact ha hx
  have e := key a r ha
  rw [h, key b r' hb] at e
  subst e
  exact ⟨rfl, by simpa using h⟩

theorem nat_text_inj {k k' : ℕ} (h : (toString k).toList = (toString k').toList) : k = k' := by
  rw [Nat.toString_eq_ofList_toDigits, Nat.toString_eq_ofList_toDigits] at h
  simp only [String.toList_ofList] at h
  have h1 := Nat.ofDigitChars_toDigits (b := 10) (n := k) (by norm_num) (by norm_num)
  have h2 := Nat.ofDigitChars_toDigits (b := 10) (n := k') (by norm_num) (by norm_num)
  rw [← h1, ← h2, h]

theorem nat_text_digit {k : ℕ} {x : Char} (h : x ∈ (toString k).toList) : x.isDigit = true := by
  rw [Nat.toString_eq_ofList_toDigits] at h
  simp only [String.toList_ofList] at h
  exact Nat.isDigit_of_mem_toDigits (by norm_num) (by norm_num) h

theorem int_text (i : Int) : ((∃ k : ℕ, i = k ∧ (toString i).toList = (toString k).toList) ∨ ∃ k : ℕ, i = -(k : Int) - 1 ∧ (toString i).toList = '-' :: (toString (k + 1)).toList) := by
  cases i with
  | ofNat k => exact .inl ⟨k, rfl, rfl⟩
  | negSucc k =>
    refine .inr ⟨k, by rw [Int.negSucc_eq]; ring, ?_⟩
    show ("-" ++ toString (k + 1)).toList = _
    rw [String.toList_append]
    rfl

theorem int_text_inj {i i' : Int} (h : (toString i).toList = (toString i').toList) : i = i' := by
  have hd : ∀ (k k' : ℕ), (toString k).toList ≠ '-' :: (toString (k' + 1)).toList := by
    intro k k' e
    have := nat_text_digit (k := k) (x := '-') (by rw [e]; exact List.mem_cons_self)
    revert this; decide
  rcases int_text i with ⟨k, e1, e2⟩ | ⟨k, e1, e2⟩ <;> rcases int_text i' with ⟨k', e3, e4⟩ | ⟨k', e3, e4⟩ <;> rw [e2, e4] at h
  · rw [e1, e3, nat_text_inj h]
  · exact absurd h (hd _ _)
  · exact absurd h.symm (hd _ _)
  · have := nat_text_inj (List.cons_inj_right _ |>.1 h)
    rw [e1, e3, Nat.succ_injective this]

theorem int_text_comma (i : Int) : ',' ∉ (toString i).toList := by
  intro h
  have hd : ∀ k : ℕ, ',' ∈ (toString k).toList → False := by
    intro k hk
    have := nat_text_digit hk
    revert this; decide
  rcases int_text i with ⟨k, -, e⟩ | ⟨k, -, e⟩ <;> rw [e] at h
  · exact hd k h
  · rcases List.mem_cons.1 h with h | h
    · revert h; decide
    · exact hd _ h

/-- A note that was not cut short. -/
theorem uncut {s : String} (h : (Script.cut s).length < 60) : (Script.cut s).toList = s.toList := by
  unfold Script.cut at h ⊢
  rw [String.length_ofList, List.length_take] at h
  rw [String.toList_ofList, List.take_of_length_le]
  omega

/-- A note below the full length tells for which alert the visit was planned. -/
theorem noteOf_unique {cfg : Too.Cfg} {n : String} (hn : n.length < 60) (hb : ∀ band ∈ cfg.bands.flatten, ',' ∉ band.toList) {i i' : Int} (h : NoteOf cfg n i)
    (h' : NoteOf cfg n i') : i = i' := by
  have key : ∀ i, NoteOf cfg n i → ∃ band ∈ cfg.bands.flatten, ∃ r : List Char,
      n.toList = cfg.name.toList ++ ',' :: ' ' :: (band.toList ++ ',' :: ' ' :: ((toString i).toList ++ ',' :: r)) := by
    rintro i ⟨band, hbm, k, j, e⟩
    refine ⟨band, hbm, ' ' :: 'i' :: ((toString k).toList ++ ',' :: ' ' :: (toString j).toList), ?_⟩
    have e1 : n.toList = (Script.cut (cfg.name ++ ", " ++ band ++ ", " ++ toString i ++ ", i" ++ toString k) ++ ", " ++ toString j).toList := by
      rw [e]
      exact uncut (by unfold Script.tag at e; rw [← e]; exact hn)
    have e2 : (Script.cut (cfg.name ++ ", " ++ band ++ ", " ++ toString i ++ ", i" ++ toString k)).toList
        = (cfg.name ++ ", " ++ band ++ ", " ++ toString i ++ ", i" ++ toString k).toList := by
      apply uncut
      have : n.toList.length = n.length := String.length_toList
      rw [e1, String.toList_append, String.toList_append, List.length_append, List.length_append, String.length_toList] at this
      omega
    rw [e1, String.toList_append, String.toList_append, e2]
    simp only [String.toList_append, List.append_assoc]
    rfl
  obtain ⟨b, hb1, r, e⟩ := key i h
  obtain ⟨b', hb2, r', e'⟩ := key i' h'
  rw [e] at e'
  have e3 := List.append_cancel_left e'
  obtain ⟨-, e4⟩ := split_comma (hb b hb1) (hb b' hb2) (List.cons_inj_right _ |>.1 (List.cons_inj_right _ |>.1 e3))
  obtain ⟨e5, -⟩ := split_comma (int_text_comma i) (int_text_comma i') (List.cons_inj_right _ |>.1 e4)
  exact int_text_inj e5

/-- Planned visits have such notes. -/
theorem planned_note {cfg : Too.Cfg} {now : ℚ} {a : Too.Alert} {e : Script.Entry} (h : e ∈ planAt cfg now a) (j : ℕ) : NoteOf cfg (Script.tag e.note j) a.id := by
  unfold planAt at h
  split at h
  · rename_i pts t0 _ _
    unfold Too.plan at h
    obtain ⟨⟨q, k⟩, h1, h⟩ := List.mem_flatMap.1 h
    obtain ⟨i, h2, h⟩ := List.mem_flatMap.1 h
    obtain ⟨band, h3, h⟩ := List.mem_flatMap.1 h
    obtain ⟨p, h4, h5⟩ := List.mem_map.1 h
    rw [List.mem_zipIdx_iff_getElem?] at h1
    obtain ⟨-, g⟩ := List.getElem?_zip_eq_some.1 h1
    obtain ⟨g, -⟩ := List.getElem?_zip_eq_some.1 g
    refine ⟨band, List.mem_flatten.2 ⟨_, List.mem_of_getElem? g, h3⟩, k, j, ?_⟩
    rw [← h5]
    rfl
  · cases h

/-! ### What an alert changes -/

theorem setScript_kept {idOf : String → Option ℕ} {s s' : Script.St} {new : List Script.Entry} {a i : Bool} (h : Script.setScript idOf s new a i = some s') :
    s'.lastMjd = s.lastMjd ∧ s'.lastRough = s.lastRough ∧ s'.obs = s.obs ∧ s'.rough = s.rough ∧ (s'.script.map Script.Entry.note).Nodup := by
  obtain ⟨added, k, e, hn, -⟩ := setScript_some h
  refine ⟨?_, ?_, ?_, ?_, hn⟩ <;> rw [e]

theorem newEvent_kept {cfg : Too.Cfg} {idOf : String → Option ℕ} {now : ℚ} {s s' : Too.S} {a : Too.Alert} (h : Too.newEvent cfg idOf now s a = some s') :
    s'.base.lastMjd = s.base.lastMjd ∧ s'.base.lastRough = s.base.lastRough ∧ s'.base.obs = s.base.obs ∧ s'.base.rough = s.base.rough
      ∧ (s'.base.script.map Script.Entry.note).Nodup := by
  unfold Too.newEvent at h
  split at h
  · cases h
  · rename_i b hb
    have h0 : b.lastMjd = s.base.lastMjd ∧ b.lastRough = s.base.lastRough ∧ b.obs = s.base.obs ∧ b.rough = s.base.rough ∧ (b.script.map Script.Entry.note).Nodup := by
      unfold Too.flushScript at hb
      split at hb
      · cases hb; exact ⟨rfl, rfl, rfl, rfl, List.nodup_nil⟩
      · exact setScript_kept hb
    split at h
    · cases h
    · split at h
      · unfold Too.follow at h
        split at h
        · cases h
        · cases h; exact h0
        · split at h
          · cases h
          · split at h
            · cases h
            · rw [Option.map_eq_some_iff] at h
              obtain ⟨b', hb', rfl⟩ := h
              obtain ⟨a1, a2, a3, a4, a5⟩ := setScript_kept hb'
              exact ⟨a1.trans h0.1, a2.trans h0.2.1, a3.trans h0.2.2.1, a4.trans h0.2.2.2.1, a5⟩
      · cases h; exact h0

theorem outstanding_nodup {n : String} {es : List Script.Entry} (hes : (es.map Script.Entry.note).Nodup) : outstanding n es ≤ 1 := by
  unfold outstanding
  calc es.countP (fun e => decide (e.note = n) && !e.observed) ≤ es.countP (fun e => decide (e.note = n)) :=
        List.countP_mono_left fun e _ h => by simp only [Bool.and_eq_true] at h; exact h.1
    _ = (es.map Script.Entry.note).count n := by
        rw [List.count, List.countP_map]
        refine List.countP_congr fun e _ => ?_
        simp
    _ ≤ 1 := List.nodup_iff_count_le_one.1 hes n

theorem outstanding_filter {n : String} (p : Script.Entry → Bool) (es : List Script.Entry) : outstanding n (es.filter p) ≤ outstanding n es := by
  unfold outstanding
  exact List.Sublist.countP_le List.filter_sublist

/-- The survey has planned visits for the alert of the note. -/
def Begun (cfg : Too.Cfg) (n : String) (seen : List Int) : Prop := ∃ i ∈ seen, NoteOf cfg n i

/-- How many visits with the note the script may have: none before the plan is made; the plan may still be made only while one more such visit is allowed. -/
structure Open (cfg : Too.Cfg) (n : String) (N : ℕ) (s : Too.S) : Prop where
  few : outstanding n s.base.script ≤ N
  none : ¬ Begun cfg n s.seen → outstanding n s.base.script = 0
  left : (∃ i, NoteOf cfg n i) → ¬ Begun cfg n s.seen → 1 ≤ N

/-- A new alert keeps this up. -/
theorem open_event {cfg : Too.Cfg} {n : String} (hu : ∀ i i', NoteOf cfg n i → NoteOf cfg n i' → i = i') {idOf : String → Option ℕ} {now : ℚ} {N : ℕ} {s s' : Too.S} {a : Too.Alert}
    (h : Too.newEvent cfg idOf now s a = some s') (ho : Open cfg n N s) : Open cfg n N s' ∧ (Begun cfg n s.seen → Begun cfg n s'.seen) := by
  obtain ⟨n1, n2⟩ := newEvent_spec h
  by_cases hf : Followed cfg a ∧ a.id ∉ s.seen
  · obtain ⟨e1, added, e2, e3⟩ := n1 hf
    have hb : Begun cfg n s.seen → Begun cfg n s'.seen := by
      rintro ⟨i, hi, hn⟩
      exact ⟨i, by rw [e1]; exact List.mem_append_left _ hi, hn⟩
    refine ⟨?_, hb⟩
    by_cases hi : NoteOf cfg n a.id
    · have hnb : ¬ Begun cfg n s.seen := by
        rintro ⟨i, h1, h2⟩
        rw [hu i a.id h2 hi] at h1
        exact hf.2 h1
      have hb' : Begun cfg n s'.seen := ⟨a.id, by rw [e1]; simp, hi⟩
      exact ⟨(outstanding_nodup (newEvent_kept h).2.2.2.2).trans (ho.left ⟨_, hi⟩ hnb), fun hc => absurd hb' hc, fun _ hc => absurd hb' hc⟩
    · have h0 : outstanding n added = 0 := by
        unfold outstanding
        rw [List.countP_eq_zero]
        intro e he hc
        obtain ⟨p, hp, k, rfl⟩ := tagged_mem e3 he
        simp only [Bool.and_eq_true, decide_eq_true_eq] at hc
        exact hi (hc.1 ▸ planned_note hp k)
      have hle : outstanding n s'.base.script ≤ outstanding n s.base.script := by
        rw [e2]
        have : outstanding n (s.base.script.filter (fun e => decide (StillWanted now e)) ++ added)
            = outstanding n (s.base.script.filter (fun e => decide (StillWanted now e))) + outstanding n added := by
          unfold outstanding; exact List.countP_append
        rw [this, h0]
        exact outstanding_filter _ _
      have hb' : Begun cfg n s'.seen → Begun cfg n s.seen := by
        rintro ⟨i, h1, h2⟩
        rw [e1] at h1
        rcases List.mem_append.1 h1 with h1 | h1
        · exact ⟨i, h1, h2⟩
        · rw [List.mem_singleton.1 h1] at h2
          exact absurd h2 hi
      exact ⟨hle.trans ho.few, fun hc => Nat.le_zero.1 (hle.trans (ho.none (fun x => hc (hb x))).le), fun hm hc => ho.left hm (fun x => hc (hb x))⟩
  · obtain ⟨e1, e2⟩ := n2 hf
    have hle : outstanding n s'.base.script ≤ outstanding n s.base.script := by rw [e2]; exact outstanding_filter _ _
    rw [← e1]
    refine ⟨⟨hle.trans ho.few, ?_, ?_⟩, id⟩ <;> rw [e1]
    · exact fun hc => Nat.le_zero.1 (hle.trans (ho.none hc).le)
    · exact ho.left

/-- As do the alerts of new conditions. -/
theorem open_update {cfg : Too.Cfg} {n : String} (hu : ∀ i i', NoteOf cfg n i → NoteOf cfg n i' → i = i') {idOf : String → Option ℕ} {now : ℚ} {N : ℕ} {s' : Too.S}
    (as : Option (List Too.Alert)) {s : Too.S} (h : Too.update cfg idOf now s as = some s') (ho : Open cfg n N s) :
    Open cfg n N s' ∧ (Begun cfg n s.seen → Begun cfg n s'.seen) ∧ s'.base.lastMjd = s.base.lastMjd ∧ s'.base.lastRough = s.base.lastRough
      ∧ s'.base.obs = s.base.obs ∧ s'.base.rough = s.base.rough := by
  cases as with
  | none => cases h; exact ⟨ho, id, rfl, rfl, rfl, rfl⟩
  | some as =>
    change as.foldlM (Too.newEvent cfg idOf now) s = some s' at h
    induction as generalizing s with
    | nil => cases h; exact ⟨ho, id, rfl, rfl, rfl, rfl⟩
    | cons a as ih =>
      rw [List.foldlM_cons] at h
      cases h1 : Too.newEvent cfg idOf now s a with
      | none => rw [h1] at h; cases h
      | some s1 =>
        rw [h1] at h
        obtain ⟨o1, o2⟩ := open_event hu h1 ho
        obtain ⟨k1, k2, k3, k4, -⟩ := newEvent_kept h1
        obtain ⟨i1, i2, i3, i4, i5, i6⟩ := ih o1 h
        exact ⟨i1, fun x => i2 (o2 x), i3.trans k1, i4.trans k2, i5.trans k3, i6.trans k4⟩

/-! ### Surveys of a scheduler -/

/-- What the survey offers at the time `t` carries the note at most `N` times, and not at all before the visit is planned. -/
structure TooFew (n : String) (N : ℕ) (t : ℚ) (s : Too.Sv) (x : Too.S) : Prop where
  open' : Open s.cfg n N x
  few : ScriptFew n N t (s.base, x.base)
  none : ¬ Begun s.cfg n x.seen → ScriptFew n 0 t (s.base, x.base)

/-- A survey that follows alerts, for the note `n`: it minds the visits with the note, and the note tells the alert. -/
structure TooMinds (n : String) (s : Too.Sv) : Prop where
  minds : MindsNote n s.base
  unique : ∀ i i', NoteOf s.cfg n i → NoteOf s.cfg n i' → i = i'

section
variable {C T A : Type}

/-- The surveys are those that follow alerts and other ones, and the others never ask for visits with the note. -/
structure AlertsBeside (E : Env C (Too.Sv ⊕ T) A) (cond : C → Script.Cond) (alerts : C → Option (List Too.Alert)) (idOf : String → Option ℕ) (value : ℚ)
    (other : SurveyOps C T) (n : String) : Prop where
  sv : E.sv = Script.mixed (Too.ops cond alerts idOf value) other
  time : ∀ c, (cond c).mjd = E.q.mjdOf c
  others : ∀ s c, ∀ o ∈ (other.gen s c).1, o.schedulerNote ≠ n

def tooFewOf (n : String) (N : ℕ) (t : ℚ) : Too.Sv ⊕ T → Prop
  | .inl s => TooMinds n s ∧ ∀ x, s.st = some x → TooFew n N t s x
  | .inr _ => True

def tooOldOf (n : String) (N : ℕ) (t : ℚ) : Too.Sv ⊕ T → Prop
  | .inl s => TooMinds n s ∧ ∀ x, s.st = some x → Open s.cfg n N x ∧ x.base.lastMjd < t ∧ x.base.lastRough < t
  | .inr _ => True

def tooReady (n : String) : Too.Sv ⊕ T → Prop
  | .inl s => (∃ i, NoteOf s.cfg n i) → ∀ x, s.st = some x → Begun s.cfg n x.seen
  | .inr _ => True

open Classical in
/-- May the survey plan visits with the note? -/
noncomputable def tooMine (n : String) : Too.Sv ⊕ T → Bool
  | .inl s => decide (∃ i, NoteOf s.cfg n i)
  | .inr _ => false

theorem scriptFew_last {n : String} {N : ℕ} {t : ℚ} {cfg : Script.Cfg} {st : Script.St} (h : outstanding n st.script ≤ N) (h1 : st.lastMjd < t) (h2 : st.lastRough < t) :
    ScriptFew n N t (cfg, st) :=
  ⟨h, h1.le, h2.le, fun e => absurd h1 (by rw [e]; exact lt_irrefl _), fun e => absurd h2 (by rw [e]; exact lt_irrefl _)⟩

theorem scriptFew_more {n : String} {N M : ℕ} {t : ℚ} {s : Script.Cfg × Script.St} (h : ScriptFew n N t s) (hm : N ≤ M) : ScriptFew n M t s :=
  ⟨h.few.trans hm, h.past, h.pastRough, fun e => ⟨(h.kept e).1.trans hm, (h.kept e).2⟩, fun e => ⟨(h.keptRough e).1.trans hm, (h.keptRough e).2⟩⟩

theorem scriptFew_of {n : String} {N M : ℕ} {t : ℚ} {cfg : Script.Cfg} {st st' : Script.St} (h : ScriptFew n N t (cfg, st)) (h1 : st'.lastMjd = st.lastMjd)
    (h2 : st'.lastRough = st.lastRough) (h3 : st'.obs = st.obs) (h4 : st'.rough = st.rough) (hm : N ≤ M) (ho : outstanding n st'.script ≤ M) : ScriptFew n M t (cfg, st') := by
  have h := scriptFew_more h hm
  refine ⟨ho, ?_, ?_, ?_, ?_⟩
  · show st'.lastMjd ≤ t; rw [h1]; exact h.past
  · show st'.lastRough ≤ t; rw [h2]; exact h.pastRough
  · show st'.lastMjd = t → countNote n st'.obs ≤ M ∧ Lasting t st'.obs
    rw [h1, h3]; exact h.kept
  · show st'.lastRough = t → countNote n st'.rough ≤ M ∧ Lasting t st'.rough
    rw [h2, h4]; exact h.keptRough

theorem too_update {n : String} {N : ℕ} {t : ℚ} {idOf : String → Option ℕ} {s : Too.Sv} (now : ℚ) (as : Option (List Too.Alert)) (h : tooFewOf (T := T) n N t (.inl s)) :
    tooFewOf (T := T) n N t (.inl (s.update idOf now as)) := by
  refine ⟨⟨h.1.minds, h.1.unique⟩, fun x hx => ?_⟩
  obtain ⟨y, hy, hx⟩ := Option.bind_eq_some_iff.1 hx
  obtain ⟨f1, f2, f3⟩ := h.2 y hy
  obtain ⟨o1, o2, k1, k2, k3, k4⟩ := open_update h.1.unique as hx f1
  exact ⟨o1, scriptFew_of f2 k1 k2 k3 k4 le_rfl o1.few, fun hb => scriptFew_of (f3 fun hc => hb (o2 hc)) k1 k2 k3 k4 le_rfl (o1.none hb).le⟩

theorem too_gen {n : String} {N : ℕ} {s : Too.Sv} (c : Script.Cond) (h : tooFewOf (T := T) n N c.mjd (.inl s)) :
    tooFewOf (T := T) n N c.mjd (.inl (s.gen c).2) ∧ countNote n (s.gen c).1 ≤ N
      ∧ (countNote n (s.gen c).1 = 0 ∨ (Lasting c.mjd (s.gen c).1 ∧ tooReady (T := T) n (.inl (s.gen c).2) ∧ ∃ i, NoteOf s.cfg n i)) := by
  unfold Too.Sv.gen
  cases hs : s.st with
  | none => exact ⟨h, Nat.zero_le _, .inl rfl⟩
  | some x =>
    dsimp only
    obtain ⟨f1, f2, f3⟩ := h.2 x hs
    obtain ⟨g1, g2, g3⟩ := script_gen c f2 h.1.minds.few h.1.minds.flush
    have hscript : (Script.gen s.base x.base c).1.script = x.base.script := (gen_script s.base x.base c).1
    refine ⟨⟨⟨h.1.minds, h.1.unique⟩, ?_⟩, g2, ?_⟩
    · rintro y ⟨⟩
      refine ⟨⟨?_, ?_, f1.left⟩, g1, fun hb => (script_gen c (f3 hb) h.1.minds.few h.1.minds.flush).1⟩
      · show outstanding n (Script.gen s.base x.base c).1.script ≤ N
        rw [hscript]; exact f1.few
      · show _ → outstanding n (Script.gen s.base x.base c).1.script = 0
        rw [hscript]; exact f1.none
    · by_cases hb : Begun s.cfg n x.seen
      · refine .inr ⟨g3, ?_, hb.imp fun i hi => hi.2⟩
        rintro - y ⟨⟩
        exact hb
      · exact .inl (Nat.le_zero.1 (script_gen c (f3 hb) h.1.minds.few h.1.minds.flush).2.1)

theorem too_hear {n : String} {N M : ℕ} {s : Too.Sv} {x : Too.S} (m : String) (hM : MindsNote n s.base) (h : Open s.cfg n N x) (hN : M = if m = n then N - 1 else N)
    (hr : m = n → (∃ i, NoteOf s.cfg n i) → Begun s.cfg n x.seen) :
    Open s.cfg n M { x with base := Script.addOne s.base x.base m } ∧ (Script.addOne s.base x.base m).lastMjd = x.base.lastMjd
      ∧ (Script.addOne s.base x.base m).lastRough = x.base.lastRough ∧ (Script.addOne s.base x.base m).obs = x.base.obs
      ∧ (Script.addOne s.base x.base m).rough = x.base.rough := by
  obtain ⟨a1, a2⟩ := script_hear (cfg := s.base) (st := x.base) m hM.good h.few
  refine ⟨⟨hN ▸ a1, fun hb => ?_, fun hm hb => ?_⟩, a2⟩
  · have := (script_hear (cfg := s.base) (st := x.base) m hM.good (h.none hb).le).1
    have h0 : (if m = n then 0 - 1 else 0) = 0 := by split <;> rfl
    rw [h0] at this
    exact Nat.le_zero.1 this
  · by_cases e : m = n
    · exact absurd (hr e hm) hb
    · rw [hN, if_neg e]; exact h.left hm hb

variable {E : Env C (Too.Sv ⊕ T) A} {cond : C → Script.Cond} {alerts : C → Option (List Too.Alert)} {idOf : String → Option ℕ} {value : ℚ} {other : SurveyOps C T} {n : String}

theorem update_begun {s s' : Too.S} {cfg : Too.Cfg} {now : ℚ} (as : Option (List Too.Alert)) (h : Too.update cfg idOf now s as = some s') (hb : Begun cfg n s.seen) :
    Begun cfg n s'.seen := by
  cases as with
  | none => cases h; exact hb
  | some as =>
    obtain ⟨i, hi, hn⟩ := hb
    exact ⟨i, by rw [(C85_update_partial cfg idOf now as s s' h).1]; exact List.mem_append_left _ hi, hn⟩

theorem tooReady_update {s : Too.Sv} (now : ℚ) (as : Option (List Too.Alert)) (h : tooReady (T := T) n (.inl s)) : tooReady (T := T) n (.inl (s.update idOf now as)) := by
  intro hm x hx
  obtain ⟨y, hy, hx⟩ := Option.bind_eq_some_iff.1 hx
  exact update_begun as hx (h hm y hy)

theorem tooReady_gen {s : Too.Sv} (c : Script.Cond) (h : tooReady (T := T) n (.inl s)) : tooReady (T := T) n (.inl (s.gen c).2) := by
  unfold Too.Sv.gen
  cases hs : s.st with
  | none => exact h
  | some y =>
    rintro hm x ⟨⟩
    exact h hm y hs

theorem gen_cfg (s : Too.Sv) (c : Script.Cond) : (s.gen c).2.cfg = s.cfg := by
  unfold Too.Sv.gen
  cases s.st <;> rfl

open Classical in
/-- What the surveys offer of the note. -/
noncomputable def tooOffers (hE : AlertsBeside E cond alerts idOf value other n) : Offers E n where
  Few := tooFewOf n
  Old := tooOldOf n
  Ready := tooReady n
  Mine := tooMine n
  later := by
    intro N t t' s h ht
    cases s with
    | inl s => exact ⟨h.1, fun x hx => ⟨(h.2 x hx).open', (h.2 x hx).few.later ht, fun hb => ((h.2 x hx).none hb).later ht⟩⟩
    | inr s => trivial
  old := by
    intro N t t' s h ht
    cases s with
    | inl s => exact ⟨h.1, fun x hx => ⟨(h.2 x hx).open', (h.2 x hx).few.past.trans_lt ht, (h.2 x hx).few.pastRough.trans_lt ht⟩⟩
    | inr s => trivial
  oldLater := by
    intro N t t' s h ht
    cases s with
    | inl s => exact ⟨h.1, fun x hx => ⟨(h.2 x hx).1, (h.2 x hx).2.1.trans_le ht, (h.2 x hx).2.2.trans_le ht⟩⟩
    | inr s => trivial
  few := by
    intro N t s h
    cases s with
    | inl s =>
      refine ⟨h.1, fun x hx => ?_⟩
      obtain ⟨h1, h2, h3⟩ := h.2 x hx
      exact ⟨h1, scriptFew_last h1.few h2 h3, fun hb => scriptFew_last (h1.none hb).le h2 h3⟩
    | inr s => trivial
  reward := by
    intro c N s h
    rw [hE.sv]
    cases s with
    | inl s =>
      rw [← hE.time c] at h ⊢
      exact (too_gen (T := T) (cond c) (too_update (cond c).mjd (alerts c) h)).1
    | inr s => trivial
  gen := by
    intro c N s h
    rw [hE.sv]
    cases s with
    | inl s =>
      rw [← hE.time c] at h ⊢
      obtain ⟨g1, g2, g3⟩ := too_gen (T := T) (cond c) h
      have hc : countObs n ((s.gen (cond c)).1.map Script.toObs) = countNote n (s.gen (cond c)).1 := by
        unfold countObs
        rw [List.countP_map]
        rfl
      refine ⟨g1, ?_, ?_⟩
      · show countObs n ((s.gen (cond c)).1.map Script.toObs) ≤ N
        rw [hc]; exact g2
      · show countObs n ((s.gen (cond c)).1.map Script.toObs) = 0 ∨ _
        rw [hc]
        refine g3.imp id fun g => ⟨?_, g.2.1, decide_eq_true g.2.2⟩
        intro o ho
        obtain ⟨e, he, rfl⟩ := List.mem_map.1 (show o ∈ (s.gen (cond c)).1.map Script.toObs from ho)
        exact g.1 e he
    | inr s =>
      have : countObs n (other.gen s c).1 = 0 := by
        unfold countObs
        rw [List.countP_eq_zero]
        intro o ho
        simpa using hE.others s c o ho
      exact ⟨trivial, this.le.trans (Nat.zero_le _), .inl this⟩
  update := by
    intro c N s
    rw [hE.sv]
    cases s with
    | inl s =>
      refine ⟨fun h => too_update _ _ h, fun h => ⟨⟨h.1.minds, h.1.unique⟩, fun x hx => ?_⟩⟩
      obtain ⟨y, hy, hx⟩ := Option.bind_eq_some_iff.1 hx
      obtain ⟨h1, h2, h3⟩ := h.2 y hy
      obtain ⟨o1, -, k1, k2, -⟩ := open_update h.1.unique _ hx h1
      exact ⟨o1, k1 ▸ h2, k2 ▸ h3⟩
    | inr s => exact ⟨fun _ => trivial, fun _ => trivial⟩
  hear := by
    intro o N t s h hr
    rw [hE.sv]
    cases s with
    | inl s =>
      refine ⟨⟨h.1.minds, h.1.unique⟩, fun x hx => ?_⟩
      obtain ⟨y, hy, rfl⟩ := Option.map_eq_some_iff.1 hx
      obtain ⟨h1, h2, h3⟩ := h.2 y hy
      obtain ⟨o1, k1, k2, -⟩ := too_hear o.schedulerNote h.1.minds h1 rfl (fun e hm => hr e hm y hy)
      exact ⟨o1, k1.symm ▸ h2, k2.symm ▸ h3⟩
    | inr s => trivial
  hearOther := by
    intro o N t s ho h
    rw [hE.sv]
    cases s with
    | inl s =>
      refine ⟨⟨h.1.minds, h.1.unique⟩, fun x hx => ?_⟩
      obtain ⟨y, hy, rfl⟩ := Option.map_eq_some_iff.1 hx
      obtain ⟨h1, h2, h3⟩ := h.2 y hy
      obtain ⟨o1, k1, k2, k3, k4⟩ := too_hear (M := N) o.schedulerNote h.1.minds h1 (by rw [if_neg ho]) (fun e _ => absurd e ho)
      exact ⟨o1, scriptFew_of h2 k1 k2 k3 k4 le_rfl o1.few, fun hb => scriptFew_of (h3 hb) k1 k2 k3 k4 le_rfl (o1.none hb).le⟩
    | inr s => trivial
  notMine := by
    intro s h
    cases s with
    | inl s => exact fun hm => absurd hm (of_decide_eq_false h)
    | inr s => trivial
  readyReward := by
    intro s c h
    rw [hE.sv]
    cases s with
    | inl s => exact tooReady_gen _ (tooReady_update _ _ h)
    | inr s => trivial
  readyGen := by
    intro s c h
    rw [hE.sv]
    cases s with
    | inl s => exact tooReady_gen _ h
    | inr s => trivial
  readyUpdate := by
    intro s c h
    rw [hE.sv]
    cases s with
    | inl s => exact tooReady_update _ _ h
    | inr s => trivial
  readyHear := by
    intro s o h
    rw [hE.sv]
    cases s with
    | inl s =>
      intro hm x hx
      obtain ⟨y, hy, rfl⟩ := Option.map_eq_some_iff.1 hx
      exact h hm y hy
    | inr s => trivial
  mineReward := by
    intro s c
    rw [hE.sv]
    cases s with
    | inl s =>
      unfold tooMine
      show decide (∃ i, NoteOf ((s.update idOf (cond c).mjd (alerts c)).gen (cond c)).2.cfg n i) = _
      rw [gen_cfg]
      rfl
    | inr s => rfl
  mineGen := by
    intro s c
    rw [hE.sv]
    cases s with
    | inl s =>
      unfold tooMine
      show decide (∃ i, NoteOf (s.gen (cond c)).2.cfg n i) = _
      rw [gen_cfg]
    | inr s => rfl
  mineUpdate := by
    intro s c
    rw [hE.sv]
    cases s <;> rfl
  mineHear := by
    intro s o
    rw [hE.sv]
    cases s <;> rfl

/-- May the survey come to ask for visits with the note? -/
def PlansNote (n : String) : Too.Sv ⊕ T → Prop
  | .inl s => ∃ i, NoteOf s.cfg n i
  | .inr _ => False

theorem pairwise_count {X : Type} {p : X → Bool} : ∀ {l : List X}, l.Pairwise (fun a b => ¬ (p a = true ∧ p b = true)) → l.countP p ≤ 1
  | [], _ => Nat.zero_le _
  | x :: l, h => by
    obtain ⟨h1, h2⟩ := List.pairwise_cons.1 h
    by_cases hx : p x = true
    · rw [List.countP_cons_of_pos hx, List.countP_eq_zero.2 fun y hy hp => h1 y hy ⟨hx, hp⟩]
    · rw [List.countP_cons_of_neg hx]
      exact pairwise_count h2

variable {K B H : Type}

/-- **C218 (partial).** In a simulation with new surveys that follow alerts, beside other surveys, a visit planned for an alert is made at most once, however often the
alert is announced: there is at most one visit with its note. Other surveys must not use that note, at most one of the surveys may plan visits with it, none may ignore it,
and it must not have been cut short. -/
theorem C218_once_partial (S : Obs.Site) (hn : Obs.Nights S.nights) (hd : Down.Ordered S.downs) (M : Obs.Kin K Obs) (hM : Obs.NonNeg M) (hK : KeepsNote M)
    (fuel : ℕ) (δ : ℚ) (hδ : 0 < δ) (hlong : ∀ k o t, δ ≤ (M.observe k o t).2.2) (conds : Obs.St K → C) (mount : K → B → K)
    (E : Env C (Too.Sv ⊕ T) A) (cond : C → Script.Cond) (alerts : C → Option (List Too.Alert)) (idOf : String → Option ℕ) (value : ℚ) (other : SurveyOps C T) (n : String)
    (hE : AlertsBeside E cond alerts idOf value other n) (hdet : DetKeepsNotes E.q) (htime : ∀ st, E.q.mjdOf (conds st) = st.mjd)
    (X : Rest H C B) (hX : ∀ h v, 0 ≤ (X.overhead h v).2) (cfg : Sim.Cfg) (hstep : 0 ≤ cfg.stepNone) (h1 : 0 < cfg.startSize) (h2 : 0 < cfg.appendSize)
    (m : ℕ) (w : World (Core C (Too.Sv ⊕ T) A × H) K) (hw : w.sched.1.conditions = none) (hq : w.sched.1.qm.desired = [])
    (hneed : w.sched.1.qm.need = []) (hlen : n.length < 60)
    (hone : w.sched.1.tiers.flatten.Pairwise fun s s' => ¬ (PlansNote n s ∧ PlansNote n s'))
    (hnew : ∀ tier ∈ w.sched.1.tiers, ∀ s, .inl s ∈ tier → MindsNote n s.base ∧ (∀ band ∈ s.cfg.bands.flatten, ',' ∉ band.toList)
      ∧ ∃ id, s.st = some ⟨Script.init id, []⟩) (hpos : -1 < cfg.simStart.getD w.obs.mjd) :
    ∃ vs : List (Obs.Visit Obs), (Sim.run (V := Obs.Visit Obs) (env S M fuel conds mount (coreSched E X)) cfg m w).st.result = vs.map some
      ∧ vs.countP (fun v => decide (v.target.schedulerNote = n)) ≤ 1 := by
  refine noted_at_most S hn hd M hM hK fuel δ hδ hlong conds mount (tooOffers hE) hdet htime X hX cfg hstep h1 h2 m w hw hq hneed 1 ?_ ?_
  · have e : (shapeOf (tooOffers hE).Mine w.sched.1.tiers).flatten.count true = w.sched.1.tiers.flatten.countP (tooMine n) := by
      unfold shapeOf
      rw [← List.map_flatten, List.count, List.countP_map]
      refine List.countP_congr fun x _ => ?_
      show (tooMine n x == true) = true ↔ _
      simp
    rw [e]
    refine pairwise_count (hone.imp ?_)
    intro a b hab hc
    refine hab ⟨?_, ?_⟩
    · cases a with
      | inl a => exact @of_decide_eq_true _ (Classical.propDecidable _) hc.1
      | inr a => cases hc.1
    · cases b with
      | inl b => exact @of_decide_eq_true _ (Classical.propDecidable _) hc.2
      | inr b => cases hc.2
  · intro tier ht s hs
    cases s with
    | inl s =>
      obtain ⟨a1, a2, id, a3⟩ := hnew tier ht s hs
      refine ⟨⟨a1, fun i i' => noteOf_unique hlen a2⟩, fun x hx => ?_⟩
      rw [a3] at hx
      cases hx
      exact ⟨⟨Nat.zero_le _, fun _ => rfl, fun _ _ => le_rfl⟩, hpos, hpos⟩
    | inr s => trivial

end

end Verif

namespace Verif

open Whole Core

/-! ### A small simulation -/

/-- Surveys that follow alerts, beside surveys whose visits have no notes. The first alert is announced all the time, the second after a tenth of a day. -/
def alertEnv : Env ToyC (Too.Sv ⊕ ToySv) Unit where
  q := toyE.q
  sv := Script.mixed (Too.ops (fun c => skyAt c.mjd) (fun c => some ([alert 1 0 none] ++ if c.mjd < 1 / 10 then [] else [alert 2 0 none])) idOf0 2) plainSv
  toos := toyE.toos

/-- One visit in each of two bands, at one position. -/
def alertCfg : Too.Cfg :=
  { tooCfg with times := [0], bands := [["g", "r"]], nvis := [1], exptimes := [30], altMax := 10, fields := fun _ _ => [(1, 5)], haMax := 20, haMin := 4 }

/-- A survey that follows alerts in the first tier, a survey of visits in the y band in the second. -/
def alertStart (ignore : List String) : World (Core ToyC (Too.Sv ⊕ ToySv) Unit × Unit) ℚ :=
  ⟨⟨0, 0, 40⟩, (Core.init () [[.inl ⟨alertCfg, cfg0 .none ignore, some ⟨Script.init 0, []⟩⟩], [.inr ⟨[.fin 1], [{ targetId := 0, band := "y" }], none⟩]] 5 true [], ()), false⟩

def alertSim : Sim.Env (World (Core ToyC (Too.Sv ⊕ ToySv) Unit × Unit) ℚ) (Obs.Visit Obs) ToyC Unit :=
  env toySite wholeKin 20 (fun s => ⟨s.mjd, none⟩) (fun k _ => k) (coreSched alertEnv wholeRest)

/-- Notes and bands of the visits of a simulation. -/
def alertMade (ignore : List String) : List (Option (String × String)) :=
  (Sim.run (V := Obs.Visit Obs) alertSim { duration := 1 / 5, startSize := 2, appendSize := 2 } 30 (alertStart ignore)).st.result.map
    fun r => r.map fun v => (v.target.schedulerNote, v.target.band)

/-- Both visits for each alert are made, once. -/
example : alertMade [] = [some ("ToO, g, 1, i0, 0", "g"), some ("ToO, r, 1, i0, 1", "r"), some ("", "y"), some ("", "y"), some ("", "y"),
    some ("ToO, g, 2, i0, 2", "g"), some ("ToO, r, 2, i0, 3", "r"), some ("", "y"), some ("", "y")] := by decide +kernel

/-- C218 is violated by a survey told to ignore its own visits: it makes those for the first alert again and again. -/
theorem C218_ignored_violated : (alertMade ["ToO"]).take 5 = [some ("ToO, g, 1, i0, 0", "g"), some ("ToO, r, 1, i0, 1", "r"), some ("ToO, g, 1, i0, 0", "g"),
    some ("ToO, r, 1, i0, 1", "r"), some ("ToO, g, 1, i0, 0", "g")] := by decide +kernel

/-- The assumptions of C218 are met by this simulation, for the note of a visit. -/
example : KeepsNote wholeKin ∧ (∀ k o t, 2000 ≤ (wholeKin.observe k o t).2.2)
    ∧ AlertsBeside alertEnv (fun c => skyAt c.mjd) (fun c => some ([alert 1 0 none] ++ if c.mjd < 1 / 10 then [] else [alert 2 0 none])) idOf0 2 plainSv "ToO, r, 2, i0, 3"
    ∧ DetKeepsNotes alertEnv.q ∧ "ToO, r, 2, i0, 3".length < 60 ∧ NoteOf alertCfg "ToO, r, 2, i0, 3" 2
    ∧ ((alertStart []).sched.1.tiers.flatten.Pairwise fun s s' => ¬ (PlansNote "ToO, r, 2, i0, 3" s ∧ PlansNote "ToO, r, 2, i0, 3" s'))
    ∧ MindsNote "ToO, r, 2, i0, 3" (cfg0 .none []) ∧ (∀ band ∈ alertCfg.bands.flatten, ',' ∉ band.toList) := by
  refine ⟨?_, fun _ _ _ => le_rfl, ⟨rfl, fun _ => rfl, ?_⟩, ⟨fun _ _ l o ho => ⟨o, ho, rfl, rfl⟩, fun _ _ l h => h⟩, by decide +kernel,
    ⟨"r", by decide +kernel, 0, 3, by decide +kernel⟩, ?_, ⟨by decide +kernel, fun l => le_rfl, fun l e he => ⟨e, he, le_rfl⟩⟩, by decide +kernel⟩
  · intro k t o o' h
    cases h
    exact ⟨rfl, rfl⟩
  · intro s c o ho
    obtain ⟨o', -, rfl⟩ := List.mem_map.1 ho
    show "" ≠ "ToO, r, 2, i0, 3"
    decide
  · refine List.pairwise_cons.2 ⟨?_, List.pairwise_singleton _ _⟩
    intro s hs hc
    rw [List.mem_singleton.1 hs] at hc
    exact hc.2

end Verif
