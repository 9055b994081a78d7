import Verif.Props.Scripted
import Mathlib.Data.Nat.Digits.Lemmas

/-!
Properties C37, C38, C71 and C72: scripted surveys over time.
-/

namespace Verif

open Script

theorem run_cons (cfg : Cfg) (idOf : String → Option ℕ) (s : St) (op : Op) (ops : List Op) :
    run cfg idOf s (op :: ops) = (step cfg idOf s op).bind (fun s' => run cfg idOf s' ops) := by
  unfold run; rw [List.foldlM_cons]; rfl

/-- What holds at the start and is kept by all steps of a history holds at its end. -/
theorem run_induct (cfg : Cfg) (idOf : String → Option ℕ) (P : St → Prop) (ops : List Op)
    (hstep : ∀ op ∈ ops, ∀ s s', P s → step cfg idOf s op = some s' → P s') :
    ∀ s s', P s → run cfg idOf s ops = some s' → P s' := by
  induction ops with
  | nil => intro s s' h hr; unfold run at hr; simp at hr; rw [← hr]; exact h
  | cons op ops ih =>
    intro s s' h hr
    rw [run_cons] at hr
    cases hs : step cfg idOf s op with
    | none => rw [hs] at hr; simp at hr
    | some t =>
      rw [hs] at hr
      exact ih (fun o ho => hstep o (List.mem_cons_of_mem _ ho)) t s' (hstep op (by simp) s t h hs) hr

/-! ### Notes are unique -/

theorem setScript_some {idOf : String → Option ℕ} {s s' : St} {new : List Entry} {a i : Bool}
    (h : setScript idOf s new a i = some s') :
    ∃ added k, s' = { s with
        script := (if a then s.script ++ added else added), idStart := k,
        scheduled := some ((if a then s.script ++ added else added).map Entry.mjd) } ∧
      (s'.script.map Entry.note).Nodup ∧ (i = true → added = tagAll s.idStart new ∧ k = s.idStart + new.length) ∧
      (i = false → added = new) := by
  unfold setScript at h
  dsimp only at h
  split at h
  · cases h
  · next added k hst =>
    by_cases hn : ((if a then s.script ++ added else added).map Entry.note).Nodup
    · rw [if_pos hn] at h
      cases h
      refine ⟨added, k, rfl, hn, fun hi => ?_, fun hi => ?_⟩
      · rw [hi] at hst; simp at hst; exact ⟨hst.1.symm, hst.2.symm⟩
      · rw [hi] at hst
        simp only [Bool.false_eq_true, if_false] at hst
        split at hst
        · cases hst
        · simp only [Option.some.injEq, Prod.mk.injEq] at hst; exact hst.1.symm
    · rw [if_neg hn] at h; cases h

theorem markFirst_notes (n : String) (es : List Entry) : (markFirst n es).map Entry.note = es.map Entry.note := by
  induction es with
  | nil => rfl
  | cons e es ih => unfold markFirst; split <;> simp [ih]

theorem addOne_notes (cfg : Cfg) (s : St) (n : String) :
    (addOne cfg s n).script.map Entry.note = s.script.map Entry.note := by
  unfold addOne; split
  · exact markFirst_notes n s.script
  · rfl

theorem addArray_notes (s : St) (ns : List String) : (addArray s ns).script.map Entry.note = s.script.map Entry.note := by
  unfold addArray; split
  · rfl
  · dsimp only
    rw [List.map_map]
    apply List.map_congr_left
    intro e _
    simp only [Function.comp]
    split <;> rfl

theorem genRough_script (cfg : Cfg) (s : St) (c : Cond) : (genRough cfg s c).1.script = s.script ∧
    (genRough cfg s c).1.idStart = s.idStart ∧ (genRough cfg s c).1.scheduled = s.scheduled := by
  unfold genRough; split
  · exact ⟨rfl, rfl, rfl⟩
  · dsimp only; split
    · exact ⟨rfl, rfl, rfl⟩
    · split <;> exact ⟨rfl, rfl, rfl⟩

theorem gen_script (cfg : Cfg) (s : St) (c : Cond) : (gen cfg s c).1.script = s.script ∧
    (gen cfg s c).1.idStart = s.idStart ∧ (gen cfg s c).1.scheduled = s.scheduled := by
  unfold gen; split
  · exact ⟨rfl, rfl, rfl⟩
  · exact genRough_script cfg s c

/-- **C38.** In every history in which nothing is raised the notes of the script are all different. -/
theorem C38_unique (cfg : Cfg) (idOf : String → Option ℕ) (id0 : ℕ) (ops : List Op) (s : St)
    (h : run cfg idOf (init id0) ops = some s) : (s.script.map Entry.note).Nodup := by
  refine run_induct cfg idOf (fun s => (s.script.map Entry.note).Nodup) ops ?_ (init id0) s (by simp [init]) h
  intro op _ s s' hs hst
  cases op with
  | set new a i => obtain ⟨_, _, _, hn, _⟩ := setScript_some hst; exact hn
  | clear => cases hst; simp [clear]
  | one n => cases hst; rw [addOne_notes]; exact hs
  | array ns => cases hst; rw [addArray_notes]; exact hs
  | gen c => cases hst; rw [(gen_script cfg s c).1]; exact hs
  | rough c => cases hst; rw [(genRough_script cfg s c).1]; exact hs

/-! ### Tags -/

theorem after_space (d d' : List Char) (hd : ' ' ∉ d) (hd' : ' ' ∉ d') (l l' : List Char)
    (h : l ++ ' ' :: d = l' ++ ' ' :: d') : d = d' := by
  have key : ∀ (d l : List Char), ' ' ∉ d → (l ++ ' ' :: d).reverse.takeWhile (fun x => x != ' ') = d.reverse := by
    intro d l hd
    have : (l ++ ' ' :: d).reverse = d.reverse ++ (' ' :: l.reverse) := by simp
    rw [this, List.takeWhile_append_of_pos]
    · simp
    · intro a ha
      rw [bne_iff_ne]
      rintro rfl
      exact hd (List.mem_reverse.1 ha)
  have := key d l hd
  rw [h, key d' l' hd'] at this
  exact (List.reverse_inj.1 this).symm

/-- The tagged note fits. -/
def Fits (note : String) (k : ℕ) : Prop := note.length ≤ 40 ∧ k < 10 ^ 18

theorem tag_toList {note : String} {k : ℕ} (h : Fits note k) :
    (tag note k).toList = (note.toList ++ [',']) ++ ' ' :: Nat.toDigits 10 k := by
  unfold tag cut
  have hl : (Nat.toDigits 10 k).length ≤ 18 := Nat.toDigits_length 10 k 18 (by norm_num) h.2
  have e : (note ++ ", " ++ toString k).toList = (note.toList ++ [',']) ++ ' ' :: Nat.toDigits 10 k := by
    rw [Nat.toString_eq_ofList_toDigits]
    simp
  rw [e, String.toList_ofList, List.take_of_length_le]
  have := h.1
  rw [← String.length_toList] at this
  simp only [List.length_append, List.length_cons, List.length_nil]
  omega

theorem tag_inj {n n' : String} {k k' : ℕ} (h : Fits n k) (h' : Fits n' k') (e : tag n k = tag n' k') : k = k' := by
  have e' : (tag n k).toList = (tag n' k').toList := by rw [e]
  rw [tag_toList h, tag_toList h'] at e'
  have nosp : ∀ k, ' ' ∉ Nat.toDigits 10 k := by
    intro k hk
    have := Nat.isDigit_of_mem_toDigits (by norm_num) (by norm_num) hk
    revert this; decide
  have := after_space _ _ (nosp k) (nosp k') _ _ e'
  have h1 := Nat.ofDigitChars_toDigits (b := 10) (n := k) (by norm_num) (by norm_num)
  have h2 := Nat.ofDigitChars_toDigits (b := 10) (n := k') (by norm_num) (by norm_num)
  rw [← h1, ← h2, this]

/-- The visit's note is tagged with a number in the given range. -/
def TaggedIn (lo hi : ℕ) (x : String) : Prop := ∃ n k, Fits n k ∧ lo ≤ k ∧ k < hi ∧ x = tag n k

theorem tagAll_spec (es : List Entry) : ∀ k, (∀ e ∈ es, e.note.length ≤ 40) → k + es.length ≤ 10 ^ 18 →
    (∀ x ∈ (tagAll k es).map Entry.note, TaggedIn k (k + es.length) x) ∧ ((tagAll k es).map Entry.note).Nodup := by
  induction es with
  | nil => intro k _ _; simp [tagAll]
  | cons e es ih =>
    intro k hs hk
    rw [List.length_cons] at hk
    obtain ⟨i1, i2⟩ := ih (k + 1) (fun x hx => hs x (List.mem_cons_of_mem _ hx)) (by omega)
    have hf : Fits e.note k := ⟨hs e (by simp), by omega⟩
    simp only [tagAll, List.map_cons, List.nodup_cons, List.mem_cons, List.length_cons]
    refine ⟨?_, ?_, i2⟩
    · rintro x (rfl | hx)
      · exact ⟨_, _, hf, le_refl _, by omega, rfl⟩
      · obtain ⟨n, j, a, b, d, e⟩ := i1 x hx
        exact ⟨n, j, a, by omega, by omega, e⟩
    · intro hx
      obtain ⟨n, j, a, b, d, e⟩ := i1 _ hx
      have := tag_inj hf a e
      omega

/-- The number of visits put into the script by a history. -/
def total : List Op → ℕ
  | [] => 0
  | .set new _ _ :: ops => new.length + total ops
  | _ :: ops => total ops

/-- Scripts are set with indices added, and the notes are not too long. -/
def Tagging (op : Op) : Prop := ∀ new a i, op = .set new a i → i = true ∧ ∀ e ∈ new, e.note.length ≤ 40

theorem tagged_history (cfg : Cfg) (idOf : String → Option ℕ) (ops : List Op) (hops : ∀ op ∈ ops, Tagging op) :
    ∀ s : St, s.idStart + total ops ≤ 10 ^ 18 → (∀ x ∈ s.script.map Entry.note, TaggedIn 0 s.idStart x) →
    (s.script.map Entry.note).Nodup →
    (∃ s', run cfg idOf s ops = some s') ∧ given cfg idOf s ops = List.range' s.idStart (total ops) := by
  induction ops with
  | nil => intro s _ _ _; exact ⟨⟨s, rfl⟩, rfl⟩
  | cons op ops ih =>
    intro s hk ht hn
    have ih' := ih (fun o ho => hops o (List.mem_cons_of_mem _ ho))
    have other : ∀ s', step cfg idOf s op = some s' → (∀ new a i, op ≠ .set new a i) → s'.idStart = s.idStart →
        (s'.script = [] ∨ s'.script.map Entry.note = s.script.map Entry.note) →
        (∃ s'', run cfg idOf s (op :: ops) = some s'') ∧
          given cfg idOf s (op :: ops) = List.range' s.idStart (total (op :: ops)) := by
      intro s' hst hno hid hscr
      have htot : total (op :: ops) = total ops := by cases op <;> first | rfl | exact absurd rfl (hno _ _ _)
      have hgive : given cfg idOf s (op :: ops) = given cfg idOf s' ops := by
        cases op <;> first | exact absurd rfl (hno _ _ _) | simp only [given, hst, List.nil_append]
      rw [htot] at hk ⊢
      rw [hgive, run_cons, hst, ← hid]
      apply ih' s' (by rw [hid]; exact hk)
      · rcases hscr with h | h
        · rw [h]; simp
        · rw [h, hid]; exact ht
      · rcases hscr with h | h
        · rw [h]; simp
        · rw [h]; exact hn
    cases op with
    | clear => exact other (clear s) rfl (by intros; simp) rfl (.inl rfl)
    | one n => exact other (addOne cfg s n) rfl (by intros; simp) (by unfold addOne; split <;> rfl) (.inr (addOne_notes cfg s n))
    | array ns => exact other (addArray s ns) rfl (by intros; simp) (by unfold addArray; split <;> rfl) (.inr (addArray_notes s ns))
    | gen c => exact other (gen cfg s c).1 rfl (by intros; simp) (gen_script cfg s c).2.1 (.inr (by rw [(gen_script cfg s c).1]))
    | rough c =>
      exact other (genRough cfg s c).1 rfl (by intros; simp) (genRough_script cfg s c).2.1 (.inr (by rw [(genRough_script cfg s c).1]))
    | set new a i =>
      obtain ⟨rfl, hshort⟩ := hops _ (by simp) new a i rfl
      have hk' : s.idStart + (new.length + total ops) ≤ 10 ^ 18 := hk
      obtain ⟨t1, t2⟩ := tagAll_spec new s.idStart hshort (by omega)
      have hnd : ((if a then s.script ++ tagAll s.idStart new else tagAll s.idStart new).map Entry.note).Nodup := by
        split
        · rw [List.map_append, List.nodup_append']
          refine ⟨hn, t2, ?_⟩
          intro x hx hx'
          obtain ⟨n, j, f, _, d, e⟩ := ht x hx
          obtain ⟨n', j', f', b', d', e'⟩ := t1 x hx'
          have := tag_inj f f' (e.symm.trans e')
          omega
        · exact t2
      have hset : step cfg idOf s (.set new a true) = some { s with
          script := (if a then s.script ++ tagAll s.idStart new else tagAll s.idStart new),
          idStart := s.idStart + new.length,
          scheduled := some ((if a then s.script ++ tagAll s.idStart new else tagAll s.idStart new).map Entry.mjd) } := by
        unfold step setScript
        dsimp only
        rw [if_pos rfl]
        dsimp only
        rw [if_pos hnd]
      have hmem : ∀ x ∈ (if a then s.script ++ tagAll s.idStart new else tagAll s.idStart new).map Entry.note,
          TaggedIn 0 (s.idStart + new.length) x := by
        intro x hx
        have : x ∈ s.script.map Entry.note ∨ x ∈ (tagAll s.idStart new).map Entry.note := by
          split at hx
          · rw [List.map_append, List.mem_append] at hx; exact hx
          · exact .inr hx
        rcases this with h | h
        · obtain ⟨n, j, f, b, d, e⟩ := ht x h; exact ⟨n, j, f, b, by omega, e⟩
        · obtain ⟨n, j, f, b, d, e⟩ := t1 x h; exact ⟨n, j, f, by omega, d, e⟩
      obtain ⟨r1, r2⟩ := ih' ({ s with
          script := (if a then s.script ++ tagAll s.idStart new else tagAll s.idStart new),
          idStart := s.idStart + new.length,
          scheduled := some ((if a then s.script ++ tagAll s.idStart new else tagAll s.idStart new).map Entry.mjd) })
        (by show s.idStart + new.length + total ops ≤ _; omega) hmem hnd
      constructor
      · rw [run_cons, hset]; exact r1
      · unfold given
        rw [hset]
        dsimp only at r2 ⊢
        rw [r2]
        show _ = List.range' s.idStart (new.length + total ops)
        rw [List.range'_append_1]

/-- **C38 (partial).** When indices are added and notes are not too long, `set_script` never raises,
whatever is replaced or cleared in between, and all numbers ever given to visits are different. -/
theorem C38_tagged_partial (cfg : Cfg) (idOf : String → Option ℕ) (id0 : ℕ) (ops : List Op)
    (hops : ∀ op ∈ ops, Tagging op) (hk : id0 + total ops ≤ 10 ^ 18) :
    (∃ s, run cfg idOf (init id0) ops = some s) ∧ (given cfg idOf (init id0) ops).Nodup ∧
    (given cfg idOf (init id0) ops).length = total ops := by
  obtain ⟨h1, h2⟩ := tagged_history cfg idOf ops hops (init id0) hk (by simp [init]) (by simp [init])
  refine ⟨h1, ?_, ?_⟩
  · rw [h2]; exact List.nodup_range'
  · rw [h2]; exact List.length_range'


/-- Reads the number after the last separator, for the examples. -/
def idOf0 (s : String) : Option ℕ :=
  match (s.toList.reverse.takeWhile (fun x => x != ' ')).reverse with
  | [] => none
  | l => if l.all Char.isDigit then some (Nat.ofDigitChars 10 l 0) else none

/-- The notes of the script after a history. -/
def notesAfter (cfg : Cfg) (ops : List Op) : Option (List String) :=
  (run cfg idOf0 (init 0) ops).map (fun s => s.script.map Entry.note)

example : notesAfter (cfg0 .none []) [.set [visit "a" "g" 0, visit "a" "g" 1] true true, .clear,
    .set [visit "a" "g" 0] true true] = some ["a, 2"] := by decide +kernel

/-- **C38 fails** when scripts are set without adding indices: the numbers are then read from the
script being replaced, and visits set later get numbers that were used before. -/
theorem C38_violated : given (cfg0 .none []) idOf0 (init 0)
    [.set [visit "a" "g" 0, visit "a" "g" 0] true true, .clear, .set [visit "b, 0" "g" 0] true false,
     .set [] true false, .set [visit "a" "g" 0] false true] = [0, 1, 1] := by decide +kernel

/-- **C38 fails** for long notes: the index does not fit, and setting the script raises. -/
theorem C38_long_violated : notesAfter (cfg0 .none [])
    [.set [visit "123456789012345678901234567890123456789012345678901234567890" "g" 0,
           visit "123456789012345678901234567890123456789012345678901234567890" "g" 1] true true] = none := by
  decide +kernel

/-! ### C37: completed visits -/

/-- When a step asks for visits. -/
def Script.Op.calls : Op → Option ℚ
  | .gen c => some c.mjd
  | .rough c => some c.mjd
  | _ => none

/-- The step leaves the visits of the script in place, and asks for detailed visits only. -/
def Keeps (op : Op) : Prop := op ≠ .clear ∧ (∀ new i, op ≠ .set new false i) ∧ ∀ c, op ≠ .rough c

theorem genRough_times (cfg : Cfg) (s : St) (c : Cond) :
    ((genRough cfg s c).1.lastMjd = s.lastMjd ∨ (genRough cfg s c).1.lastMjd = c.mjd) ∧
    ((genRough cfg s c).1.lastRough = s.lastRough ∨ (genRough cfg s c).1.lastRough = c.mjd) := by
  unfold genRough; split
  · exact ⟨.inl rfl, .inl rfl⟩
  · dsimp only; split
    · exact ⟨.inl rfl, .inr rfl⟩
    · split
      · exact ⟨.inr rfl, .inl rfl⟩
      · exact ⟨.inl rfl, .inr rfl⟩

theorem gen_times (cfg : Cfg) (s : St) (c : Cond) :
    ((gen cfg s c).1.lastMjd = s.lastMjd ∨ (gen cfg s c).1.lastMjd = c.mjd) ∧
    ((gen cfg s c).1.lastRough = s.lastRough ∨ (gen cfg s c).1.lastRough = c.mjd) := by
  unfold gen; split
  · exact ⟨.inl rfl, .inl rfl⟩
  · exact ⟨.inr rfl, (genRough_times cfg s c).2⟩

theorem step_times (cfg : Cfg) (idOf : String → Option ℕ) (s s' : St) (op : Op) (h : step cfg idOf s op = some s') :
    (s'.lastMjd = s.lastMjd ∨ op.calls = some s'.lastMjd) ∧ (s'.lastRough = s.lastRough ∨ op.calls = some s'.lastRough) := by
  cases op with
  | set new a i => obtain ⟨_, _, rfl, _⟩ := setScript_some h; exact ⟨.inl rfl, .inl rfl⟩
  | clear => cases h; exact ⟨.inl rfl, .inl rfl⟩
  | one n => cases h; unfold addOne; split <;> exact ⟨.inl rfl, .inl rfl⟩
  | array ns => cases h; unfold addArray; split <;> exact ⟨.inl rfl, .inl rfl⟩
  | gen c =>
    cases h
    obtain ⟨h1, h2⟩ := gen_times cfg s c
    exact ⟨h1.imp id (fun h => by rw [h]; rfl), h2.imp id (fun h => by rw [h]; rfl)⟩
  | rough c =>
    cases h
    obtain ⟨h1, h2⟩ := genRough_times cfg s c
    exact ⟨h1.imp id (fun h => by rw [h]; rfl), h2.imp id (fun h => by rw [h]; rfl)⟩

/-- Neither kind of call has been made at the time. -/
theorem run_times (cfg : Cfg) (idOf : String → Option ℕ) (id0 : ℕ) (ops : List Op) (s : St) (t : ℚ) (ht : t ≠ -1)
    (hno : ∀ op ∈ ops, op.calls ≠ some t) (h : run cfg idOf (init id0) ops = some s) :
    s.lastMjd ≠ t ∧ s.lastRough ≠ t := by
  refine run_induct cfg idOf (fun s => s.lastMjd ≠ t ∧ s.lastRough ≠ t) ops ?_ (init id0) s ⟨ht.symm, ht.symm⟩ h
  intro op hop s s' hs hst
  obtain ⟨h1, h2⟩ := step_times cfg idOf s s' op hst
  constructor
  · rcases h1 with h1 | h1
    · rw [h1]; exact hs.1
    · intro e; exact hno op hop (by rw [h1, e])
  · rcases h2 with h2 | h2
    · rw [h2]; exact hs.2
    · intro e; exact hno op hop (by rw [h2, e])

/-- The visit with the note is in the script, completed, and will not be offered at the time. -/
structure Done (note : String) (t : ℚ) (s : St) : Prop where
  present : note ∈ s.script.map Entry.note
  done : ∀ e ∈ s.script, e.note = note → e.observed = true
  rough : s.lastRough = t → ∀ e ∈ s.rough, e.note ≠ note
  obs : s.lastMjd = t → ∀ e ∈ s.obs, e.note ≠ note

theorem genRough_done {cfg : Cfg} {note : String} {t : ℚ} {s : St} (h : Done note t s) (c : Cond)
    (hc : s.lastRough = c.mjd → ∀ e ∈ s.rough, e.note ≠ note) : ∀ e ∈ (genRough cfg s c).2, e.note ≠ note := by
  by_cases hf : s.lastRough = c.mjd
  · unfold genRough; rw [if_pos hf]; exact hc hf
  · rw [genRough_fresh cfg s c hf, checkList_eq]
    split
    · simp
    · obtain ⟨r, hp, _⟩ := truncate_perm cfg c (s.script.filter (passes cfg c))
      intro e he hn
      have hm := List.mem_filter.1 (hp.mem_iff.1 (List.mem_append_left r he))
      have ho := h.done e hm.1 hn
      have := hm.2
      unfold passes inWindow at this
      simp [ho] at this

theorem genRough_obs (cfg : Cfg) (s : St) (c : Cond) : (genRough cfg s c).1.obs = s.obs := by
  unfold genRough; split
  · rfl
  · dsimp only; split
    · rfl
    · split <;> rfl

theorem genRough_rough (cfg : Cfg) (s : St) (c : Cond) :
    (genRough cfg s c).1.rough = [] ∨ (genRough cfg s c).1.rough = (genRough cfg s c).2 := by
  unfold genRough; split
  · exact .inr rfl
  · dsimp only; split
    · exact .inl rfl
    · split
      · exact .inl rfl
      · exact .inr rfl

theorem gen_done {cfg : Cfg} {note : String} {t : ℚ} (hd : ∀ l, ∀ e ∈ cfg.detail l, ∃ e' ∈ l, e'.note = e.note) {s : St}
    (h : Done note t s) (c : Cond) (hc : c.mjd = t) : ∀ e ∈ (gen cfg s c).2, e.note ≠ note := by
  unfold gen
  split
  · next hl => exact h.obs (hl.trans hc)
  · have := genRough_done (cfg := cfg) h c (fun he => h.rough (he.trans hc))
    dsimp only
    split
    · exact this
    · intro e he
      obtain ⟨e', h1, h2⟩ := hd _ e he
      rw [← h2]; exact this e' h1

theorem markFirst_mem (n : String) (es : List Entry) : ∀ e ∈ markFirst n es, ∃ e' ∈ es, e.note = e'.note ∧
    (e'.observed = true → e.observed = true) := by
  induction es with
  | nil => simp [markFirst]
  | cons a es ih =>
    intro e he
    unfold markFirst at he
    split at he
    · rcases List.mem_cons.1 he with rfl | he
      · exact ⟨a, by simp, rfl, fun _ => rfl⟩
      · exact ⟨e, List.mem_cons_of_mem _ he, rfl, id⟩
    · rcases List.mem_cons.1 he with rfl | he
      · exact ⟨e, by simp, rfl, id⟩
      · obtain ⟨e', h1, h2⟩ := ih e he
        exact ⟨e', List.mem_cons_of_mem _ h1, h2⟩

theorem markFirst_done (n : String) (es : List Entry) (hn : (es.map Entry.note).Nodup) :
    ∀ e ∈ markFirst n es, e.note = n → e.observed = true := by
  induction es with
  | nil => simp [markFirst]
  | cons a es ih =>
    rw [List.map_cons, List.nodup_cons] at hn
    intro e he hen
    unfold markFirst at he
    split at he
    · next h =>
      rcases List.mem_cons.1 he with rfl | he
      · rfl
      · refine absurd (List.mem_map_of_mem (f := Entry.note) he) ?_
        rw [hen, ← h.1]; exact hn.1
    · next h =>
      rcases List.mem_cons.1 he with rfl | he
      · by_contra ho
        exact h ⟨hen, by simpa using ho⟩
      · exact ih hn.2 e he hen

theorem step_done {cfg : Cfg} {idOf : String → Option ℕ} {note : String} {t : ℚ}
    (hd : ∀ l, ∀ e ∈ cfg.detail l, ∃ e' ∈ l, e'.note = e.note) (op : Op) (hk : Keeps op) (s s' : St)
    (h : Done note t s) (hst : step cfg idOf s op = some s') : Done note t s' := by
  cases op with
  | set new a i =>
    obtain ⟨added, k, rfl, hn, _⟩ := setScript_some hst
    cases a with
    | false => exact absurd rfl (hk.2.1 new i)
    | true =>
      refine ⟨by simp only [if_true, List.map_append, List.mem_append]; exact .inl h.present, ?_, h.rough, h.obs⟩
      intro e he hen
      simp only [if_true] at he hn
      rcases List.mem_append.1 he with he | he
      · exact h.done e he hen
      · rw [List.map_append, List.nodup_append'] at hn
        refine absurd (List.mem_map_of_mem (f := Entry.note) he) ?_
        rw [hen]; exact fun hx => hn.2.2 h.present hx
  | clear => exact absurd rfl hk.1
  | one n =>
    cases hst
    refine ⟨by rw [addOne_notes]; exact h.present, ?_, ?_, ?_⟩
    · unfold addOne; split
      · intro e he hen
        obtain ⟨e', h1, h2, h3⟩ := markFirst_mem n s.script e he
        exact h3 (h.done e' h1 (h2.symm.trans hen))
      · exact h.done
    · unfold addOne; split <;> exact h.rough
    · unfold addOne; split <;> exact h.obs
  | array ns =>
    cases hst
    refine ⟨by rw [addArray_notes]; exact h.present, ?_, ?_, ?_⟩
    · unfold addArray; split
      · exact h.done
      · intro e he hen
        dsimp only at he
        rw [List.mem_map] at he
        obtain ⟨e', h1, rfl⟩ := he
        by_cases hx : e'.note ∈ ns
        · rw [if_pos hx]
        · rw [if_neg hx] at hen ⊢; exact h.done e' h1 hen
    · unfold addArray; split <;> exact h.rough
    · unfold addArray; split <;> exact h.obs
  | rough c => exact absurd rfl (hk.2.2 c)
  | gen c =>
    cases hst
    refine ⟨by rw [(gen_script cfg s c).1]; exact h.present, by rw [(gen_script cfg s c).1]; exact h.done, ?_, ?_⟩
    · intro ht
      unfold gen at ht ⊢
      split at ht
      · next hl => rw [if_pos hl]; exact h.rough ht
      · next hl =>
        rw [if_neg hl]
        dsimp only at ht ⊢
        by_cases hr : s.lastRough = c.mjd
        · have e : (genRough cfg s c).1 = s := by unfold genRough; rw [if_pos hr]
          rw [e] at ht ⊢
          exact h.rough ht
        · rcases genRough_rough cfg s c with e | e
          · rw [e]; simp
          · rw [e]; exact genRough_done h c (fun he => absurd he hr)
    · intro ht
      unfold gen at ht ⊢
      split at ht
      · next hl => rw [if_pos hl]; exact h.obs ht
      · next hl =>
        have := gen_done hd h c ht
        unfold gen at this
        rw [if_neg hl] at this ⊢
        exact this

/-- **C37 (partial).** A visit of the script is reported, singly with a note that the survey does not
ignore, or in an array. As long as it stays in the script it is not offered, at any time at which
nothing was asked for before the report; whatever else happens. -/
theorem C37_not_again_partial (cfg : Cfg) (idOf : String → Option ℕ) (id0 : ℕ) (ops ops' : List Op) (s s' : St)
    (note : String) (report : Op) (c : Cond) (hd : ∀ l, ∀ e ∈ cfg.detail l, ∃ e' ∈ l, e'.note = e.note)
    (hrun : run cfg idOf (init id0) ops = some s) (hin : note ∈ s.script.map Entry.note)
    (hrep : report = .one note ∧ (∀ i ∈ cfg.ignore, Feat.isIn i note = false) ∨ ∃ ns, report = .array ns ∧ note ∈ ns)
    (hc : c.mjd ≠ -1) (hbefore : ∀ op ∈ ops, op.calls ≠ some c.mjd) (hkeep : ∀ op ∈ ops', Keeps op)
    (hrun' : run cfg idOf s (report :: ops') = some s') :
    (∀ e ∈ (gen cfg s' c).2, e.note ≠ note) ∧ ∀ e ∈ (genRough cfg s' c).2, e.note ≠ note := by
  obtain ⟨t1, t2⟩ := run_times cfg idOf id0 ops s c.mjd hc hbefore hrun
  have hn := C38_unique cfg idOf id0 ops s hrun
  have h0 : ∀ s1, step cfg idOf s report = some s1 → Done note c.mjd s1 := by
    intro s1 hst
    rcases hrep with ⟨rfl, hg⟩ | ⟨ns, rfl, hm⟩
    · cases hst
      have hg' : goodNote cfg note = true := by
        unfold goodNote
        simp only [Bool.not_eq_true', List.any_eq_false, Bool.not_eq_true]
        exact hg
      unfold addOne; rw [if_pos hg']
      exact ⟨by rw [markFirst_notes]; exact hin, markFirst_done note s.script hn, fun h => absurd h t2, fun h => absurd h t1⟩
    · cases hst
      refine ⟨by rw [addArray_notes]; exact hin, ?_, ?_, ?_⟩
      · unfold addArray; split
        · next h => rw [h] at hin; simp at hin
        · intro e he hen
          dsimp only at he
          rw [List.mem_map] at he
          obtain ⟨e', h1, rfl⟩ := he
          by_cases hx : e'.note ∈ ns
          · rw [if_pos hx]
          · rw [if_neg hx] at hen
            rw [hen] at hx
            exact absurd hm hx
      · unfold addArray; split <;> exact fun h => absurd h t2
      · unfold addArray; split <;> exact fun h => absurd h t1
  rw [run_cons] at hrun'
  cases hst : step cfg idOf s report with
  | none => rw [hst] at hrun'; cases hrun'
  | some s1 =>
    rw [hst] at hrun'
    have hdone : Done note c.mjd s' :=
      run_induct cfg idOf (Done note c.mjd) ops' (fun op ho a b ha hb => step_done hd op (hkeep op ho) a b ha hb) s1 s'
        (h0 s1 hst) hrun'
    exact ⟨gen_done hd hdone c rfl, genRough_done hdone c hdone.rough⟩

/-- The notes offered after a history. -/
def offeredAfter (cfg : Cfg) (ops : List Op) (c : Cond) : Option (List String) :=
  (run cfg idOf0 (init 0) ops).map (fun s => (gen cfg s c).2.map Entry.note)

example : offeredAfter (cfg0 .none []) [.set [visit "a" "g" 0, visit "b" "r" 0] true true, .gen (skyAt (1 / 4)), .one "a, 0"]
    (skyAt (1 / 2)) = some ["b, 1"] := by decide +kernel

/-- **C37 fails** within one instant: what was offered is remembered, and offered again although it
has been completed. -/
theorem C37_violated : offeredAfter (cfg0 .none []) [.set [visit "a" "g" 0] true true, .gen (skyAt (1 / 4)), .one "a, 0"]
    (skyAt (1 / 4)) = some ["a, 0"] := by decide +kernel

/-- **C37 fails** for a visit whose note contains something the survey ignores: it is offered for ever. -/
theorem C37_ignored_violated : offeredAfter (cfg0 .none ["DD"])
    [.set [visit "notDD" "g" 0] true true, .gen (skyAt (1 / 4)), .one "notDD, 0"] (skyAt (1 / 2)) = some ["notDD, 0"] := by
  decide +kernel

/-- **C37 fails** when rough visits are asked for and withheld because of twilight: detailed visits
asked for at the same time are those of an earlier call. -/
theorem C37_stale_violated : offeredAfter { cfg0 .none [] with beforeTwi := true, limit := 1 }
    [.set [visit "a" "g" 0, { visit "b" "r" 0 with exptime := 1000000 }] true true, .gen (skyAt (1 / 4)), .one "a, 0",
     .rough (skyAt (1 / 2))] (skyAt (1 / 2)) = some ["a, 0"] := by decide +kernel

/-! ### C71: twilight -/

/-- **C71 (partial).** With the check for twilight, the exposures of what is offered at a new time
end before morning twilight. -/
theorem C71_exposures_partial (cfg : Cfg) (s : St) (c : Cond) (hnew : s.lastRough ≠ c.mjd) (hb : cfg.beforeTwi = true)
    (hch : 0 ≤ cfg.bandChange) (hoff : (genRough cfg s c).2 ≠ []) :
    c.mjd + exposureDays (genRough cfg s c).2 ≤ c.twilight := by
  rw [genRough_fresh cfg s c hnew] at *
  split at hoff
  · exact absurd rfl hoff
  · next h =>
    rw [if_neg h]
    unfold tooLate at h
    rw [hb] at h
    simp only [Bool.true_and, decide_eq_true_iff, not_lt] at h
    have : 0 ≤ (nBandChanges (checkList cfg s c) : ℚ) * cfg.bandChange := by positivity
    unfold exposureDays
    have e : ((checkList cfg s c).map Entry.exptime).sum / 3600 / 24 = ((checkList cfg s c).map Entry.exptime).sum / 86400 := by
      rw [div_div]; norm_num
    rw [e] at h
    linarith

/-- **C71 (partial).** Visits which alternate between bands are not withheld when there is time for
them and the changes of band. -/
theorem C71_alternating_partial (cfg : Cfg) (s : St) (c : Cond) (hnew : s.lastRough ≠ c.mjd)
    (halt : (checkList cfg s c).IsChain (fun a b => a.band ≠ b.band)) (hch : 0 ≤ cfg.bandChange)
    (hfit : c.mjd + exposureDays (checkList cfg s c) + bandChanges (checkList cfg s c) * cfg.bandChange ≤ c.twilight) :
    (genRough cfg s c).2 = checkList cfg s c := by
  rw [genRough_fresh cfg s c hnew, if_neg]
  have h0 : ∀ l : List Entry, l.IsChain (fun a b => a.band ≠ b.band) → nBandChanges l = 0 := by
    intro l
    induction l with
    | nil => intro _; rfl
    | cons a l ih =>
      intro h
      cases l with
      | nil => rfl
      | cons b l =>
        rw [List.isChain_cons_cons] at h
        simp only [nBandChanges, ih h.2, if_neg (Ne.symm h.1)]
  unfold tooLate
  rw [h0 _ halt]
  have e : ((checkList cfg s c).map Entry.exptime).sum / 3600 / 24 = exposureDays (checkList cfg s c) := by
    unfold exposureDays; rw [div_div]; norm_num
  have : 0 ≤ (bandChanges (checkList cfg s c) : ℚ) * cfg.bandChange := by positivity
  simp only [Bool.and_eq_true, decide_eq_true_iff, e, not_and, not_lt]
  intro _
  push_cast
  linarith

/-- **C71 fails**: changes of band are counted where the band stays the same. Visits in alternating
bands that cannot be completed before twilight are offered. -/
theorem C71_violated :
    let cfg : Cfg := { cfg0 .none [] with beforeTwi := true }
    let c := { skyAt (1 / 2) with twilight := 1 / 2 + 1 / 200 }
    let es := (genRough cfg { init 0 with script := [visit "a" "g" 0, visit "b" "r" 0] } c).2
    es.length = 2 ∧ c.twilight < c.mjd + exposureDays es + bandChanges es * cfg.bandChange := by
  decide +kernel

/-- **C71 fails** the other way round: visits of one band that can be completed are withheld. -/
theorem C71_withheld_violated :
    let cfg : Cfg := { cfg0 .none [] with beforeTwi := true }
    let c := { skyAt (1 / 2) with twilight := 1 / 2 + 1 / 200 }
    let s := { init 0 with script := [visit "a" "g" 0, visit "b" "g" 0] }
    (genRough cfg s c).2 = [] ∧ (checkList cfg s c).length = 2 ∧
    c.mjd + exposureDays (checkList cfg s c) + bandChanges (checkList cfg s c) * cfg.bandChange ≤ c.twilight := by
  decide +kernel

/-! ### C72: announced times -/

/-- What the scheduler announces at a time (core_scheduler.py 290-302), for one survey. -/
def announced (s : St) (now : ℚ) : List ℚ := (s.scheduled.getD []).filter (fun t => decide (now ≤ t))

/-- **C72 (partial).** In every history, the times of all outstanding visits still to come are announced. -/
theorem C72_all_announced_partial (cfg : Cfg) (idOf : String → Option ℕ) (id0 : ℕ) (ops : List Op) (s : St)
    (h : run cfg idOf (init id0) ops = some s) (e : Entry) (he : e ∈ s.script) (ho : e.observed = false) (now : ℚ)
    (hnow : now ≤ e.mjd) : e.mjd ∈ announced s now := by
  have key : ∀ e ∈ s.script, e.observed = false → e.mjd ∈ s.scheduled.getD [] := by
    refine run_induct cfg idOf (fun s => ∀ e ∈ s.script, e.observed = false → e.mjd ∈ s.scheduled.getD []) ops ?_ (init id0) s
      (by simp [init]) h
    intro op _ s s' hs hst
    cases op with
    | set new a i =>
      obtain ⟨added, k, rfl, _⟩ := setScript_some hst
      intro e he _
      exact List.mem_map_of_mem he
    | clear => cases hst; simp [clear]
    | one n =>
      cases hst
      unfold addOne; split
      · have key : ∀ es : List Entry, ∀ e ∈ markFirst n es, e.observed = false → e ∈ es := by
          intro es
          induction es with
          | nil => simp [markFirst]
          | cons a es ih =>
            intro e he ho
            unfold markFirst at he
            split at he
            · rcases List.mem_cons.1 he with rfl | he
              · simp at ho
              · exact List.mem_cons_of_mem _ he
            · rcases List.mem_cons.1 he with rfl | he
              · simp
              · exact List.mem_cons_of_mem _ (ih e he ho)
        intro e he ho
        exact hs e (key s.script e he ho) ho
      · exact hs
    | array ns =>
      cases hst
      unfold addArray; split
      · exact hs
      · intro e he ho
        exact List.mem_map_of_mem (List.mem_filter.2 ⟨he, by simp [ho]⟩)
    | gen c => cases hst; rw [(gen_script cfg s c).1, (gen_script cfg s c).2.2]; exact hs
    | rough c => cases hst; rw [(genRough_script cfg s c).1, (genRough_script cfg s c).2.2]; exact hs
  unfold announced
  rw [List.mem_filter]
  exact ⟨key e he ho, by simpa using hnow⟩

/-- **C72 (partial).** After a report in an array only the times of outstanding visits are announced. -/
theorem C72_array_partial (s : St) (ns : List String) (hs : s.script ≠ []) (now t : ℚ) :
    t ∈ announced (addArray s ns) now ↔ now ≤ t ∧ ∃ e ∈ (addArray s ns).script, e.observed = false ∧ e.mjd = t := by
  unfold announced addArray
  rw [if_neg hs]
  simp only [Option.getD_some, List.mem_filter, List.mem_map, Bool.not_eq_true', decide_eq_true_iff]
  constructor
  · rintro ⟨⟨e, ⟨⟨a, ha, rfl⟩, ho⟩, rfl⟩, hn⟩
    exact ⟨hn, _, ⟨a, ha, rfl⟩, ho, rfl⟩
  · rintro ⟨hn, e, ⟨a, ha, rfl⟩, ho, rfl⟩
    exact ⟨⟨_, ⟨⟨a, ha, rfl⟩, ho⟩, rfl⟩, hn⟩

/-- **C72 fails** after a report of a single visit: the time of the completed visit is announced still. -/
theorem C72_violated : ((run (cfg0 .none []) idOf0 (init 0) [.set [visit "a" "g" 1] true true, .one "a, 0"]).map
    (fun s => (s.script.map Entry.observed, announced s (1 / 2)))) = some ([true], [1]) := by decide +kernel

/-- **C72 fails** when a script is extended after a report in an array. -/
theorem C72_extended_violated : ((run (cfg0 .none []) idOf0 (init 0)
    [.set [visit "a" "g" 1] true true, .array ["a, 0"], .set [visit "b" "g" 2] true true]).map
    (fun s => (s.script.map Entry.observed, announced s (1 / 2)))) = some ([true, false], [1, 2]) := by decide +kernel

end Verif
