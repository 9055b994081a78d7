import Verif.Props.WholeScript

/-!
How often a simulation makes visits with a given note, for any kinds of surveys.
-/

namespace Verif

open Whole Core

section
variable {C Sv A : Type}

/-- What surveys have to offer of visits with the note `n`: `Few N t` says that a survey offers at most `N` at the time `t`, `Old N t` that it
does so and was last asked before. `Mine` are those surveys that may come to offer the note, and `Ready` those that have begun to. -/
structure Offers (E : Env C Sv A) (n : String) where
  Few : ℕ → ℚ → Sv → Prop
  Old : ℕ → ℚ → Sv → Prop
  Ready : Sv → Prop
  Mine : Sv → Bool
  later : ∀ {N t t' s}, Few N t s → t ≤ t' → Few N t' s
  old : ∀ {N t t' s}, Few N t s → t < t' → Old N t' s
  oldLater : ∀ {N t t' s}, Old N t s → t ≤ t' → Old N t' s
  few : ∀ {N t s}, Old N t s → Few N t s
  reward : ∀ c {N} s, Few N (E.q.mjdOf c) s → Few N (E.q.mjdOf c) (E.sv.reward s c).2
  gen : ∀ c {N} s, Few N (E.q.mjdOf c) s → Few N (E.q.mjdOf c) (E.sv.gen s c).2 ∧ countObs n (E.sv.gen s c).1 ≤ N
    ∧ (countObs n (E.sv.gen s c).1 = 0 ∨ (LastingObs (E.q.mjdOf c) (E.sv.gen s c).1 ∧ Ready (E.sv.gen s c).2 ∧ Mine s = true))
  update : ∀ c {N} s, (Few N (E.q.mjdOf c) s → Few N (E.q.mjdOf c) (E.sv.update s c)) ∧ (Old N (E.q.mjdOf c) s → Old N (E.q.mjdOf c) (E.sv.update s c))
  hear : ∀ o {N t} s, Old N t s → (o.schedulerNote = n → Ready s) → Old (if o.schedulerNote = n then N - 1 else N) t (E.sv.addObs s o)
  hearOther : ∀ o {N t} s, o.schedulerNote ≠ n → Few N t s → Few N t (E.sv.addObs s o)
  notMine : ∀ s, Mine s = false → Ready s
  readyReward : ∀ s c, Ready s → Ready (E.sv.reward s c).2
  readyGen : ∀ s c, Ready s → Ready (E.sv.gen s c).2
  readyUpdate : ∀ s c, Ready s → Ready (E.sv.update s c)
  readyHear : ∀ s o, Ready s → Ready (E.sv.addObs s o)
  mineReward : ∀ s c, Mine (E.sv.reward s c).2 = Mine s
  mineGen : ∀ s c, Mine (E.sv.gen s c).2 = Mine s
  mineUpdate : ∀ s c, Mine (E.sv.update s c) = Mine s
  mineHear : ∀ s o, Mine (E.sv.addObs s o) = Mine s

/-- Which surveys may come to offer the note. -/
def shapeOf (mine : Sv → Bool) (tiers : List (List Sv)) : List (List Bool) := tiers.map fun t => t.map mine

theorem shapeOf_map {mine : Sv → Bool} (f : Sv → Sv) (hf : ∀ s, mine (f s) = mine s) (tiers : List (List Sv)) :
    shapeOf mine (tiers.map fun t => t.map f) = shapeOf mine tiers := by
  unfold shapeOf
  rw [List.map_map]
  refine List.map_congr_left fun t _ => ?_
  show (t.map f).map mine = t.map mine
  rw [List.map_map]
  exact List.map_congr_left fun s _ => hf s

theorem alone_of_count {X : Type} {p : X → Bool} : ∀ {l : List X}, l.countP p ≤ 1 → ∀ {a b : X}, a ∈ l → b ∈ l → p a = true → p b = true → a = b
  | [], _, _, _, ha, _, _, _ => by cases ha
  | x :: l, h, a, b, ha, hb, pa, pb => by
    have none : p x = true → ∀ y ∈ l, p y = true → False := by
      intro px y hy py
      rw [List.countP_cons, if_pos px] at h
      have := List.countP_pos_iff.2 ⟨y, hy, py⟩
      omega
    rcases List.mem_cons.1 ha with rfl | ha' <;> rcases List.mem_cons.1 hb with rfl | hb'
    · rfl
    · exact (none pa b hb' pb).elim
    · exact (none pb a ha' pa).elim
    · refine alone_of_count (l := l) ?_ ha' hb' pa pb
      rw [List.countP_cons] at h
      omega

theorem only_mine {mine : Sv → Bool} {tiers : List (List Sv)} (h : (shapeOf mine tiers).flatten.count true ≤ 1) {a b : Sv} {t u : List Sv} (ht : t ∈ tiers) (ha : a ∈ t)
    (hu : u ∈ tiers) (hb : b ∈ u) (ma : mine a = true) (mb : mine b = true) : a = b := by
  have e : (shapeOf mine tiers).flatten.count true = tiers.flatten.countP mine := by
    unfold shapeOf
    rw [← List.map_flatten, List.count, List.countP_map]
    refine List.countP_congr fun x _ => ?_
    simp
  exact alone_of_count (p := mine) (e ▸ h) (List.mem_flatten.2 ⟨t, ht, ha⟩) (List.mem_flatten.2 ⟨u, hu, hb⟩) ma mb

theorem fillQueue_gives {E : Env C Sv A} {s s' : Core C Sv A} {ev : List Ev} {c : C} (hc : s.conditions = some c)
    (h : s.fillQueue E = .ok (s', ev)) (P : Sv → Prop) (hr : ∀ sv, P sv → P (E.sv.reward sv c).2) (hp : ∀ t ∈ s.tiers, ∀ sv ∈ t, P sv) (mine : Sv → Bool)
    (m1 : ∀ sv, mine (E.sv.reward sv c).2 = mine sv) (m2 : ∀ sv, mine (E.sv.gen sv c).2 = mine sv) :
    shapeOf mine s'.tiers = shapeOf mine s.tiers ∧ (s'.qm = s.qm.flush ∨ ∃ sv k filled, P sv
      ∧ fillFilters s.bandToFilter (tagIds k (E.sv.gen sv c).1) = .ok filled ∧ s'.qm = s.qm.setQueue filled ∧ ∃ t ∈ s'.tiers, (E.sv.gen sv c).2 ∈ t) := by
  have he : ∀ t : List Sv, (evalTier E.sv c t).2.map mine = t.map mine := by
    intro t
    show (t.map _).map mine = _
    rw [List.map_map]
    exact List.map_congr_left fun s _ => m1 s
  unfold fillQueue at h
  rw [hc] at h
  dsimp only at h
  split at h
  · cases h
  · rename_i rs brk tiers' hl
    have ht : (∀ t ∈ tiers', ∀ sv ∈ t, brk = none ∨ True) ∧ shapeOf mine tiers' = shapeOf mine s.tiers ∧ ∀ i0, brk = some i0 → ∀ t, tiers'[i0]? = some t → ∀ sv ∈ t, P sv := by
      refine ⟨fun _ _ _ _ => .inr trivial, ?_⟩
      rcases tierLoop_spec E.sv c 0 s.tiers hl with ⟨hb, _, ht, _⟩ | ⟨k, t, hb, hk, _, _, _, ht⟩
      · refine ⟨?_, fun i0 h0 => by rw [hb] at h0; cases h0⟩
        rw [ht]
        unfold shapeOf
        rw [List.map_map]
        exact List.map_congr_left fun t _ => he t
      · constructor
        · rw [ht]
          have hsplit : s.tiers = s.tiers.take k ++ t :: s.tiers.drop (k + 1) := by
            obtain ⟨hlt, hge⟩ := List.getElem?_eq_some_iff.1 hk
            rw [← hge, ← List.drop_eq_getElem_cons hlt, List.take_append_drop]
          conv_rhs => rw [hsplit]
          unfold shapeOf
          rw [List.map_append, List.map_append, List.map_cons, List.map_cons, List.map_map, he]
          congr 1
          exact List.map_congr_left fun t _ => he t
        · intro i0 h0 t' ht' sv hsv
          rw [hb] at h0
          cases h0
          obtain ⟨hlt, -⟩ := List.getElem?_eq_some_iff.1 hk
          rw [ht, List.getElem?_append_right (by simp)] at ht'
          have : 0 + k - ((s.tiers.take k).map (fun t => (evalTier E.sv c t).2)).length = 0 := by simp; omega
          rw [this] at ht'
          cases ht'
          obtain ⟨sv0, h0, rfl⟩ := List.mem_map.1 (show sv ∈ t.map _ from hsv)
          exact hr _ (hp t (List.mem_of_getElem? hk) sv0 h0)
    obtain ⟨-, hshape, hP⟩ := ht
    split at h
    · cases h
    · split at h
      · cases h; exact ⟨hshape, .inl rfl⟩
      · split at h
        · rename_i i0 i1 hbrk
          split at h
          · cases h
          · rename_i tier hti
            split at h
            · cases h
            · rename_i sv hsv
              split at h
              · cases h
              · rename_i filled hfill
                cases h
                obtain ⟨l1, -⟩ := List.getElem?_eq_some_iff.1 hti
                obtain ⟨l2, -⟩ := List.getElem?_eq_some_iff.1 hsv
                refine ⟨?_, .inr ⟨sv, s.counter, filled, hP _ rfl tier hti sv (List.mem_of_getElem? hsv), hfill, rfl, tier.set i1 (E.sv.gen sv c).2,
                  List.mem_of_getElem? (List.getElem?_set_self l1), List.mem_of_getElem? (List.getElem?_set_self l2)⟩⟩
                dsimp only
                rw [← hshape]
                unfold shapeOf
                rw [List.map_set, List.map_set, m2]
                have e1 : (tier.map mine).set i1 (mine sv) = tier.map mine := by
                  apply List.ext_getElem?
                  intro i
                  by_cases hi : i1 = i
                  · subst hi; rw [List.getElem?_set_self (by simpa using l2), List.getElem?_map, hsv]; rfl
                  · rw [List.getElem?_set_ne hi]
                rw [e1]
                apply List.ext_getElem?
                intro i
                by_cases hi : i0 = i
                · subst hi; rw [List.getElem?_set_self (by simpa using l1), List.getElem?_map, hti]; rfl
                · rw [List.getElem?_set_ne hi]
        · cases h

variable {E : Env C Sv A} {n : String}

/-- Neither the surveys nor the queue have more than `N` visits with the note to offer at the time `t`. -/
structure CoreNote (L : Offers E n) (N : ℕ) (t : ℚ) (s : Core C Sv A) : Prop where
  surveys : AllSurveys (L.Few N t) s
  queue : countObs n s.qm.active ≤ N
  aligned : s.qm.Aligned
  one : (shapeOf L.Mine s.tiers).flatten.count true ≤ 1
  ready : countObs n s.qm.active ≠ 0 → AllSurveys L.Ready s

/-- Conditions of the time `x` do no harm: the surveys may be asked again under them, as the queue holds no visit with the note or they have not been asked
under them; or no pending visit had expired then. -/
def AskNote (L : Offers E n) (N : ℕ) (x : ℚ) (s : Core C Sv A) : Prop :=
  (AllSurveys (L.Few N x) s ∧ countObs n s.qm.active = 0) ∨ AllSurveys (L.Old N x) s ∨ LastingObs x s.qm.active

theorem note_fill (L : Offers E n) {s s' : Core C Sv A} {ev : List Ev} {c : C} {N : ℕ}
    (hc : s.conditions = some c) (h : s.fillQueue E = .ok (s', ev)) (hs : AllSurveys (L.Few N (E.q.mjdOf c)) s)
    (hone : (shapeOf L.Mine s.tiers).flatten.count true ≤ 1) : CoreNote L N (E.q.mjdOf c) s' ∧ AskNote L N (E.q.mjdOf c) s' := by
  have h1 : AllSurveys (L.Few N (E.q.mjdOf c)) s' :=
    fillQueue_surveys hc h (L.Few N (E.q.mjdOf c)) (fun sv hp => L.reward c sv hp) (fun sv hp => (L.gen c sv hp).1) hs
  obtain ⟨hshape, hcase⟩ := fillQueue_gives hc h (L.Few N (E.q.mjdOf c)) (fun sv hp => L.reward c sv hp) hs L.Mine (fun sv => L.mineReward sv c)
    (fun sv => L.mineGen sv c)
  rw [← hshape] at hone
  rcases hcase with hq | ⟨sv, k, filled, hsv, hfill, hq, tier, ht, htsv⟩
  · refine ⟨⟨h1, ?_, ?_, hone, ?_⟩, .inl ⟨h1, ?_⟩⟩
    · rw [hq]; exact Nat.zero_le _
    · rw [hq]; rfl
    · rw [hq]; intro h0; exact absurd rfl h0
    · rw [hq]; rfl
  · have hact : s'.qm.active = filled := by
      rw [hq]
      unfold QM.active QM.setQueue
      exact all_pending filled
    have hfa := fillFilters_forall _ _ _ _ hfill
    have hcount : ∀ l l' : List Obs, List.Forall₂ (Filled s.bandToFilter) l l' → countObs n l' = countObs n l ∧ ∀ o ∈ l', ∃ o' ∈ l, o'.flushBy = o.flushBy := by
      intro l l' hf
      induction hf with
      | nil => exact ⟨rfl, by rintro o ⟨⟩⟩
      | @cons a b _ _ hab _ ih =>
        refine ⟨?_, ?_⟩
        · have e := congrArg Obs.schedulerNote hab.2.2.2
          have ih := ih.1
          unfold countObs at ih ⊢
          simp only [List.countP_cons, ih]
          dsimp only at e
          rw [e]
        · intro o ho
          rcases List.mem_cons.1 ho with rfl | ho
          · exact ⟨a, List.mem_cons_self, (congrArg Obs.flushBy hab.2.2.2).symm⟩
          · obtain ⟨o', h2, h3⟩ := ih.2 o ho
            exact ⟨o', List.mem_cons_of_mem _ h2, h3⟩
    obtain ⟨hc1, hc2⟩ := hcount _ _ hfa
    obtain ⟨-, hN, hsafe⟩ := L.gen c sv hsv
    refine ⟨⟨h1, ?_, ?_, hone, ?_⟩, ?_⟩
    · rw [hact, hc1]; exact hN
    · rw [hq]; exact List.length_replicate
    · rw [hact, hc1]
      intro hne t' ht' sv' hsv'
      rcases hsafe with h0 | ⟨-, h0, hm'⟩
      · exact absurd h0 hne
      · cases hm : L.Mine sv' with
        | false => exact L.notMine _ hm
        | true => rw [only_mine hone ht' hsv' ht htsv hm ((L.mineGen sv c).trans hm')]; exact h0
    · rcases hsafe with h0 | h0
      · exact .inl ⟨h1, by rw [hact, hc1]; exact h0⟩
      · right; right
        rw [hact]
        intro o ho
        obtain ⟨o', h2, h3⟩ := hc2 o ho
        rw [← h3]
        exact h0.1 o' h2

theorem CoreNote.queue_eq {L : Offers E n} {N : ℕ} {t : ℚ} {s s' : Core C Sv A} (h : CoreNote L N t s) (h1 : s'.tiers = s.tiers)
    (h2 : s'.qm.desired = s.qm.desired) (h3 : s'.qm.need = s.qm.need) : CoreNote L N t s' := by
  refine ⟨by unfold AllSurveys; rw [h1]; exact h.surveys, ?_, ?_, by rw [h1]; exact h.one, ?_⟩
  · have : s'.qm.active = s.qm.active := by unfold QM.active; rw [h2, h3]
    rw [this]; exact h.queue
  · have := h.aligned
    unfold QM.Aligned at this ⊢
    rw [h2, h3]; exact this
  · have : s'.qm.active = s.qm.active := by unfold QM.active; rw [h2, h3]
    rw [this]; unfold AllSurveys; rw [h1]; exact h.ready

theorem AskNote.queue_eq {L : Offers E n} {N : ℕ} {x : ℚ} {s s' : Core C Sv A} (h : AskNote L N x s) (h1 : s'.tiers = s.tiers)
    (h2 : s'.qm.desired = s.qm.desired) (h3 : s'.qm.need = s.qm.need) : AskNote L N x s' := by
  have : s'.qm.active = s.qm.active := by unfold QM.active; rw [h2, h3]
  unfold AskNote AllSurveys
  rw [h1, this]
  exact h

theorem CoreNote.later {L : Offers E n} {N : ℕ} {t t' : ℚ} {s : Core C Sv A} (h : CoreNote L N t s) (ht : t ≤ t') : CoreNote L N t' s :=
  ⟨fun tier h1 sv h2 => L.later (h.surveys tier h1 sv h2) ht, h.queue, h.aligned, h.one, h.ready⟩

/-- What is so of the scheduler at the time `t`, with the conditions it holds. -/
structure HeldNote (L : Offers E n) (N : ℕ) (t : ℚ) (s : Core C Sv A) : Prop where
  few : CoreNote L N t s
  safe : AskNote L N t s
  conds : ∀ c ∈ s.conditions, E.q.mjdOf c ≤ t ∧ AskNote L N (E.q.mjdOf c) s

theorem HeldNote.later {L : Offers E n} {N : ℕ} {t t' : ℚ} {s : Core C Sv A} (h : HeldNote L N t s) (ht : t ≤ t') : HeldNote L N t' s := by
  refine ⟨h.few.later ht, ?_, fun c hc => ⟨(h.conds c hc).1.trans ht, (h.conds c hc).2⟩⟩
  rcases ht.eq_or_lt with rfl | hlt
  · exact h.safe
  · exact .inr (.inl fun tier h1 sv h2 => L.old (h.few.surveys tier h1 sv h2) hlt)

theorem note_request (L : Offers E n) (hdet : DetKeepsNotes E.q) {s s' : Core C Sv A} {c : C} {N : ℕ}
    {t x : ℚ} {r : Option Obs} (h : HeldNote L N t s) (hc : s.conditions = some c)
    (how : AllSurveys (L.Few N (E.q.mjdOf c)) s ∨ (s.qm.nonePending = false ∧ (s.qm.request E.q c false).1 ≠ [])) (hr : coreRequest E s x = some (s', r)) :
    HeldNote L N t s' ∧ ∀ o ∈ r, ∃ row ∈ s'.qm.active, row.targetId = o.targetId ∧ row.schedulerNote = o.schedulerNote := by
  unfold coreRequest at hr
  cases hq : s.request E (some x) false with
  | error e => rw [hq] at hr; cases hr
  | ok z =>
    obtain ⟨s1, l, ev⟩ := z
    rw [hq] at hr
    have hr : some (s1, l.bind List.head?) = some (s', r) := hr
    simp only [Option.some.injEq, Prod.mk.injEq] at hr
    obtain ⟨rfl, rfl⟩ := hr
    obtain ⟨c', s2, ev2, hc', hfirst, hrest⟩ := request_cases hq
    rw [hc] at hc'
    cases hc'
    obtain ⟨hct, hsafe⟩ := h.conds c hc
    have hfill : ∀ (u u' : Core C Sv A) (e : List Ev), u.conditions = some c → u.fillQueue E = .ok (u', e) →
        AllSurveys (L.Few N (E.q.mjdOf c)) u → (shapeOf L.Mine u.tiers).flatten.count true ≤ 1 → HeldNote L N t u' ∧ u'.conditions = some c ∧ AllSurveys (L.Few N (E.q.mjdOf c)) u' := by
      intro u u' e hu hf ha ho
      obtain ⟨g1, g2⟩ := note_fill L hu hf ha ho
      have hcu : u'.conditions = some c := (fillQueue_frame hf).1.trans hu
      have hx : HeldNote L N (E.q.mjdOf c) u' := ⟨g1, g2, fun c' hc' => by rw [hcu] at hc'; cases hc'; exact ⟨le_rfl, g2⟩⟩
      exact ⟨hx.later hct, hcu, g1.surveys⟩
    have h2 : HeldNote L N t s2 ∧ s2.conditions = some c
        ∧ (AllSurveys (L.Few N (E.q.mjdOf c)) s2 ∨ (s2.qm.nonePending = false ∧ (s2.qm.request E.q c false).1 ≠ [])) := by
      rcases hfirst with ⟨hn, hf⟩ | ⟨-, rfl, -⟩
      · rcases how with ha | ⟨h0, -⟩
        · obtain ⟨a, b, d⟩ := hfill _ _ _ hc hf ha h.few.one
          exact ⟨a, b, .inl d⟩
        · rw [hn] at h0; cases h0
      · exact ⟨h, hc, how⟩
    have hgive : ∀ u : Core C Sv A, HeldNote L N t u →
        HeldNote L N t { u with qm := (u.qm.request E.q c false).2 }
        ∧ ∀ o ∈ (some ((u.qm.request E.q c false).1.map setNote)).bind List.head?, ∃ row ∈ (u.qm.request E.q c false).2.active,
          row.targetId = o.targetId ∧ row.schedulerNote = o.schedulerNote := by
      intro u hu
      have hqq := qrequest_queue E.q u.qm c false
      refine ⟨⟨hu.few.queue_eq rfl hqq.1 hqq.2, hu.safe.queue_eq rfl hqq.1 hqq.2, fun c' hc' => ⟨(hu.conds c' hc').1, (hu.conds c' hc').2.queue_eq rfl hqq.1 hqq.2⟩⟩, ?_⟩
      intro o ho
      have ho := List.mem_of_head? (show ((u.qm.request E.q c false).1.map setNote).head? = some o from ho)
      obtain ⟨o1, ho1, rfl⟩ := List.mem_map.1 ho
      obtain ⟨row, h3, h4, h5⟩ := qrequest_active hdet u.qm hu.few.aligned c o1 ho1
      have : (u.qm.request E.q c false).2.active = u.qm.active := by unfold QM.active; rw [hqq.1, hqq.2]
      rw [this]
      exact ⟨row, h3, h4, h5⟩
    obtain ⟨h2, h2c, h2a⟩ := h2
    rcases hrest with ⟨-, rfl, rfl, -⟩ | ⟨-, -, rfl, rfl, -⟩ | ⟨-, he, s3, ev3, hf, rfl, -, hout⟩
    · exact ⟨h2, by rintro o ⟨⟩⟩
    · exact hgive s2 h2
    · have h3 : HeldNote L N t s3 := by
        rcases h2a with ha | ⟨-, h0⟩
        · exact (hfill _ _ _ (by exact h2c) hf (by exact ha) h2.few.one).1
        · exact absurd he h0
      rcases hout with ⟨-, rfl⟩ | ⟨-, rfl⟩
      · exact ⟨(hgive s3 h3).1, by rintro o ⟨⟩⟩
      · exact hgive s3 h3

/-- The surveys may be asked again, or the queue gives something. -/
theorem AskNote.ask {L : Offers E n} (hdet : DetKeepsNotes E.q) {N : ℕ} {y : ℚ} {s : Core C Sv A} {c : C} (h : AskNote L N (E.q.mjdOf c) s) (ha : s.qm.Aligned)
    (hq : s.qm.checkQueueMjdOnly E.q y c = true) :
    AllSurveys (L.Few N (E.q.mjdOf c)) s ∨ (s.qm.nonePending = false ∧ (s.qm.request E.q c false).1 ≠ []) := by
  rcases h with h | h | h
  · exact .inl h.1
  · exact .inl fun tier h1 sv h2 => L.few (h tier h1 sv h2)
  · exact .inr (qrequest_some hdet s.qm ha c h hq)

theorem note_update (L : Offers E n) {s : Core C Sv A} {N : ℕ} {t : ℚ} (h : HeldNote L N t s) (c : C)
    (hc : E.q.mjdOf c = t) : HeldNote L N t (s.update E c) := by
  subst hc
  have ht : (s.tooStep E c).tiers = s.tiers ∧ ((s.tooStep E c).qm = s.qm ∨ (s.tooStep E c).qm = s.qm.flush) := by
    unfold tooStep
    split
    · split
      · exact ⟨rfl, .inl rfl⟩
      · dsimp only
        split_ifs
        · exact ⟨rfl, .inr rfl⟩
        · exact ⟨rfl, .inl rfl⟩
    · exact ⟨rfl, .inl rfl⟩
  have hall : ∀ P : Sv → Prop, (∀ s, P s → P (E.sv.update s c)) → AllSurveys P s → AllSurveys P (s.update E c) := by
    intro P hP hs
    show ∀ tier ∈ (s.tooStep E c).tiers.map (fun t => t.map fun v => E.sv.update v c), _
    rw [ht.1]
    intro tier h1 sv h2
    obtain ⟨t0, h3, rfl⟩ := List.mem_map.1 h1
    obtain ⟨sv0, h4, rfl⟩ := List.mem_map.1 h2
    exact hP sv0 (hs t0 h3 sv0 h4)
  have hsafe : AskNote L N (E.q.mjdOf c) (s.update E c) := by
    rcases h.safe with ⟨h1, h2⟩ | h1 | h1
    · refine .inl ⟨hall _ (fun sv => (L.update c sv).1) h1, ?_⟩
      show countObs n (s.tooStep E c).qm.active = 0
      rcases ht.2 with e | e <;> rw [e]
      · exact h2
      · rfl
    · exact .inr (.inl (hall _ (fun sv => (L.update c sv).2) h1))
    · right; right
      show LastingObs (E.q.mjdOf c) (s.tooStep E c).qm.active
      rcases ht.2 with e | e <;> rw [e]
      · exact h1
      · rintro o ⟨⟩
  refine ⟨⟨hall _ (fun sv => (L.update c sv).1) h.few.surveys, ?_, ?_, ?_, ?_⟩, hsafe, ?_⟩
  · show countObs n (s.tooStep E c).qm.active ≤ N
    rcases ht.2 with e | e <;> rw [e]
    · exact h.few.queue
    · exact Nat.zero_le _
  · show (s.tooStep E c).qm.Aligned
    rcases ht.2 with e | e <;> rw [e]
    · exact h.few.aligned
    · rfl
  · show (shapeOf L.Mine ((s.tooStep E c).tiers.map fun t => t.map fun v => E.sv.update v c)).flatten.count true ≤ 1
    rw [shapeOf_map _ (fun v => L.mineUpdate v c), ht.1]
    exact h.few.one
  · intro hne
    refine hall _ (fun sv hsv => L.readyUpdate sv c hsv) (h.few.ready ?_)
    intro h0
    apply hne
    show countObs n (s.tooStep E c).qm.active = 0
    rcases ht.2 with e | e <;> rw [e]
    · exact h0
    · rfl
  · intro c' hc'
    have hc' : some c = some c' := hc'
    cases hc'
    exact ⟨le_rfl, hsafe⟩

/-- A row of the queue that is pending stands for the visit. -/
def RowFor (s : Core C Sv A) (o : Obs) : Prop :=
  ∃ row ∈ s.qm.active, row.targetId = o.targetId ∧ row.schedulerNote = o.schedulerNote

/-- What is so of the scheduler between a completed visit and its report. -/
structure DoneNote (L : Offers E n) (N : ℕ) (t : ℚ) (o : Obs) (s : Core C Sv A) : Prop where
  surveys : AllSurveys (L.Old N t) s
  queue : countObs n s.qm.active ≤ N
  aligned : s.qm.Aligned
  one : (shapeOf L.Mine s.tiers).flatten.count true ≤ 1
  ready : countObs n s.qm.active ≠ 0 → AllSurveys L.Ready s
  row : RowFor s o
  conds : ∀ c ∈ s.conditions, E.q.mjdOf c ≤ t ∧ AskNote L N (E.q.mjdOf c) s

/-- Telling the scheduler of a visit that is pending. -/
theorem note_add (L : Offers E n) {s : Core C Sv A} {N : ℕ} {t : ℚ} (o : Obs) (h : DoneNote L N t o s) :
    (o.schedulerNote = n → 1 ≤ N) ∧ HeldNote L (if o.schedulerNote = n then N - 1 else N) t (s.addObs E o).1 := by
  obtain ⟨row, h1, h2, h3⟩ := h.row
  have hb := backfill_note o
  obtain ⟨m1, m2⟩ := active_mark s.qm (backfillBand o) n h1 (h2.trans hb.2.symm) (h3.trans hb.1.symm)
  rw [hb.1] at m1 m2
  have hd : 0 < s.qm.desired.length := by
    unfold QM.active at h1
    obtain ⟨p, hp, -⟩ := List.mem_map.1 h1
    have := List.length_pos_of_mem (List.mem_filter.1 hp).1
    rw [List.length_zip] at this
    omega
  have hact : (s.addObs E o).1.qm.active = (s.qm.mark (backfillBand o)).active := by
    show (s.qm.addObs E.q (backfillBand o)).active = _
    unfold QM.addObs
    dsimp only
    rw [if_pos hd]
    rfl
  have hall : ∀ P Q : Sv → Prop, (∀ sv, P sv → Q (E.sv.addObs sv (backfillBand o))) → AllSurveys P s → AllSurveys Q (s.addObs E o).1 := by
    intro P Q hPQ hs
    show ∀ tier ∈ s.tiers.map (fun t => t.map fun v => E.sv.addObs v (backfillBand o)), _
    intro tier h1 sv h2
    obtain ⟨t0, h3, rfl⟩ := List.mem_map.1 h1
    obtain ⟨sv0, h4, rfl⟩ := List.mem_map.1 h2
    exact hPQ sv0 (hs t0 h3 sv0 h4)
  have hold : ∀ x, AllSurveys (L.Old N x) s → AllSurveys (L.Old (if o.schedulerNote = n then N - 1 else N) x) (s.addObs E o).1 := by
    intro x hs
    have hrd : o.schedulerNote = n → AllSurveys L.Ready s := fun e => h.ready (by have := m1 e; omega)
    show ∀ tier ∈ s.tiers.map (fun t => t.map fun v => E.sv.addObs v (backfillBand o)), _
    intro tier h1 sv h2
    obtain ⟨t0, h3, rfl⟩ := List.mem_map.1 h1
    obtain ⟨sv0, h4, rfl⟩ := List.mem_map.1 h2
    have := L.hear (backfillBand o) sv0 (hs t0 h3 sv0 h4) (by rw [hb.1]; exact fun e => hrd e t0 h3 sv0 h4)
    rw [hb.1] at this
    exact this
  have hnew := hold t h.surveys
  refine ⟨fun e => (m1 e).trans h.queue, ⟨fun tier h1 sv h2 => L.few (hnew tier h1 sv h2), ?_, Core.qaddObs_aligned _ _ _ h.aligned, ?_, ?_⟩, .inr (.inl hnew), ?_⟩
  · rw [hact]
    have hq := h.queue
    refine m2.trans ?_
    split_ifs <;> omega
  · show (shapeOf L.Mine (s.tiers.map fun t => t.map fun v => E.sv.addObs v (backfillBand o))).flatten.count true ≤ 1
    rw [shapeOf_map _ (fun v => L.mineHear v _)]
    exact h.one
  · rw [hact]
    intro hne
    refine hall _ _ (fun sv hsv => L.readyHear sv _ hsv) (h.ready ?_)
    intro h0
    apply hne
    rw [h0] at m2
    split_ifs at m2 <;> omega
  · intro c hc
    obtain ⟨hct, hsafe⟩ := h.conds c hc
    refine ⟨hct, ?_⟩
    rcases hsafe with ⟨s1, s2⟩ | s1 | s1
    · have hne : o.schedulerNote ≠ n := by
        intro e
        have := m1 e
        omega
      rw [if_neg hne] at m2 ⊢
      refine .inl ⟨hall _ _ (fun sv hsv => L.hearOther _ sv (by rw [hb.1]; exact hne) hsv) s1, ?_⟩
      rw [hact]
      omega
    · exact .inr (.inl (hold _ s1))
    · right; right
      rw [hact]
      intro r hr
      refine s1 r ?_
      rw [active_of_mark] at hr
      exact (List.mem_filter.1 hr).1
end

/-! ### The simulation -/

section
variable {C B Sv A H K : Type} {E : Env C Sv A} {n : String}

/-- With the visits told of so far, no more than `N0` visits with the note are made or to offer. -/
def SimNote (L : Offers E n) (N0 : ℕ)
    (p : World (Core C Sv A × H) K × List (Sim.Ev (Obs.Visit Obs) C B)) : Prop :=
  ∃ N, N + madeWith n (Sim.toldOf p.2) = N0 ∧ HeldNote L N p.1.obs.mjd p.1.sched.1

/-- The same between a completed visit and its report. -/
def NoteDone (L : Offers E n) (N0 : ℕ) (v : Obs.Visit Obs)
    (p : World (Core C Sv A × H) K × List (Sim.Ev (Obs.Visit Obs) C B)) : Prop :=
  ∃ N, N + madeWith n (Sim.toldOf p.2) = N0 ∧ DoneNote L N p.1.obs.mjd v.target p.1.sched.1

/-- The same before a request: the surveys may be asked, or the queue will give something. -/
def NoteAsk (L : Offers E n) (N0 : ℕ)
    (p : World (Core C Sv A × H) K × List (Sim.Ev (Obs.Visit Obs) C B)) : Prop :=
  ∃ N, N + madeWith n (Sim.toldOf p.2) = N0 ∧ HeldNote L N p.1.obs.mjd p.1.sched.1 ∧ ∃ c, p.1.sched.1.conditions = some c
    ∧ (AllSurveys (L.Few N (E.q.mjdOf c)) p.1.sched.1 ∨ (p.1.sched.1.qm.nonePending = false ∧ (p.1.sched.1.qm.request E.q c false).1 ≠ []))

theorem SimNote.on {L : Offers E n} {N0 : ℕ}
    {p q : World (Core C Sv A × H) K × List (Sim.Ev (Obs.Visit Obs) C B)} (h : SimNote L N0 p) {e : Sim.Ev (Obs.Visit Obs) C B}
    (he : q.2 = p.2 ++ [e]) (ht : Sim.toldOf [e] = []) (hs : q.1.sched.1 = p.1.sched.1) (hm : p.1.obs.mjd ≤ q.1.obs.mjd) : SimNote L N0 q := by
  obtain ⟨N, h1, h2⟩ := h
  refine ⟨N, ?_, ?_⟩
  · rw [he, told_one _ _ ht]; exact h1
  · rw [hs]; exact h2.later hm

theorem note_serves (S : Obs.Site) (hn : Obs.Nights S.nights) (hd : Down.Ordered S.downs) (M : Obs.Kin K Obs) (hM : Obs.NonNeg M) (hK : KeepsNote M) (fuel : ℕ)
    (δ : ℚ) (hδ : 0 < δ) (hlong : ∀ k o t, δ ≤ (M.observe k o t).2.2) (conds : Obs.St K → C) (mount : K → B → K)
    (L : Offers E n) (hdet : DetKeepsNotes E.q) (htime : ∀ st, E.q.mjdOf (conds st) = st.mjd) (X : Rest H C B) (N0 : ℕ) :
    Sim.Serves (env S M fuel conds mount (coreSched E X)).recorded (SimNote L N0) (NoteAsk L N0)
      (fun v p => SimNote L N0 p ∧ RowFor p.1.sched.1 v.target) (NoteDone L N0) := by
  have hreq : ∀ (w : World (Core C Sv A × H) K × List (Sim.Ev (Obs.Visit Obs) C B)) x, NoteAsk L N0 w →
      SimNote L N0 ((env S M fuel conds mount (coreSched E X)).recorded.request w x).1
      ∧ ∀ v ∈ ((env S M fuel conds mount (coreSched E X)).recorded.request w x).2,
        RowFor ((env S M fuel conds mount (coreSched E X)).recorded.request w x).1.1.sched.1 v.target := by
    intro w x h
    obtain ⟨N, h1, h2, c, hc, how⟩ := h
    show SimNote L N0 ((requestOf (coreSched E X) w.1 x).1, w.2 ++ [.request w.1.obs.mjd x (requestOf (coreSched E X) w.1 x).2])
      ∧ ∀ v ∈ (requestOf (coreSched E X) w.1 x).2, RowFor (requestOf (coreSched E X) w.1 x).1.sched.1 v.target
    have hr : (coreSched E X).request w.1.sched x = (coreRequest E w.1.sched.1 x).map fun r => ((r.1, w.1.sched.2), r.2) := rfl
    unfold requestOf
    rw [hr]
    cases hq : coreRequest E w.1.sched.1 x with
    | none => exact ⟨⟨N, by rw [told_one _ _ rfl]; exact h1, h2⟩, by rintro v ⟨⟩⟩
    | some r =>
      obtain ⟨s', o⟩ := r
      obtain ⟨a, d⟩ := note_request L hdet h2 hc how hq
      refine ⟨⟨N, by rw [told_one _ _ rfl]; exact h1, a⟩, ?_⟩
      · intro v hv
        cases o with
        | none => cases hv
        | some o =>
          have hv : some (asked o) = some v := hv
          cases hv
          exact d o rfl
  have hobs : ∀ (w : World (Core C Sv A × H) K × List (Sim.Ev (Obs.Visit Obs) C B)) v, (observeOf S M fuel w.1 v).1.sched = w.1.sched
      ∧ w.1.obs.mjd ≤ (observeOf S M fuel w.1 v).1.obs.mjd
      ∧ ∀ v', (observeOf S M fuel w.1 v).2.1 = some v' → w.1.obs.mjd < (observeOf S M fuel w.1 v).1.obs.mjd
        ∧ v'.target.targetId = v.target.targetId ∧ v'.target.schedulerNote = v.target.schedulerNote := by
    intro w v
    unfold observeOf
    cases ho : Obs.observe S M fuel w.1.obs v.target with
    | error e => exact ⟨rfl, le_rfl, by rintro v' ⟨⟩⟩
    | ok r =>
      obtain ⟨s', r, nn⟩ := r
      refine ⟨rfl, Obs.observe_forward hn hd hM ho, ?_⟩
      intro v' hv'
      have hv' : r = some v' := hv'
      subst hv'
      refine ⟨?_, ?_⟩
      · rcases C62_observatory_progress S hn hd M hM δ hlong fuel _ _ _ _ _ ho with h | ⟨h, -⟩
        · have : 0 < δ / 24 / 3600 := by positivity
          dsimp only
          linarith
        · cases h
      · obtain ⟨-, -, -, -, -, -, -, -, k, hk⟩ := observe_some hn hd hM ho
        exact hK _ _ _ _ hk
  refine ⟨fun w h => h.on rfl rfl rfl le_rfl, ?_, fun w x h hx => h.on rfl rfl rfl hx, fun w v h => h.on rfl rfl rfl le_rfl, ?_,
    fun w c h => h.on rfl rfl rfl le_rfl, fun w b h => h.on rfl rfl rfl le_rfl, ?_, ?_, ?_, ?_, ?_, ?_, ?_⟩
  · rintro w ⟨N, h1, h2⟩
    refine ⟨N, ?_, note_update L h2 _ (htime _)⟩
    have e : Sim.toldOf (Sim.updateNow (env S M fuel conds mount (coreSched E X)).recorded w).2
        = Sim.toldOf ((env S M fuel conds mount (coreSched E X)).recorded.conds w).1.2 := told_one _ _ rfl
    have e2 : Sim.toldOf ((env S M fuel conds mount (coreSched E X)).recorded.conds w).1.2 = Sim.toldOf w.2 := told_one _ _ rfl
    rw [e, e2]; exact h1
  · rintro w ⟨N, h1, h2⟩
    refine ⟨N, ?_, ⟨h2.few.surveys, Nat.zero_le _, rfl, h2.few.one, fun h0 => absurd rfl h0⟩, .inr (.inr (by rintro o ⟨⟩)), fun c hc => ⟨(h2.conds c hc).1, .inr (.inr (by rintro o ⟨⟩))⟩⟩
    have e : Sim.toldOf ((env S M fuel conds mount (coreSched E X)).recorded.flush w).2 = Sim.toldOf w.2 := told_one _ _ rfl
    rw [e]; exact h1
  · intro w u h hr
    have := (hreq w ((env S M fuel conds mount (coreSched E X)).recorded.clock w) h).1
    rw [hr] at this
    exact this
  · intro w u v h hr
    have := hreq w ((env S M fuel conds mount (coreSched E X)).recorded.clock w) h
    rw [hr] at this
    exact ⟨this.1, this.2 v rfl⟩
  · rintro w v x nn ⟨h, -⟩ ho
    have hx : x = ((observeOf S M fuel w.1 v).1, w.2 ++ [.observe w.1.obs.mjd v (observeOf S M fuel w.1 v).1.obs.mjd
      (observeOf S M fuel w.1 v).2.1 (observeOf S M fuel w.1 v).2.2]) := (congrArg Prod.fst ho).symm
    subst hx
    exact h.on rfl rfl (by rw [(hobs w v).1]) (hobs w v).2.1
  · rintro w v x v' nn ⟨⟨N, h1, h2⟩, hrow⟩ ho
    have hx : x = ((observeOf S M fuel w.1 v).1, w.2 ++ [.observe w.1.obs.mjd v (observeOf S M fuel w.1 v).1.obs.mjd
      (observeOf S M fuel w.1 v).2.1 (observeOf S M fuel w.1 v).2.2]) := (congrArg Prod.fst ho).symm
    have hv : (observeOf S M fuel w.1 v).2.1 = some v' := congrArg (fun z => z.2.1) ho
    obtain ⟨o1, o2, o3⟩ := hobs w v
    obtain ⟨o4, o5, o6⟩ := o3 v' hv
    subst hx
    refine ⟨N, by rw [told_one _ _ rfl]; exact h1, ?_⟩
    dsimp only
    rw [o1]
    refine ⟨fun tier t1 sv t2 => L.old (h2.few.surveys tier t1 sv t2) o4, h2.few.queue, h2.few.aligned, h2.few.one, h2.few.ready, ?_, fun c hc => ⟨(h2.conds c hc).1.trans o2, (h2.conds c hc).2⟩⟩
    obtain ⟨row, r1, r2, r3⟩ := hrow
    exact ⟨row, r1, r2.trans o5.symm, r3.trans o6.symm⟩
  · rintro w v ⟨N, h1, h2⟩
    refine ⟨N, ?_, h2⟩
    have e : Sim.toldOf ((env S M fuel conds mount (coreSched E X)).recorded.overhead w v).1.2 = Sim.toldOf w.2 := told_one _ _ rfl
    rw [e]; exact h1
  · rintro w v x ⟨N, h1, h2⟩ hx
    have hx : w.1.obs.mjd ≤ x := hx
    refine ⟨N, ?_, fun tier t1 sv t2 => L.oldLater (h2.surveys tier t1 sv t2) hx, h2.queue, h2.aligned, h2.one, h2.ready, h2.row, fun c hc => ⟨(h2.conds c hc).1.trans hx, (h2.conds c hc).2⟩⟩
    have e : Sim.toldOf ((env S M fuel conds mount (coreSched E X)).recorded.setClock w x).2 = Sim.toldOf w.2 := told_one _ _ rfl
    rw [e]; exact h1
  · rintro w v ⟨N, h1, h2⟩
    have ht : Sim.toldOf ((env S M fuel conds mount (coreSched E X)).recorded.add w v).2 = Sim.toldOf w.2 ++ [v] := by
      show Sim.toldOf (w.2 ++ [.add w.1.obs.mjd v]) = _
      rw [Sim.toldOf_append]
      rfl
    obtain ⟨a, b⟩ := note_add L (told v) ⟨h2.surveys, h2.queue, h2.aligned, h2.one, h2.ready, h2.row, h2.conds⟩
    refine ⟨_, ?_, b⟩
    rw [ht]
    unfold madeWith at h1 ⊢
    rw [List.countP_append]
    have hnote : (told v).schedulerNote = v.target.schedulerNote := rfl
    rw [hnote] at a ⊢
    by_cases e : v.target.schedulerNote = n
    · have := a e
      simp only [e, if_true, List.countP_singleton, decide_true]
      omega
    · simp only [e, if_false, List.countP_singleton, decide_false, Bool.false_eq_true]
      omega

/-- A simulation makes no more than `N` visits with the note, if that is what the surveys have to offer of it. -/
theorem noted_at_most (S : Obs.Site) (hn : Obs.Nights S.nights) (hd : Down.Ordered S.downs) (M : Obs.Kin K Obs) (hM : Obs.NonNeg M) (hK : KeepsNote M)
    (fuel : ℕ) (δ : ℚ) (hδ : 0 < δ) (hlong : ∀ k o t, δ ≤ (M.observe k o t).2.2) (conds : Obs.St K → C) (mount : K → B → K)
    (L : Offers E n) (hdet : DetKeepsNotes E.q) (htime : ∀ st, E.q.mjdOf (conds st) = st.mjd)
    (X : Rest H C B) (hX : ∀ h v, 0 ≤ (X.overhead h v).2) (cfg : Sim.Cfg) (hstep : 0 ≤ cfg.stepNone) (h1 : 0 < cfg.startSize) (h2 : 0 < cfg.appendSize)
    (m : ℕ) (w : World (Core C Sv A × H) K) (hw : w.sched.1.conditions = none) (hq : w.sched.1.qm.desired = [])
    (hneed : w.sched.1.qm.need = [])
    (N : ℕ) (hone : (shapeOf L.Mine w.sched.1.tiers).flatten.count true ≤ 1)
    (hold : ∀ tier ∈ w.sched.1.tiers, ∀ s ∈ tier, L.Old N (cfg.simStart.getD w.obs.mjd) s) :
    ∃ vs : List (Obs.Visit Obs), (Sim.run (V := Obs.Visit Obs) (env S M fuel conds mount (coreSched E X)) cfg m w).st.result = vs.map some
      ∧ vs.countP (fun v => decide (v.target.schedulerNote = n)) ≤ N := by
  have Kc := whole_contract S hn hd M hM fuel conds mount (coreSched E X) (fun u v => hX _ _)
  obtain ⟨hres, -, htold⟩ := recorded_result (env S M fuel conds mount (coreSched E X)) cfg h1 h2 m w
  have Srv := note_serves S hn hd M hM hK fuel δ hδ hlong conds mount L hdet htime X N
  have h0 : ∀ p : World (Core C Sv A × H) K × List (Sim.Ev (Obs.Visit Obs) C B), p.1.sched.1 = w.sched.1 → Sim.toldOf p.2 = [] →
      p.1.obs.mjd = cfg.simStart.getD w.obs.mjd → SimNote L N p := by
    intro p hp ht hm
    have hold : AllSurveys (L.Old N p.1.obs.mjd) p.1.sched.1 := by
      rw [hp, hm]
      exact hold
    refine ⟨N, by rw [ht]; rfl, ⟨fun tier t1 sv t2 => L.few (hold tier t1 sv t2), ?_, ?_, by rw [hp]; exact hone, ?_⟩, .inr (.inl hold), ?_⟩
    · rw [hp]
      unfold QM.active
      rw [hq]
      exact Nat.zero_le _
    · rw [hp]
      unfold QM.Aligned
      rw [hq, hneed]; rfl
    · rw [hp]
      unfold QM.active
      rw [hq]
      intro h0
      exact absurd rfl h0
    · rw [hp, hw]
      rintro c ⟨⟩
  have key := Sim.run_serves (cfg := cfg) (Sim.recorded_contract Kc) hstep Srv (by
    intro p hp
    have hnow : ∀ q : World (Core C Sv A × H) K × List (Sim.Ev (Obs.Visit Obs) C B), SimNote L N q →
        SimNote L N (Sim.updateNow (env S M fuel conds mount (coreSched E X)).recorded q)
        ∧ ∃ c, (Sim.updateNow (env S M fuel conds mount (coreSched E X)).recorded q).1.sched.1.conditions = some c
          ∧ E.q.mjdOf c = (Sim.updateNow (env S M fuel conds mount (coreSched E X)).recorded q).1.obs.mjd :=
      fun q h => ⟨Srv.now q h, conds q.1.obs, rfl, htime _⟩
    rcases Sim.refresh_cases (cfg := cfg) (G := fun q : World (Core C Sv A × H) K × List (Sim.Ev (Obs.Visit Obs) C B) =>
        ∃ c, q.1.sched.1.conditions = some c ∧ E.q.mjdOf c = q.1.obs.mjd) hnow (fun q x h => h.on rfl rfl rfl le_rfl) (fun q x _ h => h) p hp with h | ⟨h3, h4, h5, h6⟩
    · obtain ⟨⟨M0, a1, a2⟩, c, hc, he⟩ := h
      exact ⟨M0, a1, a2, c, hc, .inl (by rw [he]; exact a2.few.surveys)⟩
    · rw [h6]
      obtain ⟨M0, a1, a2⟩ := hp
      have h4 : p.1.sched.1.conditions.isSome = true := h4
      obtain ⟨c, hc⟩ := Option.isSome_iff_exists.1 h4
      have h5 : coreCheck E p.1.sched.1 p.1.obs.mjd = true := h5
      unfold coreCheck at h5
      rw [hc] at h5
      obtain ⟨-, hsafe⟩ := a2.conds c hc
      obtain ⟨M1, b1, b2⟩ : SimNote L N ((env S M fuel conds mount (coreSched E X)).recorded.check p ((env S M fuel conds mount (coreSched E X)).recorded.clock p)).1 :=
        SimNote.on ⟨M0, a1, a2⟩ rfl rfl rfl le_rfl
      have e : Sim.toldOf ((env S M fuel conds mount (coreSched E X)).recorded.check p ((env S M fuel conds mount (coreSched E X)).recorded.clock p)).1.2
          = Sim.toldOf p.2 := told_one _ _ rfl
      have hM : M1 = M0 := by rw [e] at b1; omega
      subst hM
      exact ⟨M1, b1, b2, c, hc, hsafe.ask hdet a2.few.aligned h5⟩) m (w, []) (by
    intro hs
    exact h0 _ rfl rfl (by rw [hs]; rfl)) (by
    intro x hs
    exact h0 _ rfl rfl (by rw [hs]; rfl))
  refine ⟨_, hres, ?_⟩
  rw [← htold]
  obtain ⟨M0, hM0, -⟩ := key
  show madeWith n _ ≤ N
  omega

end

end Verif
