import Verif.Props.Summit

/-!
C214: the wrapper that looks ahead, with each visit confirmed or given up before the next
request, hands out the visits of the scheduler it wraps.
-/

namespace Verif
variable {C Sv A : Type}
open Core

/-- A visit without its id. -/
def noId (o : Obs) : Obs := { o with targetId := 0 }

/-- One turn of a caller: new conditions, a visit requested and made (`g` is what becomes of
the visit), or a visit requested and given up. -/
inductive Turn (C : Type) where
  | update (c : C)
  | made (g : Obs → Obs)
  | lost

/-- A turn with the plain scheduler: `none` when it raises or has no visit. -/
def plainTurn (E : Env C Sv A) (s : Core C Sv A) : Turn C → Option (Core C Sv A × List Obs)
  | .update c => some (s.update E c, [])
  | .made g => match s.request E none false with
    | .ok (s1, some [o], _) => some ((s1.addObs E (g o)).1, [o])
    | _ => none
  | .lost => match s.request E none false with
    | .ok (s1, some [o], _) => some (s1.flush, [o])
    | _ => none

/-- The same turn with the wrapper. -/
def aheadTurn (E : Env C Sv A) (F : FillIn C) (w : Summit C Sv A) : Turn C → Option (Summit C Sv A × List Obs)
  | .update c => some (Summit.update E w c, [])
  | .made g => match Summit.request E F w none with
    | some (w1, o) => some (Summit.add E w1 (g o), [o])
    | none => none
  | .lost => match Summit.request E F w none with
    | some (w1, o) => some (Summit.flush w1, [o])
    | none => none

/-- The visits handed out over a list of turns; `none` as soon as one fails. -/
def turnVisits {S : Type} (step : S → Turn C → Option (S × List Obs)) : S → List (Turn C) → Option (List Obs)
  | _, [] => some []
  | s, t :: ts => match step s t with
    | none => none
    | some (s1, l) => (turnVisits step s1 ts).map (l ++ ·)

/-- Surveys that remember nothing but what they are told of visits: `eq` is "will behave the
same". -/
structure Forgetful (ops : SurveyOps C Sv) (eq : Sv → Sv → Prop) : Prop where
  equiv : Equivalence eq
  reward : ∀ {v v'} c, eq v v' → (ops.reward v c).1 = (ops.reward v' c).1
  asked : ∀ v c, eq (ops.reward v c).2 v
  gen : ∀ {v v'} c, eq v v' → (ops.gen v c).1 = (ops.gen v' c).1
  used : ∀ v c, eq (ops.gen v c).2 v
  update : ∀ v c, eq (ops.update v c) v
  add : ∀ {v v' o o'}, eq v v' → noId o = noId o' → eq (ops.addObs v o) (ops.addObs v' o')

/-- The same of the queue's detailers. -/
structure ForgetfulQ (q : QEnv C A) : Prop where
  same : ∀ a c o, (q.detail a c [o]).2 = a
  ids : ∀ a c o o', noId o = noId o' → (q.detail a c [o]).1.map noId = (q.detail a c [o']).1.map noId
  add : ∀ a o o', noId o = noId o' → q.addObs a o = q.addObs a o'

/-- What becomes of a visit does not touch, or depend on, its id. -/
def Turn.Keeps : Turn C → Prop
  | .made g => ∀ o, (g o).targetId = o.targetId ∧ ∀ o', noId o = noId o' → noId (g o) = noId (g o')
  | _ => True

/-- Both raise the same, or both give related results. -/
inductive Both {α β : Type} (R : α → β → Prop) : Except Err α → Except Err β → Prop where
  | err (e) : Both R (.error e) (.error e)
  | ok {a b} (h : R a b) : Both R (.ok a) (.ok b)

abbrev TiersAs (eq : Sv → Sv → Prop) : List (List Sv) → List (List Sv) → Prop := List.Forall₂ (List.Forall₂ eq)

/-- Two schedulers that will hand out the same visits. -/
structure SameCore (E : Env C Sv A) (eq : Sv → Sv → Prop) (p k : Core C Sv A) : Prop where
  rows : p.qm.active.map noId = k.qm.active.map noId
  alignedP : p.qm.Aligned
  alignedK : k.qm.Aligned
  lastP : ∀ o ∈ p.qm.active, QM.Lasting E.q o
  lastK : ∀ o ∈ k.qm.active, QM.Lasting E.q o
  idsP : (p.qm.active.map Obs.targetId).Nodup
  idsK : (k.qm.active.map Obs.targetId).Nodup
  aux : p.qm.aux = k.qm.aux
  tiers : TiersAs eq p.tiers k.tiers
  cond : p.conditions = k.conditions
  filters : p.bandToFilter = k.bandToFilter
  flag : p.flushForNewToo = k.flushForNewToo
  toos : p.tooIds = k.tooIds

section
variable {ops : SurveyOps C Sv} {eq : Sv → Sv → Prop}

theorem tiersAs_refl (H : Forgetful ops eq) (t : List (List Sv)) : TiersAs eq t t := by
  have h1 : ∀ l : List Sv, List.Forall₂ eq l l := fun l => List.forall₂_same.2 (fun x _ => H.equiv.refl x)
  exact List.forall₂_same.2 (fun x _ => h1 x)

theorem forall2_trans {α : Type} {R : α → α → Prop} (ht : ∀ a b c, R a b → R b c → R a c) :
    ∀ {a b c : List α}, List.Forall₂ R a b → List.Forall₂ R b c → List.Forall₂ R a c
  | [], _, _, .nil, .nil => .nil
  | _ :: _, _, _, .cons h1 t1, .cons h2 t2 => .cons (ht _ _ _ h1 h2) (forall2_trans ht t1 t2)

theorem tiersAs_trans (H : Forgetful ops eq) {a b c : List (List Sv)} (h1 : TiersAs eq a b) (h2 : TiersAs eq b c) : TiersAs eq a c :=
  forall2_trans (R := List.Forall₂ eq) (fun _ _ _ x y => forall2_trans (R := eq) (fun _ _ _ => H.equiv.trans) x y) h1 h2

theorem tiersAs_symm (H : Forgetful ops eq) {a b : List (List Sv)} (h1 : TiersAs eq a b) : TiersAs eq b a := by
  refine List.Forall₂.flip (List.Forall₂.imp (fun x y h => ?_) h1)
  exact List.Forall₂.flip (List.Forall₂.imp (fun x y h => H.equiv.symm h) h)

theorem forall2_map {α : Type} {R : α → α → Prop} (f g : α → α) (h : ∀ a b, R a b → R (f a) (g b)) :
    ∀ {l l' : List α}, List.Forall₂ R l l' → List.Forall₂ R (l.map f) (l'.map g)
  | [], _, .nil => .nil
  | _ :: _, _, .cons h1 t => .cons (h _ _ h1) (forall2_map f g h t)

theorem tiersAs_map (f g : Sv → Sv) (h : ∀ a b, eq a b → eq (f a) (g b)) {t t' : List (List Sv)} (ht : TiersAs eq t t') :
    TiersAs eq (t.map (fun l => l.map f)) (t'.map (fun l => l.map g)) :=
  forall2_map _ _ (fun _ _ h1 => forall2_map f g h h1) ht

theorem evalTier_same (H : Forgetful ops eq) (c : C) {t t' : List Sv} (h : List.Forall₂ eq t t') :
    (evalTier ops c t).1 = (evalTier ops c t').1 ∧ List.Forall₂ eq (evalTier ops c t).2 (evalTier ops c t').2 := by
  unfold evalTier
  induction h with
  | nil => exact ⟨rfl, .nil⟩
  | cons h1 _ ih =>
    refine ⟨?_, .cons (H.equiv.trans (H.asked _ c) (H.equiv.trans h1 (H.equiv.symm (H.asked _ c)))) ih.2⟩
    dsimp only at ih ⊢
    rw [List.map_cons, List.map_cons, H.reward c h1, ih.1]

theorem tierLoop_same (H : Forgetful ops eq) (c : C) : ∀ (n : ℕ) {t t' : List (List Sv)}, TiersAs eq t t' →
    Both (fun x y => x.1 = y.1 ∧ x.2.1 = y.2.1 ∧ TiersAs eq x.2.2 y.2.2) (tierLoop ops c n t) (tierLoop ops c n t')
  | _, [], _, .nil => .ok ⟨rfl, rfl, .nil⟩
  | n, a :: r, b :: r', .cons h1 ht => by
    have ih := tierLoop_same H c (n + 1) ht
    obtain ⟨e1, e2⟩ := evalTier_same H c h1
    have hr : r.isEmpty = r'.isEmpty := by
      cases ht <;> rfl
    unfold tierLoop
    dsimp only
    rw [e1]
    cases hm : XReal.nanmax (evalTier ops c b).1 with
    | none => exact .err _
    | some m =>
      dsimp only
      by_cases hlt : XReal.ltB .ninf m = true
      · rw [if_pos hlt, if_pos hlt]
        exact .ok ⟨rfl, rfl, .cons e2 ht⟩
      · rw [if_neg hlt, if_neg hlt]
        revert ih
        generalize tierLoop ops c (n + 1) r = x
        generalize tierLoop ops c (n + 1) r' = y
        intro ih
        cases ih with
        | err e => exact .err _
        | ok h => exact .ok ⟨by dsimp only; rw [hr, h.1], h.2.1, .cons e2 h.2.2⟩

theorem evalTier_kept (H : Forgetful ops eq) (c : C) (t : List Sv) : List.Forall₂ eq (evalTier ops c t).2 t := by
  unfold evalTier
  induction t with
  | nil => exact .nil
  | cons a t ih => exact .cons (H.asked _ _) ih

theorem tierLoop_kept (H : Forgetful ops eq) (c : C) : ∀ (n : ℕ) (t : List (List Sv)) {x}, tierLoop ops c n t = .ok x → TiersAs eq x.2.2 t
  | _, [], x, h => by cases h; exact .nil
  | n, a :: r, x, h => by
    have ih := fun x => tierLoop_kept (x := x) H c (n + 1) r
    unfold tierLoop at h
    dsimp only at h
    cases hm : XReal.nanmax (evalTier ops c a).1 with
    | none => rw [hm] at h; cases h
    | some m =>
      rw [hm] at h
      dsimp only at h
      by_cases hlt : XReal.ltB .ninf m = true
      · rw [if_pos hlt] at h
        cases h
        exact .cons (evalTier_kept H c a) (tiersAs_refl H r)
      · rw [if_neg hlt] at h
        cases hy : tierLoop ops c (n + 1) r with
        | error e => rw [hy] at h; cases h
        | ok y =>
          rw [hy] at h
          cases h
          exact .cons (evalTier_kept H c a) (ih _ hy)

theorem tiersAs_set {t t' : List (List Sv)} (ht : TiersAs eq t t') (i : ℕ) {l l' : List Sv} (hl : List.Forall₂ eq l l') :
    TiersAs eq (t.set i l) (t'.set i l') := by
  induction ht generalizing i with
  | nil => exact .nil
  | cons h1 h2 ih => cases i with
    | zero => exact .cons hl h2
    | succ i => exact .cons h1 (ih i)

theorem forall2_set {l l' : List Sv} (hl : List.Forall₂ eq l l') (i : ℕ) {v v' : Sv} (hv : eq v v') :
    List.Forall₂ eq (l.set i v) (l'.set i v') := by
  induction hl generalizing i with
  | nil => exact .nil
  | cons h1 h2 ih => cases i with
    | zero => exact .cons hv h2
    | succ i => exact .cons h1 (ih i)

theorem set_same {α : Type} {l : List α} {i : ℕ} {a : α} (h : l[i]? = some a) : l.set i a = l := by
  obtain ⟨hi, rfl⟩ := List.getElem?_eq_some_iff.1 h
  exact List.set_getElem_self hi

theorem forall2_get {α : Type} {R : α → α → Prop} {l l' : List α} (h : List.Forall₂ R l l') (i : ℕ) :
    (l[i]? = none ∧ l'[i]? = none) ∨ ∃ a b, l[i]? = some a ∧ l'[i]? = some b ∧ R a b := by
  induction h generalizing i with
  | nil => exact Or.inl ⟨rfl, rfl⟩
  | cons h1 _ ih => cases i with
    | zero => exact Or.inr ⟨_, _, rfl, rfl, h1⟩
    | succ i => simpa using ih i

end

theorem fillFilter_same (d : List (String × String)) {o o' : Obs} (h : noId o = noId o') :
    Both (fun x y => noId x = noId y) (fillFilter d o) (fillFilter d o') := by
  have hf : o.filter = o'.filter := (show (noId o).filter = (noId o').filter by rw [h])
  have hb : o.band = o'.band := (show (noId o).band = (noId o').band by rw [h])
  unfold fillFilter
  rw [hf, hb]
  by_cases hc : o'.filter = "" ∧ d.length > 0
  · rw [if_pos hc, if_pos hc]
    cases d.lookup o'.band with
    | none => exact .err _
    | some f =>
      refine .ok ?_
      have := congrArg (fun x : Obs => { x with filter := f }) h
      unfold noId at this ⊢
      simp only [Obs.mk.injEq] at this ⊢
      tauto
  · rw [if_neg hc, if_neg hc]
    exact .ok h

theorem fillFilters_same (d : List (String × String)) : ∀ {l l' : List Obs}, l.map noId = l'.map noId →
    Both (fun x y => x.map noId = y.map noId) (fillFilters d l) (fillFilters d l')
  | [], [], _ => .ok rfl
  | [], _ :: _, h => by cases h
  | _ :: _, [], h => by cases h
  | o :: l, o' :: l', h => by
    rw [List.map_cons, List.map_cons, List.cons.injEq] at h
    have h1 := fillFilter_same d h.1
    have h2 := fillFilters_same d h.2
    unfold fillFilters
    revert h1 h2
    generalize fillFilter d o = x
    generalize fillFilter d o' = y
    generalize fillFilters d l = xs
    generalize fillFilters d l' = ys
    intro h1 h2
    cases h1 with
    | err e => exact .err _
    | ok e1 => cases h2 with
      | err e => exact .err _
      | ok e2 => exact .ok (by rw [List.map_cons, List.map_cons, e1, e2])

theorem tagIds_same (n m : Int) (l : List Obs) : (tagIds n l).map noId = (tagIds m l).map noId := by
  induction l generalizing n m with
  | nil => rfl
  | cons o l ih =>
    unfold tagIds
    rw [List.map_cons, List.map_cons, ih (n + 1) (m + 1)]
    rfl

theorem range_nodup (n : Int) (k : ℕ) : ((List.range k).map (fun i : ℕ => n + i)).Nodup := by
  refine List.Nodup.map ?_ List.nodup_range
  intro a b h
  simpa using h

section
variable {E : Env C Sv A} {eq : Sv → Sv → Prop}

/-- A scheduler that stands beside itself. -/
theorem sameCore_left {p k : Core C Sv A} (H : Forgetful E.sv eq) (h : SameCore E eq p k) : SameCore E eq p p :=
  ⟨rfl, h.alignedP, h.alignedP, h.lastP, h.lastP, h.idsP, h.idsP, rfl, tiersAs_refl H _, rfl, rfl, rfl, rfl⟩

/-- Filling an empty queue. -/
theorem fillQueue_same (P : Plain E) (H : Forgetful E.sv eq) {p k : Core C Sv A} (h : SameCore E eq p k) :
    Both (fun x y => SameCore E eq x.1 y.1 ∧ SameCore E eq x.1 { k with qm := y.1.qm } ∧ x.1.qm.aux = p.qm.aux) (p.fillQueue E) (k.fillQueue E) := by
  unfold fillQueue
  rw [h.cond]
  cases hc : k.conditions with
  | none => exact .err _
  | some c =>
    dsimp only
    have hl := tierLoop_same H c 0 h.tiers
    have hkeep := fun x => tierLoop_kept (x := x) H c 0 k.tiers
    revert hl hkeep
    generalize tierLoop E.sv c 0 p.tiers = x
    generalize tierLoop E.sv c 0 k.tiers = y
    intro hl hkeep
    cases hl with
    | err e => exact .err _
    | @ok a b hab =>
      obtain ⟨rs, brk, ts⟩ := a
      obtain ⟨rs', brk', ts'⟩ := b
      obtain ⟨e1, e2, e3⟩ := hab
      have hkt : TiersAs eq ts' k.tiers := hkeep _ rfl
      dsimp only at e1 e2 e3 ⊢
      subst e1; subst e2
      cases hm : XReal.nanmax rs with
      | none => exact .err _
      | some m =>
        dsimp only
        by_cases hmn : m = .ninf ∨ m = .nan
        · rw [if_pos hmn, if_pos hmn]
          refine .ok ⟨⟨rfl, rfl, rfl, ?_, ?_, ?_, ?_, h.aux, e3, ?_, h.filters, h.flag, h.toos⟩,
            ⟨rfl, rfl, rfl, ?_, ?_, ?_, ?_, h.aux, tiersAs_trans H e3 hkt, ?_, h.filters, h.flag, h.toos⟩, ?_⟩
          all_goals first | exact h.cond | (intro o ho; cases ho) | exact List.nodup_nil | exact rfl | exact hc.symm | exact (h.cond.trans hc).symm
        · rw [if_neg hmn, if_neg hmn]
          cases brk with
          | none => exact .err _
          | some i0 =>
          cases hb : bestIndex (rs.map fixNan) with
          | none => exact .err _
          | some i1 =>
          dsimp only
          rcases forall2_get e3 i0 with ⟨g1, g2⟩ | ⟨tier, tier', g1, g2, g3⟩
          · rw [g1, g2]; exact .err _
          rw [g1, g2]
          dsimp only
          rcases forall2_get g3 i1 with ⟨f1, f2⟩ | ⟨sv, sv', f1, f2, f3⟩
          · rw [f1, f2]; exact .err _
          rw [f1, f2]
          dsimp only
          rw [H.gen c f3, h.filters]
          have hfl := fillFilters_same k.bandToFilter (tagIds_same p.counter k.counter (E.sv.gen sv' c).1)
          cases hx : fillFilters k.bandToFilter (tagIds p.counter (E.sv.gen sv' c).1) with
          | error e =>
            rw [hx] at hfl
            cases hy : fillFilters k.bandToFilter (tagIds k.counter (E.sv.gen sv' c).1) with
            | error e' => rw [hy] at hfl; cases hfl; exact .err _
            | ok y => rw [hy] at hfl; cases hfl
          | ok x =>
            cases hy : fillFilters k.bandToFilter (tagIds k.counter (E.sv.gen sv' c).1) with
            | error e' => rw [hx, hy] at hfl; cases hfl
            | ok y =>
              rw [hx, hy] at hfl
              cases hfl with
              | ok hxy =>
                have last : ∀ n z, fillFilters k.bandToFilter (tagIds n (E.sv.gen sv' c).1) = .ok z → ∀ o ∈ z, QM.Lasting E.q o := by
                  intro n z hz o ho
                  obtain ⟨o1, ho1, he⟩ := filled_flush (fillFilters_forall _ _ _ _ hz) o ho
                  exact lasting_of_eq (P.lasting _ _ _ ho1) he
                have nd : ∀ n z, fillFilters k.bandToFilter (tagIds n (E.sv.gen sv' c).1) = .ok z → (z.map Obs.targetId).Nodup := by
                  intro n z hz
                  rw [fillFilters_ids hz, tagIds_ids]
                  exact range_nodup _ _
                have hset : TiersAs eq (ts.set i0 (tier.set i1 (E.sv.gen sv c).2)) (ts'.set i0 (tier'.set i1 (E.sv.gen sv' c).2)) :=
                  tiersAs_set e3 _ (forall2_set g3 _ (H.equiv.trans (H.used _ c) (H.equiv.trans f3 (H.equiv.symm (H.used _ c)))))
                have hset2 : TiersAs eq (ts.set i0 (tier.set i1 (E.sv.gen sv c).2)) ts' := by
                  have h1 : tier' = tier'.set i1 sv' := by rw [set_same f2]
                  have h2 : ts' = ts'.set i0 tier' := by rw [set_same g2]
                  rw [h2]
                  refine tiersAs_set e3 _ ?_
                  rw [h1]
                  exact forall2_set g3 _ (H.equiv.trans (H.used _ c) f3)
                refine .ok ⟨⟨?_, ?_, ?_, ?_, ?_, ?_, ?_, h.aux, hset, ?_, rfl, h.flag, h.toos⟩,
                  ⟨?_, ?_, ?_, ?_, ?_, ?_, ?_, h.aux, tiersAs_trans H hset2 hkt, ?_, rfl, h.flag, h.toos⟩, ?_⟩
                all_goals dsimp only
                all_goals try rw [QM.active_setQueue]
                all_goals try rw [QM.active_setQueue]
                all_goals first
                  | exact hxy | exact h.cond | exact rfl | exact hc.symm | exact (h.cond.trans hc).symm | exact last _ _ hx | exact last _ _ hy | exact nd _ _ hx | exact nd _ _ hy
                  | (simp [QM.Aligned, QM.setQueue])

/-- Another scheduler with the same queue and the same surveys. -/
theorem SameCore.swap (H : Forgetful E.sv eq) {p k k' : Core C Sv A} (h : SameCore E eq p k) (ha : k'.qm.Aligned) (e : k'.qm.active = k.qm.active)
    (hx : k'.qm.aux = k.qm.aux) (ht : TiersAs eq k.tiers k'.tiers) (hc : k'.conditions = k.conditions) (hf : k'.bandToFilter = k.bandToFilter)
    (hg : k'.flushForNewToo = k.flushForNewToo) (hi : k'.tooIds = k.tooIds) : SameCore E eq p k' :=
  ⟨by rw [e]; exact h.rows, h.alignedP, ha, h.lastP, by rw [e]; exact h.lastK, h.idsP, by rw [e]; exact h.idsK, h.aux.trans hx.symm,
    tiersAs_trans H h.tiers ht, h.cond.trans hc.symm, h.filters.trans hf.symm, h.flag.trans hg.symm, h.toos.trans hi.symm⟩

theorem update_tiers (E : Env C Sv A) (s : Core C Sv A) (c : C) :
    (s.update E c).tiers = s.tiers.map (fun t => t.map (fun v => E.sv.update v c)) ∧ (s.update E c).conditions = some c ∧
    (s.update E c).bandToFilter = s.bandToFilter := by
  have h : (s.tooStep E c).tiers = s.tiers ∧ (s.tooStep E c).bandToFilter = s.bandToFilter := by
    unfold tooStep
    cases s.flushForNewToo with
    | false => exact ⟨rfl, rfl⟩
    | true =>
      dsimp only
      rw [if_pos rfl]
      cases E.toos c with
      | none => exact ⟨rfl, rfl⟩
      | some ts =>
        dsimp only
        split_ifs <;> exact ⟨rfl, rfl⟩
  unfold update
  dsimp only
  rw [h.1, h.2]
  exact ⟨rfl, rfl, rfl⟩

theorem tiersAs_update (H : Forgetful E.sv eq) (c : C) (t : List (List Sv)) : TiersAs eq t (t.map (fun t => t.map (fun v => E.sv.update v c))) := by
  have := tiersAs_map (fun v => v) (fun v => E.sv.update v c) (fun a b h => H.equiv.trans h (H.equiv.symm (H.update b c))) (tiersAs_refl H t)
  simpa using this

theorem SameCore.update (H : Forgetful E.sv eq) {p k : Core C Sv A} (h : SameCore E eq p k) (c : C) : SameCore E eq (p.update E c) (k.update E c) := by
  obtain ⟨p1, p2, p3, _⟩ := update_spec E p c
  obtain ⟨k1, k2, k3, _⟩ := update_spec E k c
  obtain ⟨p4, p5, p6⟩ := update_tiers E p c
  obtain ⟨k4, k5, k6⟩ := update_tiers E k c
  rw [h.flag, h.toos] at p1 p2
  have ht : TiersAs eq (p.update E c).tiers (k.update E c).tiers := by
    rw [p4, k4]
    exact tiersAs_trans H (tiersAs_symm H (tiersAs_update H c _)) (tiersAs_trans H h.tiers (tiersAs_update H c _))
  have hc : (p.update E c).conditions = (k.update E c).conditions := by rw [p5, k5]
  have hf : (p.update E c).bandToFilter = (k.update E c).bandToFilter := by rw [p6, k6, h.filters]
  have hg : (p.update E c).flushForNewToo = (k.update E c).flushForNewToo := by rw [p3, k3, h.flag]
  have hi : (p.update E c).tooIds = (k.update E c).tooIds := by rw [p2, k2]
  by_cases hfl : flushes E k.tooIds k.flushForNewToo c = true
  · rw [if_pos hfl] at p1 k1
    refine ⟨?_, ?_, ?_, ?_, ?_, ?_, ?_, ?_, ht, hc, hf, hg, hi⟩
    all_goals try rw [p1]
    all_goals try rw [k1]
    all_goals first | exact h.aux | rfl | (intro o ho; cases ho) | exact List.nodup_nil
  · rw [if_neg hfl] at p1 k1
    refine ⟨?_, ?_, ?_, ?_, ?_, ?_, ?_, ?_, ht, hc, hf, hg, hi⟩
    · rw [p1, k1]; exact h.rows
    · rw [p1]; exact h.alignedP
    · rw [k1]; exact h.alignedK
    · rw [p1]; exact h.lastP
    · rw [k1]; exact h.lastK
    · rw [p1]; exact h.idsP
    · rw [k1]; exact h.idsK
    · rw [p1, k1]; exact h.aux

/-- The conditions given once more: nothing changes. -/
theorem SameCore.again (H : Forgetful E.sv eq) {p k : Core C Sv A} (h : SameCore E eq p k) {c : C} (hc : k.conditions = some c)
    (hk : k.flushForNewToo = true → ∀ t ∈ (E.toos c).getD [], t.1 ∈ k.tooIds) :
    SameCore E eq p (k.update E c) ∧ (k.update E c).qm = k.qm := by
  obtain ⟨k1, k2, k3, _⟩ := update_spec E k c
  obtain ⟨k4, k5, k6⟩ := update_tiers E k c
  obtain ⟨f1, f2⟩ := flushes_known E _ _ c hk
  rw [f1] at k1
  rw [f2] at k2
  rw [if_neg (by simp)] at k1
  refine ⟨h.swap H ?_ ?_ ?_ ?_ (k5.trans hc.symm) k6 k3 k2, k1⟩
  · rw [k1]; exact h.alignedK
  · rw [k1]
  · rw [k1]
  · rw [k4]; exact tiersAs_update H c _

theorem SameCore.told (H : Forgetful E.sv eq) (Q : ForgetfulQ E.q) {p k : Core C Sv A} (h : SameCore E eq p k) {x y X Y : Obs} {rp rk : List Obs}
    (hp : p.qm.active = X :: rp) (hk : k.qm.active = Y :: rk) (hX : X.targetId = x.targetId) (hY : Y.targetId = y.targetId)
    (hn : noId x = noId y) : SameCore E eq (p.addObs E x).1 (k.addObs E y).1 ∧ (k.addObs E y).1.qm.active = rk := by
  have hb : noId (backfillBand x) = noId (backfillBand y) := by
    have h1 : x.band = y.band := (show (noId x).band = (noId y).band by rw [hn])
    have h2 : x.filter = y.filter := (show (noId x).filter = (noId y).filter by rw [hn])
    unfold backfillBand
    rw [h1, h2]
    split_ifs
    · unfold noId at hn ⊢
      simp only [Obs.mk.injEq] at hn ⊢
      tauto
    · exact hn
  have cut : ∀ (l : List Obs) (Z z : Obs) (r : List Obs), l = Z :: r → (l.map Obs.targetId).Nodup → Z.targetId = z.targetId →
      l.filter (fun d => decide (d.targetId ≠ z.targetId)) = r := by
    intro l Z z r hl hd he
    subst hl
    rw [List.map_cons, List.nodup_cons] at hd
    rw [List.filter_cons_of_neg (by simp [he])]
    rw [List.filter_eq_self]
    intro d hdr
    have : d.targetId ≠ Z.targetId := fun e => hd.1 (e ▸ List.mem_map_of_mem hdr)
    rw [he] at this
    simpa using this
  obtain ⟨p1, p2, p3, _, _, p6⟩ := addObs_core E p x
  obtain ⟨k1, k2, k3, _, _, k6⟩ := addObs_core E k y
  rw [cut _ X x rp hp h.idsP hX] at p1
  rw [cut _ Y y rk hk h.idsK hY] at k1
  have hP := h.idsP
  have hK := h.idsK
  have hr := h.rows
  have hlP := h.lastP
  have hlK := h.lastK
  rw [hp] at hP hr hlP
  rw [hk] at hK hr hlK
  refine ⟨⟨?_, p6 h.alignedP, k6 h.alignedK, ?_, ?_, ?_, ?_, ?_, ?_, h.cond, h.filters, h.flag, h.toos⟩, k1⟩
  · rw [p1, k1]; exact (List.cons.inj hr).2
  · rw [p1]; exact fun o ho => hlP o (List.mem_cons_of_mem _ ho)
  · rw [k1]; exact fun o ho => hlK o (List.mem_cons_of_mem _ ho)
  · rw [p1]; exact (List.nodup_cons.1 hP).2
  · rw [k1]; exact (List.nodup_cons.1 hK).2
  · have : ∀ (q : QM A) (o : Obs), (q.addObs E.q o).aux = E.q.addObs q.aux o := by
      intro q o; unfold QM.addObs QM.mark; dsimp only; split_ifs <;> rfl
    unfold Core.addObs
    dsimp only
    rw [this, this, h.aux]
    exact Q.add _ _ _ hb
  · unfold Core.addObs
    exact tiersAs_map _ _ (fun a b e => H.add e hb) h.tiers

/-- A queue with rows is asked: its first row comes back, and nothing changes. -/
theorem ask_ready (P : Plain E) (Q : ForgetfulQ E.q) {s s1 : Core C Sv A} {c : C} {ev : List Ev} {x : Obs} {r : List Obs} (hc : s.conditions = some c)
    (hf : (if s.qm.nonePending then s.fillQueue E else .ok (s, [])) = .ok (s1, ev)) (ha : s1.qm.Aligned)
    (hl : ∀ o ∈ s1.qm.active, QM.Lasting E.q o) (hx : s1.qm.active = x :: r) :
    ∃ o', (E.q.detail s1.qm.aux c [x]).1 = [o'] ∧ o'.targetId = x.targetId ∧ s.request E none false = .ok (s1, some [setNote o'], ev) := by
  obtain ⟨o', ho, hid, _⟩ := P.one s1.qm.aux c x
  refine ⟨o', ho, hid, ?_⟩
  have hq : s1.qm.request E.q c false = ([o'], s1.qm) := by
    rw [QM.request_eq E.q s1.qm c false ha]
    simp only [Bool.false_eq_true, if_false]
    rw [QM.selectable_active E.q s1.qm c ha (P.mask _ _) hl, hx]
    simp [ho, Q.same]
  have hnp : ¬ s1.qm.nonePending = true := by
    intro h
    rw [(QM.nonePending_iff _ ha).1 h] at hx
    cases hx
  unfold request
  rw [hc]
  dsimp only
  rw [hf]
  dsimp only
  rw [if_neg hnp, hq]
  rfl

/-- Two schedulers that stand alike are asked. -/
theorem request_alike (P : Plain E) (H : Forgetful E.sv eq) (Q : ForgetfulQ E.q) {p k : Core C Sv A} (h : SameCore E eq p k) :
    (∃ p' k' x y X Y rp rk ev ev', p.request E none false = .ok (p', some [x], ev) ∧ k.request E none false = .ok (k', some [y], ev') ∧
      noId x = noId y ∧ p'.qm.active = X :: rp ∧ X.targetId = x.targetId ∧ k'.qm.active = Y :: rk ∧ Y.targetId = y.targetId ∧
      SameCore E eq p' { k with qm := k'.qm } ∧ (k.qm.active ≠ [] → k' = k) ∧ p'.qm.aux = p.qm.aux ∧ k'.tooIds = k.tooIds ∧ k'.flushForNewToo = k.flushForNewToo) ∨
    ((∀ s l ev, p.request E none false ≠ .ok (s, some l, ev)) ∧ ∀ s l ev, k.request E none false ≠ .ok (s, some l, ev)) := by
  have hcase : k.conditions = none ∨ ∃ c, k.conditions = some c := by
    cases k.conditions with
    | none => exact Or.inl rfl
    | some c => exact Or.inr ⟨c, rfl⟩
  rcases hcase with hkc | ⟨c, hkc⟩
  · right
    have hpc := h.cond.trans hkc
    constructor <;> intro s l ev he <;> unfold request at he
    · rw [hpc] at he; cases he
    · rw [hkc] at he; cases he
  · have hpc := h.cond.trans hkc
    have detailSame : ∀ (a : A) (X Y o o' : Obs), noId X = noId Y → (E.q.detail a c [X]).1 = [o] → (E.q.detail a c [Y]).1 = [o'] → noId (setNote o) = noId (setNote o') := by
      intro a X Y o o' hn h1 h2
      have := Q.ids a c X Y hn
      rw [h1, h2] at this
      have := (List.cons.inj this).1
      unfold noId at this
      unfold noId setNote
      simp only [Obs.mk.injEq] at this ⊢
      tauto
    cases hpa : p.qm.active with
    | cons X rp =>
      cases hka : k.qm.active with
      | nil => have := h.rows; rw [hpa, hka] at this; cases this
      | cons Y rk =>
        left
        have hp0 : ¬ p.qm.nonePending = true := fun e => by rw [(QM.nonePending_iff _ h.alignedP).1 e] at hpa; cases hpa
        have hk0 : ¬ k.qm.nonePending = true := fun e => by rw [(QM.nonePending_iff _ h.alignedK).1 e] at hka; cases hka
        obtain ⟨o, ho, hi, hr⟩ := ask_ready (s1 := p) (ev := []) P Q hpc (by rw [if_neg hp0]) h.alignedP h.lastP hpa
        obtain ⟨o', ho', hi', hr'⟩ := ask_ready (s1 := k) (ev := []) P Q hkc (by rw [if_neg hk0]) h.alignedK h.lastK hka
        have hrows := h.rows
        rw [hpa, hka] at hrows
        rw [h.aux] at ho
        exact ⟨p, k, _, _, X, Y, rp, rk, _, _, hr, hr', detailSame _ X Y _ _ (List.cons.inj hrows).1 ho ho', hpa, hi.symm, hka, hi'.symm, h, fun _ => rfl, rfl, rfl, rfl⟩
    | nil =>
      have hka : k.qm.active = [] := by
        have := h.rows; rw [hpa] at this
        cases hk : k.qm.active with
        | nil => rfl
        | cons _ _ => rw [hk] at this; cases this
      have hp0 := (QM.nonePending_iff _ h.alignedP).2 hpa
      have hk0 := (QM.nonePending_iff _ h.alignedK).2 hka
      have hb := fillQueue_same P H h
      cases hpf : p.fillQueue E with
      | error e =>
        rw [hpf] at hb
        right
        cases hkf : k.fillQueue E with
        | ok _ => rw [hkf] at hb; cases hb
        | error e' =>
          constructor <;> intro s l ev he <;> unfold request at he
          · rw [hpc] at he; dsimp only at he; rw [if_pos hp0, hpf] at he; cases he
          · rw [hkc] at he; dsimp only at he; rw [if_pos hk0, hkf] at he; cases he
      | ok a =>
        cases hkf : k.fillQueue E with
        | error _ => rw [hpf, hkf] at hb; cases hb
        | ok b =>
          rw [hpf, hkf] at hb
          cases hb with
          | ok hab =>
          obtain ⟨p1, ev⟩ := a
          obtain ⟨k1, ev'⟩ := b
          obtain ⟨hs, hs2, hax⟩ := hab
          dsimp only at hs hs2
          cases hpa1 : p1.qm.active with
          | nil =>
            have hka1 : k1.qm.active = [] := by
              have := hs.rows; rw [hpa1] at this
              cases hk : k1.qm.active with
              | nil => rfl
              | cons _ _ => rw [hk] at this; cases this
            have hp1 := (QM.nonePending_iff _ hs.alignedP).2 hpa1
            have hk1 := (QM.nonePending_iff _ hs.alignedK).2 hka1
            right
            constructor <;> intro s l ev he <;> unfold request at he
            · rw [hpc] at he; dsimp only at he; rw [if_pos hp0, hpf] at he; dsimp only at he; rw [if_pos hp1] at he; cases he
            · rw [hkc] at he; dsimp only at he; rw [if_pos hk0, hkf] at he; dsimp only at he; rw [if_pos hk1] at he; cases he
          | cons X rp =>
            cases hka1 : k1.qm.active with
            | nil => have := hs.rows; rw [hpa1, hka1] at this; cases this
            | cons Y rk =>
              left
              obtain ⟨o, ho, hi, hr⟩ := ask_ready (s1 := p1) (ev := ev) P Q hpc (by rw [if_pos hp0, hpf]) hs.alignedP hs.lastP hpa1
              obtain ⟨o', ho', hi', hr'⟩ := ask_ready (s1 := k1) (ev := ev') P Q hkc (by rw [if_pos hk0, hkf]) hs.alignedK hs.lastK hka1
              have hrows := hs.rows
              rw [hpa1, hka1] at hrows
              rw [hs.aux] at ho
              exact ⟨p1, k1, _, _, X, Y, rp, rk, _, _, hr, hr', detailSame _ X Y _ _ (List.cons.inj hrows).1 ho ho', hpa1, hi.symm, hka1, hi'.symm,
                hs2, fun hne => absurd hka hne, hax, hs.toos.symm.trans hs2.toos, hs.flag.symm.trans hs2.flag⟩

/-- The wrapper between turns, beside the plain scheduler. -/
structure Quiet (E : Env C Sv A) (eq : Sv → Sv → Prop) (p : Core C Sv A) (w : Summit C Sv A) : Prop where
  same : SameCore E eq p w.core
  pend : w.pend = []
  ids : w.ids = []
  cond : w.cond = w.core.conditions
  ahead : w.replay = false → w.ahead = w.core
  known : ∀ c, w.cond = some c → w.core.flushForNewToo = true → ∀ t ∈ (E.toos c).getD [], t.1 ∈ w.core.tooIds
  queue : w.ahead.qm.active.map noId = p.qm.active.map noId
  toos : w.ahead.tooIds = w.core.tooIds
  flag : w.ahead.flushForNewToo = w.core.flushForNewToo
  aligned : w.ahead.qm.Aligned

theorem Quiet.rebuild (H : Forgetful E.sv eq) {p : Core C Sv A} {w : Summit C Sv A} (h : Quiet E eq p w) {c : C} (hc : w.cond = some c) :
    SameCore E eq p (Summit.rebuild E w c).ahead ∧ (Summit.rebuild E w c).ahead.qm = w.core.qm ∧
    TiersAs eq (Summit.rebuild E w c).ahead.tiers w.core.tiers ∧ (Summit.rebuild E w c).core = w.core ∧ (Summit.rebuild E w c).cond = w.cond ∧
    (Summit.rebuild E w c).replay = false := by
  unfold Summit.rebuild
  cases hr : w.replay with
  | false =>
    rw [if_neg (by simp), h.ahead hr]
    exact ⟨h.same, rfl, tiersAs_refl H _, rfl, rfl, hr⟩
  | true =>
    rw [if_pos rfl, h.pend]
    dsimp only [List.foldl_nil]
    obtain ⟨h1, h2⟩ := h.same.again H (h.cond.symm.trans hc) (h.known c hc)
    refine ⟨h1, h2, ?_, rfl, rfl, rfl⟩
    rw [(update_tiers E w.core c).1]
    exact tiersAs_symm H (tiersAs_update H c _)

theorem searchRight_self (n : Int) : Summit.searchRight [n] n = 1 := by
  unfold Summit.searchRight Summit.bisect
  simp [Summit.bisect]

theorem share_frame (k : Core C Sv A) (b a : List Obs) (o : Obs) :
    (Summit.share k b a o).qm.aux = k.qm.aux ∧ (Summit.share k b a o).tiers = k.tiers ∧ (Summit.share k b a o).conditions = k.conditions ∧
    (Summit.share k b a o).bandToFilter = k.bandToFilter ∧ (Summit.share k b a o).flushForNewToo = k.flushForNewToo ∧
    (Summit.share k b a o).tooIds = k.tooIds ∧ (k.qm.Aligned → (Summit.share k b a o).qm.Aligned) := by
  unfold Summit.share
  split_ifs
  · exact ⟨rfl, rfl, rfl, rfl, rfl, rfl, fun h => QM.append_aligned _ _ h⟩
  · exact ⟨rfl, rfl, rfl, rfl, rfl, rfl, fun h => QM.append_aligned _ _ (QM.append_aligned _ _ h)⟩
  · exact ⟨rfl, rfl, rfl, rfl, rfl, rfl, id⟩

/-- A request between turns. -/
theorem Quiet.request (P : Plain E) (H : Forgetful E.sv eq) (Q : ForgetfulQ E.q) (F : FillIn C) {p : Core C Sv A} {w : Summit C Sv A} (h : Quiet E eq p w) :
    (∃ p' w' k' x y X Y rp rk ev, p.request E none false = .ok (p', some [x], ev) ∧ Summit.request E F w none = some (w', y) ∧
      noId x = noId y ∧ p'.qm.active = X :: rp ∧ X.targetId = x.targetId ∧ k'.qm.active = Y :: rk ∧ Y.targetId = y.targetId ∧
      SameCore E eq p' k' ∧ (w'.core.qm.active = Y :: rk ∨ w'.core.qm.active = y :: Y :: rk) ∧ w'.core.qm.Aligned ∧
      w'.core.qm.aux = k'.qm.aux ∧ TiersAs eq k'.tiers w'.core.tiers ∧ w'.core.conditions = k'.conditions ∧
      w'.core.bandToFilter = k'.bandToFilter ∧ w'.core.flushForNewToo = k'.flushForNewToo ∧ w'.core.tooIds = k'.tooIds ∧
      w'.ids = [y.targetId] ∧ w'.pend.length = 1 ∧ w'.cond = w'.core.conditions ∧
      (∀ c, w'.cond = some c → w'.core.flushForNewToo = true → ∀ t ∈ (E.toos c).getD [], t.1 ∈ w'.core.tooIds) ∧
      w'.ahead.qm.active = rk ∧ w'.ahead.tooIds = k'.tooIds ∧ w'.ahead.flushForNewToo = k'.flushForNewToo ∧ w'.ahead.qm.Aligned) ∨
    ((∀ s l ev, p.request E none false ≠ .ok (s, some l, ev)) ∧ Summit.request E F w none = none) := by
  cases hc : w.cond with
  | none =>
    right
    refine ⟨fun s l ev he => ?_, by unfold Summit.request; rw [hc]⟩
    have hpc : p.conditions = none := h.same.cond.trans (h.cond.symm.trans hc)
    unfold Core.request at he
    rw [hpc] at he; cases he
  | some c =>
    obtain ⟨ha, hq, ht, hcore, hcond, _⟩ := h.rebuild H hc
    rcases request_alike P H Q ha with ⟨p', a, x, y, X, Y, rp, rk, ev, ev', hp, hk, hn, hpa, hX, hka, hY, hs, hsame, hax, htk, hfk⟩ | ⟨hp, hk⟩
    · left
      have hreq : Summit.request E F w none = some ({ Summit.rebuild E w c with
          core := Summit.share w.core (Summit.rebuild E w c).ahead.qm.active a.qm.active y
          ahead := (a.addObs E (Summit.fillObs E F c y)).1
          ids := w.ids ++ [y.targetId]
          pend := w.pend ++ [Summit.fillObs E F c y] }, y) := by
        unfold Summit.request
        rw [hc]
        dsimp only
        rw [hk]
      obtain ⟨f1, f2, f3, f4, f5, f6, f7⟩ := share_frame w.core (Summit.rebuild E w c).ahead.qm.active a.qm.active y
      have haux : a.qm.aux = w.core.qm.aux := (hs.aux.symm.trans hax).trans h.same.aux
      refine ⟨p', _, { (Summit.rebuild E w c).ahead with qm := a.qm }, x, y, X, Y, rp, rk, ev, hp, hreq, hn, hpa, hX, hka, hY, hs, ?_, f7 h.same.alignedK,
        f1.trans haux.symm, ?_, ?_, ?_, ?_, ?_, ?_, ?_, ?_, ?_, ?_, ?_, ?_, ?_⟩
      · dsimp only
        rw [hq]
        unfold Summit.share
        by_cases h0 : w.core.qm.active = []
        · right
          rw [if_pos h0, if_neg (by rw [hka]; simp)]
          dsimp only
          rw [QM.active_append _ _ (QM.append_aligned _ _ h.same.alignedK), QM.active_append _ _ h.same.alignedK, h0, hka]
          rfl
        · left
          rw [if_neg h0]
          have := hsame (by rw [hq]; exact h0)
          rw [← hka, this, hq]
      · dsimp only; rw [f2]; exact ht
      · exact f3.trans (h.same.cond.symm.trans ha.cond)
      · exact f4.trans (h.same.filters.symm.trans ha.filters)
      · exact f5.trans (h.same.flag.symm.trans ha.flag)
      · exact f6.trans (h.same.toos.symm.trans ha.toos)
      · dsimp only; rw [h.ids]; rfl
      · dsimp only; rw [h.pend]; rfl
      · dsimp only; rw [hcond, f3, h.cond]
      · dsimp only
        rw [hcond, f5, f6]
        exact h.known
      · have hd := hs.idsK
        dsimp only at hd ⊢
        rw [hka, List.map_cons, List.nodup_cons] at hd
        rw [(addObs_core E a (Summit.fillObs E F c y)).1, hka, List.filter_cons_of_neg (by simp [Summit.fillObs, hY]), List.filter_eq_self]
        intro d hdr
        have : d.targetId ≠ Y.targetId := fun e => hd.1 (e ▸ List.mem_map_of_mem hdr)
        rw [hY] at this
        exact decide_eq_true this
      · exact htk
      · exact hfk
      · exact (addObs_core E a (Summit.fillObs E F c y)).2.2.2.2.2 hs.alignedK
    · right
      refine ⟨hp, ?_⟩
      unfold Summit.request
      rw [hc]
      dsimp only
      cases hr : (Summit.rebuild E w c).ahead.request E none false with
      | error e => rfl
      | ok b =>
        obtain ⟨b1, b2, b3⟩ := b
        cases b2 with
        | none => rfl
        | some l => exact absurd hr (hk _ _ _)

theorem SameCore.flush {p k : Core C Sv A} (h : SameCore E eq p k) : SameCore E eq p.flush k.flush := by
  refine ⟨rfl, rfl, rfl, ?_, ?_, List.nodup_nil, List.nodup_nil, h.aux, h.tiers, h.cond, h.filters, h.flag, h.toos⟩
  all_goals intro o ho; cases ho

/-- One turn. -/
theorem turn_alike (P : Plain E) (H : Forgetful E.sv eq) (Q : ForgetfulQ E.q) (F : FillIn C) {p : Core C Sv A} {w : Summit C Sv A} (h : Quiet E eq p w)
    (t : Turn C) (ht : t.Keeps) :
    (plainTurn E p t = none ∧ aheadTurn E F w t = none) ∨
    ∃ p' w' l l', plainTurn E p t = some (p', l) ∧ aheadTurn E F w t = some (w', l') ∧ l.map noId = l'.map noId ∧ Quiet E eq p' w' := by
  cases t with
  | update c =>
    right
    refine ⟨_, _, _, _, rfl, rfl, rfl, ⟨h.same.update H c, h.pend, h.ids, ?_, ?_, ?_, ?_, ?_, ?_, ?_⟩⟩
    · exact (update_tiers E w.core c).2.1.symm
    · intro hr
      have := h.ahead hr
      unfold Summit.update
      dsimp only
      rw [this]
    · intro c' hc' hf t ht
      have e : c = c' := by
        have : some c = some c' := hc'
        exact Option.some.inj this
      subst e
      obtain ⟨_, k2, k3, _⟩ := update_spec E w.core c
      have hf' : w.core.flushForNewToo = true := k3.symm.trans hf
      have := nowKnown_all E w.core.tooIds c t ht
      change t.1 ∈ (w.core.update E c).tooIds
      rw [k2, hf']
      exact this
    all_goals
      obtain ⟨a1, a2, a3, _⟩ := update_spec E w.ahead c
      obtain ⟨k1, k2, k3, _⟩ := update_spec E w.core c
      obtain ⟨p1, _, _, _⟩ := update_spec E p c
      rw [h.toos, h.flag] at a1 a2
      rw [h.same.toos, h.same.flag] at p1
    · show (w.ahead.update E c).qm.active.map noId = (p.update E c).qm.active.map noId
      rw [a1, p1]
      split_ifs
      · rfl
      · exact h.queue
    · exact a2.trans k2.symm
    · exact a3.trans (h.flag.trans k3.symm)
    · show (w.ahead.update E c).qm.Aligned
      rw [a1]
      split_ifs
      · rfl
      · exact h.aligned
  | made g =>
    rcases h.request P H Q F with ⟨p', w', k', x, y, X, Y, rp, rk, ev, hp, hw, hn, hpa, hX, hka, hY, hs, hrows, hal, haux, hti, hco, hfi, hfl, htoo, hids, hpd, hcond, hknown, hah, htA, hfA, hlA⟩ | ⟨hp, hw⟩
    · right
      obtain ⟨hgx, hgn⟩ := ht x
      have hgy := (ht y).1
      obtain ⟨s1, s2⟩ := hs.told H Q hpa hka (hX.trans hgx.symm) (hY.trans hgy.symm) (hgn y hn)
      refine ⟨_, _, [x], [y], by unfold plainTurn; rw [hp], by unfold aheadTurn; rw [hw], by rw [List.map_cons, List.map_cons, hn], ?_⟩
      obtain ⟨c1, c2, c3, _, _, c6⟩ := addObs_core E w'.core (g y)
      have hdrop : Summit.searchRight w'.ids (g y).targetId = 1 := by rw [hids, hgy]; exact searchRight_self _
      have auxAdd : ∀ (q : QM A) (o : Obs), (q.addObs E.q o).aux = E.q.addObs q.aux o := by
        intro q o; unfold QM.addObs QM.mark; dsimp only; split_ifs <;> rfl
      refine ⟨s1.swap H (c6 hal) ?_ ?_ ?_ hco hfi hfl htoo, ?_, ?_, hcond, (fun hr => by cases hr), hknown, ?_, htA.trans htoo.symm, hfA.trans hfl.symm, hlA⟩
      · change (w'.core.addObs E (g y)).1.qm.active = _
        rw [c1, s2]
        have hrk := (addObs_core E k' (g y)).1
        rw [s2, hka] at hrk
        rcases hrows with e | e
        · rw [e]; exact hrk.symm
        · rw [e, List.filter_cons_of_neg (by simp [hgy])]; exact hrk.symm
      · unfold Summit.add Core.addObs
        dsimp only
        rw [auxAdd, auxAdd, haux]
      · unfold Summit.add Core.addObs
        exact tiersAs_map _ _ (fun a b e => H.add e rfl) hti
      · unfold Summit.add
        dsimp only
        rw [hdrop]
        match w'.pend, hpd with
        | [_], _ => rfl
      · unfold Summit.add
        dsimp only
        rw [hdrop, hids]
        rfl
      · rw [s1.rows, s2]
        show w'.ahead.qm.active.map noId = _
        rw [hah]
    · left
      refine ⟨?_, by unfold aheadTurn; rw [hw]⟩
      unfold plainTurn
      cases hr : p.request E none false with
      | error e => rfl
      | ok b =>
        obtain ⟨b1, b2, b3⟩ := b
        cases b2 with
        | none => rfl
        | some l => exact absurd hr (hp _ _ _)
  | lost =>
    rcases h.request P H Q F with ⟨p', w', k', x, y, X, Y, rp, rk, ev, hp, hw, hn, hpa, hX, hka, hY, hs, hrows, hal, haux, hti, hco, hfi, hfl, htoo, hids, hpd, hcond, hknown, hah, htA, hfA, hlA⟩ | ⟨hp, hw⟩
    · right
      refine ⟨_, _, [x], [y], by unfold plainTurn; rw [hp], by unfold aheadTurn; rw [hw], by rw [List.map_cons, List.map_cons, hn], ?_⟩
      exact ⟨hs.flush.swap H rfl rfl haux hti hco hfi hfl htoo, rfl, rfl, hcond, fun _ => rfl, hknown, rfl, rfl, rfl, rfl⟩
    · left
      refine ⟨?_, by unfold aheadTurn; rw [hw]⟩
      unfold plainTurn
      cases hr : p.request E none false with
      | error e => rfl
      | ok b =>
        obtain ⟨b1, b2, b3⟩ := b
        cases b2 with
        | none => rfl
        | some l => exact absurd hr (hp _ _ _)

theorem visits_same (P : Plain E) (H : Forgetful E.sv eq) (Q : ForgetfulQ E.q) (F : FillIn C) : ∀ (ts : List (Turn C)) (p : Core C Sv A) (w : Summit C Sv A),
    Quiet E eq p w → (∀ t ∈ ts, t.Keeps) →
    (turnVisits (aheadTurn E F) w ts).map (List.map noId) = (turnVisits (plainTurn E) p ts).map (List.map noId)
  | [], _, _, _, _ => rfl
  | t :: ts, p, w, h, hk => by
    unfold turnVisits
    rcases turn_alike P H Q F h t (hk t List.mem_cons_self) with ⟨h1, h2⟩ | ⟨p', w', l, l', h1, h2, h3, h4⟩
    · rw [h1, h2]
    · rw [h1, h2]
      dsimp only
      have ih := visits_same P H Q F ts p' w' h4 (fun t ht => hk t (List.mem_cons_of_mem _ ht))
      rw [Option.map_map, Option.map_map]
      cases ha : turnVisits (aheadTurn E F) w' ts with
      | none =>
        rw [ha] at ih
        cases hb : turnVisits (plainTurn E) p' ts with
        | none => rfl
        | some b => rw [hb] at ih; cases ih
      | some a =>
        rw [ha] at ih
        cases hb : turnVisits (plainTurn E) p' ts with
        | none => rw [hb] at ih; cases ih
        | some b =>
          rw [hb] at ih
          have e : a.map noId = b.map noId := Option.some.inj ih
          change some ((l' ++ a).map noId) = some ((l ++ b).map noId)
          rw [List.map_append, List.map_append, h3, e]
end

/-- C214: the wrapper around a new scheduler, each visit confirmed or given up before the next
request, hands out the visits the scheduler alone hands out (the ids aside), and raises when
the scheduler alone raises or has nothing.

Asked of the parts: surveys and detailers remember nothing but the visits they are told of
(`Forgetful`, `ForgetfulQ`; see `C214_memory_violated`), detailers give one visit for one,
the queue has no masks and its visits do not expire (`Plain`; see `C214_expiry_violated`). -/
theorem C214_same_partial (E : Env C Sv A) (eq : Sv → Sv → Prop) (P : Plain E) (H : Forgetful E.sv eq) (Q : ForgetfulQ E.q) (F : FillIn C)
    (a : A) (tiers : List (List Sv)) (counter : Int) (flag : Bool) (filters : List (String × String))
    (turns : List (Turn C)) (hk : ∀ t ∈ turns, t.Keeps) :
    (turnVisits (aheadTurn E F) (Summit.init (Core.init a tiers counter flag filters)) turns).map (List.map noId) =
    (turnVisits (plainTurn E) (Core.init a tiers counter flag filters) turns).map (List.map noId) := by
  refine visits_same P H Q F turns _ _ ⟨⟨rfl, rfl, rfl, ?_, ?_, List.nodup_nil, List.nodup_nil, rfl, tiersAs_refl H _, rfl, rfl, rfl, rfl⟩, rfl, rfl, rfl,
    fun _ => rfl, ?_, rfl, rfl, rfl, rfl⟩ hk
  · intro o ho; cases ho
  · intro o ho; cases ho
  · intro c hc; cases hc

/-- A survey for the witnesses: it counts how often it was asked for visits and how many it
was told of, and offers two visits at a time, at a place that depends on the second number
and, with `memory`, on the first. They are valid for `valid` days (0: for ever). -/
def turnE (memory : Bool) (valid : ℚ) : Env ℚ (ℕ × ℕ) Unit where
  q := { mjdOf := id, reward := fun _ _ => [], hpid := fun _ _ _ => 0, detail := fun a _ l => (l, a), addObs := fun a _ => a, addArr := fun a _ => a }
  sv := { reward := fun s _ => ([.fin 1], s),
          gen := fun s c => ([(0 : ℚ), 1].map (fun x => { targetId := 0, ra := (if memory then (100 * s.1 : ℚ) else 0) + 10 * s.2 + x, band := "r", filter := "r", flushBy := if valid = 0 then 0 else c + valid }), (s.1 + 1, s.2)),
          addObs := fun s _ => (s.1, s.2 + 1), addArr := fun s _ => s, update := fun s _ => s, scheduled := fun _ => none }
  toos := fun _ => none

def turnS : Core ℚ (ℕ × ℕ) Unit := Core.init () [[(0, 0)]] 0 true []

/-- The visit was made at `t`. -/
def madeAt (t : ℚ) : Turn ℚ := .made (fun o => { o with mjd := t })

/-- The places handed out by the wrapper and by the scheduler alone. -/
def bothPlaces (memory : Bool) (valid : ℚ) (ts : List (Turn ℚ)) : Option (List ℚ) × Option (List ℚ) :=
  ((turnVisits (aheadTurn (turnE memory valid) (fun _ _ => 0)) (Summit.init turnS) ts).map (List.map Obs.ra),
    (turnVisits (plainTurn (turnE memory valid)) turnS ts).map (List.map Obs.ra))

theorem turnE_meets : Plain (turnE false 0) ∧ Forgetful (turnE false 0).sv (fun v v' => v.2 = v'.2) ∧ ForgetfulQ (turnE false 0).q := by
  refine ⟨⟨fun _ _ o => ⟨o, rfl, rfl, rfl⟩, fun _ _ => by simp [turnE], ?_⟩, ⟨⟨fun _ => rfl, fun h => h.symm, fun h h' => h.trans h'⟩, ?_, ?_, ?_, ?_, ?_, ?_⟩,
    ⟨fun _ _ _ => rfl, ?_, fun _ _ _ _ => rfl⟩⟩
  · intro sv c o ho c'
    simp only [turnE, if_true, List.mem_map] at ho
    obtain ⟨ra, _, rfl⟩ := ho
    exact Or.inr rfl
  · intro v v' c h; rfl
  · intro v c; rfl
  · intro v v' c h
    simp only [turnE, h]
    rfl
  · intro v c; rfl
  · intro v c; rfl
  · intro v v' o o' h _
    simp only [turnE, h]
  · intro a c o o' h
    simp only [turnE, List.map_cons, List.map_nil, h]

/-- Non-vacuity: blocks of two, a visit given up, the ids of the two differ. -/
example : (∀ t, (madeAt t).Keeps) ∧
    bothPlaces false 0 [.update 60000, madeAt 60000, madeAt 60001, .update 60002, .lost, madeAt 60003, .update 60004, madeAt 60004, madeAt 60005] =
      (some [0, 1, 20, 20, 21, 40], some [0, 1, 20, 20, 21, 40]) ∧
    (turnVisits (aheadTurn (turnE false 0) (fun _ _ => 0)) (Summit.init turnS) [.update 60000, .lost, madeAt 60003]).map (List.map Obs.targetId) = some [0, 0] ∧
    (turnVisits (plainTurn (turnE false 0)) turnS [.update 60000, .lost, madeAt 60003]).map (List.map Obs.targetId) = some [0, 2] := by
  refine ⟨fun t o => ⟨rfl, fun o' h => ?_⟩, ?_⟩
  · unfold noId at h ⊢
    simp only [Obs.mk.injEq] at h ⊢
    tauto
  · refine ⟨?_, ?_, ?_⟩ <;> decide +kernel

/-- C214 fails for a survey that remembers being asked, such as one that turns its tessellation
at every call: the wrapper asks a copy that is thrown away, and so it starts from the same
turn every time. -/
theorem C214_memory_violated :
    bothPlaces true 0 [.update 60000, madeAt 60000, madeAt 60001, madeAt 60002, madeAt 60003, madeAt 60004] =
      (some [0, 1, 20, 21, 40], some [0, 1, 120, 121, 240]) := by decide +kernel

/-- C214 fails for visits that expire: the rest of a new block is forgotten by the wrapper. -/
theorem C214_expiry_violated :
    bothPlaces false 1 [.update 60000, madeAt 60000, .update 60100, madeAt 60100, madeAt 60101] = (some [0, 10, 20], some [0, 10, 11]) := by decide +kernel

end Verif
