import Verif.Props.WholeShift
import Verif.Lemmas.SimProject

/-!
Property C263 for the core scheduler.
-/

namespace Verif

open Whole

section
variable {U U' K K' O O' C C' B : Type}

/-- What a scheduler keeps once it holds. -/
structure SchedKeeps (D : Sched U O C B) (P : U → Prop) : Prop where
  update : ∀ u c, P u → P (D.update u c)
  request : ∀ u x u' r, P u → D.request u x = some (u', r) → P u'
  add : ∀ u v, P u → P (D.add u v)
  bandAdd : ∀ u v, P u → P (D.bandAdd u v)
  flush : ∀ u, P u → P (D.flush u)
  bands : ∀ u c, P u → P (D.bands u c).1
  overhead : ∀ u v, P u → P (D.overhead u v).1

open Classical in
/-- The state `u'`, if it is one of those. -/
noncomputable def keep {P : U → Prop} (u : { u // P u }) (u' : U) : { u // P u } := if h : P u' then ⟨u', h⟩ else u

theorem keep_val {P : U → Prop} (u : { u // P u }) {u' : U} (h : P u') : (keep u u').1 = u' := by
  unfold keep
  rw [dif_pos h]

/-- The scheduler on such states only. -/
noncomputable def restrict (D : Sched U O C B) (P : U → Prop) : Sched { u // P u } O C B where
  hasConds u := D.hasConds u.1
  check u x := D.check u.1 x
  update u c := keep u (D.update u.1 c)
  request u x := (D.request u.1 x).map fun r => (keep u r.1, r.2)
  add u v := keep u (D.add u.1 v)
  bandAdd u v := keep u (D.bandAdd u.1 v)
  flush u := keep u (D.flush u.1)
  bands u c := (keep u (D.bands u.1 c).1, (D.bands u.1 c).2)
  overhead u v := (keep u (D.overhead u.1 v).1, (D.overhead u.1 v).2)

/-- The world with states of the scheduler that are not restricted. -/
def worldOf {P : U → Prop} (w : World { u // P u } K) : World U K := ⟨w.obs, w.sched.1, w.raised⟩

theorem restrict_project {D : Sched U O C B} {P : U → Prop} (h : SchedKeeps D P) (S : Obs.Site) (M : Obs.Kin K O) (fuel : ℕ) (conds : Obs.St K → C) (mount : K → B → K) :
    Sim.Project (env S M fuel conds mount (restrict D P)) (env S M fuel conds mount D) worldOf where
  clock _ := rfl
  set _ _ := rfl
  conds _ := rfl
  hasConds _ := rfl
  check _ _ := rfl
  update w := by
    show World.mk _ (D.update w.sched.1 _) _ = World.mk _ (keep w.sched (D.update w.sched.1 _)).1 _
    rw [keep_val _ (h.update _ _ w.sched.2)]
    rfl
  request w x := by
    show requestOf D (worldOf w) x = (worldOf (requestOf (restrict D P) w x).1, (requestOf (restrict D P) w x).2)
    unfold requestOf
    have h0 : (restrict D P).request w.sched x = (D.request w.sched.1 x).map fun r => (keep w.sched r.1, r.2) := rfl
    have h1 : D.request (worldOf w).sched x = D.request w.sched.1 x := rfl
    rw [h0, h1]
    cases hr : D.request w.sched.1 x with
    | none => rfl
    | some r =>
      obtain ⟨u, r⟩ := r
      dsimp only [Option.map_some, worldOf]
      rw [keep_val _ (h.request _ _ _ _ w.sched.2 hr)]
  observe w v := by
    show observeOf S M fuel (worldOf w) v = (worldOf (observeOf S M fuel w v).1, (observeOf S M fuel w v).2)
    unfold observeOf
    show (match Obs.observe S M fuel w.obs v.target with | .error _ => _ | .ok (s, r, nn) => _) = _
    rcases Obs.observe S M fuel w.obs v.target with e | ⟨s, r, nn⟩ <;> rfl
  overhead w v := by
    show (World.mk _ (D.overhead w.sched.1 v).1 _, _) = (World.mk _ (keep w.sched (D.overhead w.sched.1 v).1).1 _, _)
    rw [keep_val _ (h.overhead _ _ w.sched.2)]
    rfl
  add w v := by
    show World.mk _ (D.add w.sched.1 v) _ = World.mk _ (keep w.sched (D.add w.sched.1 v)).1 _
    rw [keep_val _ (h.add _ _ w.sched.2)]
    rfl
  bandAdd w v := by
    show World.mk _ (D.bandAdd w.sched.1 v) _ = World.mk _ (keep w.sched (D.bandAdd w.sched.1 v)).1 _
    rw [keep_val _ (h.bandAdd _ _ w.sched.2)]
    rfl
  flush w := by
    show World.mk _ (D.flush w.sched.1) _ = World.mk _ (keep w.sched (D.flush w.sched.1)).1 _
    rw [keep_val _ (h.flush _ w.sched.2)]
    rfl
  bands w c := by
    show (World.mk _ (D.bands w.sched.1 c).1 _, _) = (World.mk _ (keep w.sched (D.bands w.sched.1 c).1).1 _, _)
    rw [keep_val _ (h.bands _ _ w.sched.2)]
    rfl
  mount _ _ := rfl

/-- A scheduler that does not know the origin of time in states with `P`. -/
structure SchedLaterOn (P : U' → Prop) (D' : Sched U' O' C' B) (D : Sched U O C B) (σ : U' → U) (τ : O' → O) (χ : C' → C) (d : ℚ) : Prop where
  hasConds : ∀ u, P u → D.hasConds (σ u) = D'.hasConds u
  check : ∀ u x, P u → D.check (σ u) (x + d) = D'.check u x
  update : ∀ u c, P u → D.update (σ u) (χ c) = σ (D'.update u c)
  request : ∀ u x, P u → D.request (σ u) (x + d) = (D'.request u x).map fun r => (σ r.1, r.2.map τ)
  add : ∀ u v, P u → D.add (σ u) (visitLater τ d v) = σ (D'.add u v)
  bandAdd : ∀ u v, P u → D.bandAdd (σ u) (visitLater τ d v) = σ (D'.bandAdd u v)
  flush : ∀ u, P u → D.flush (σ u) = σ (D'.flush u)
  bands : ∀ u c, P u → D.bands (σ u) (χ c) = (σ (D'.bands u c).1, (D'.bands u c).2)
  overhead : ∀ u v, P u → D.overhead (σ u) (visitLater τ d v) = (σ (D'.overhead u v).1, (D'.overhead u v).2)

theorem restrict_later {P : U' → Prop} {D' : Sched U' O' C' B} {D : Sched U O C B} {σ : U' → U} {τ : O' → O} {χ : C' → C} {d : ℚ}
    (h : SchedKeeps D' P) (hS : SchedLaterOn P D' D σ τ χ d) : SchedLater (restrict D' P) D (fun u => σ u.1) τ χ d where
  hasConds u := hS.hasConds _ u.2
  check u x := hS.check _ _ u.2
  update u c := by
    show _ = σ (keep u (D'.update u.1 c)).1
    rw [keep_val _ (h.update _ _ u.2), hS.update _ _ u.2]
  request u x := by
    rw [hS.request _ _ u.2]
    show _ = ((D'.request u.1 x).map fun r => (keep u r.1, r.2)).map _
    cases hr : D'.request u.1 x with
    | none => rfl
    | some r =>
      obtain ⟨u', r⟩ := r
      dsimp only [Option.map_some]
      rw [keep_val _ (h.request _ _ _ _ u.2 hr)]
  add u v := by
    show _ = σ (keep u (D'.add u.1 v)).1
    rw [keep_val _ (h.add _ _ u.2), hS.add _ _ u.2]
  bandAdd u v := by
    show _ = σ (keep u (D'.bandAdd u.1 v)).1
    rw [keep_val _ (h.bandAdd _ _ u.2), hS.bandAdd _ _ u.2]
  flush u := by
    show _ = σ (keep u (D'.flush u.1)).1
    rw [keep_val _ (h.flush _ u.2), hS.flush _ u.2]
  bands u c := by
    show _ = (σ (keep u (D'.bands u.1 c).1).1, (D'.bands u.1 c).2)
    rw [keep_val _ (h.bands _ _ u.2), hS.bands _ _ u.2]
  overhead u v := by
    show _ = (σ (keep u (D'.overhead u.1 v).1).1, (D'.overhead u.1 v).2)
    rw [keep_val _ (h.overhead _ _ u.2), hS.overhead _ _ u.2]

end

/-- A completed visit as the scheduler is told of it, later by `d`. -/
def toldLater (d : ℚ) (o : Obs) : Obs := { o with mjd := o.mjd + d }

section
variable {C B Sv A H K K' : Type}

/-- Surveys, masks and detailers that only look at differences of times, and visits that do not expire: `φ`, `α` and `χ` move their states and the conditions by `d`. -/
structure CoreLater (E : Env C Sv A) (φ : Sv → Sv) (α : A → A) (χ : C → C) (d : ℚ) : Prop where
  reward : ∀ s c, E.sv.reward (φ s) (χ c) = ((E.sv.reward s c).1, φ (E.sv.reward s c).2)
  gen : ∀ s c, E.sv.gen (φ s) (χ c) = ((E.sv.gen s c).1, φ (E.sv.gen s c).2)
  heard : ∀ s o, E.sv.addObs (φ s) (toldLater d o) = φ (E.sv.addObs s o)
  update : ∀ s c, E.sv.update (φ s) (χ c) = φ (E.sv.update s c)
  scheduled : ∀ s, E.sv.scheduled (φ s) = (E.sv.scheduled s).map (List.map (· + d))
  mjd : ∀ c, E.q.mjdOf (χ c) = E.q.mjdOf c + d
  mask : ∀ a c, E.q.reward (α a) (χ c) = E.q.reward a c
  detail : ∀ a c l, E.q.detail (α a) (χ c) l = ((E.q.detail a c l).1, α (E.q.detail a c l).2)
  noted : ∀ a o, E.q.addObs (α a) (toldLater d o) = α (E.q.addObs a o)
  toos : ∀ c, E.toos (χ c) = E.toos c
  lasting : ∀ s c, ∀ o ∈ (E.sv.gen s c).1, o.flushBy = 0

/-- The core scheduler, later by `d`. -/
def Core.later (φ : Sv → Sv) (α : A → A) (χ : C → C) (d : ℚ) (s : Core C Sv A) : Core C Sv A :=
  { s with qm := { s.qm with aux := α s.qm.aux }, tiers := s.tiers.map (List.map φ), conditions := s.conditions.map χ, scheduled := s.scheduled.map (· + d) }

/-- No visit of the queue expires. -/
def Lasts (s : Core C Sv A) : Prop := ∀ o ∈ s.qm.desired, o.flushBy = 0

variable {E : Env C Sv A} {φ : Sv → Sv} {α : A → A} {χ : C → C} {d : ℚ}

theorem verdict_lasts {l : List Obs} (h : ∀ o ∈ l, o.flushBy = 0) (x y : ℚ) : QM.mjdVerdict l x = QM.mjdVerdict l y := by
  have key : ∀ z, QM.mjdVerdict l z = l.map fun _ => true := by
    intro z
    unfold QM.mjdVerdict
    have hlen : (leA Tol.default (l.map fun o => (z, o.flushBy))).length = l.length := by
      unfold leA checkLimit
      rw [List.length_map]
      cases minOrderOfMag (l.map fun o => (z, o.flushBy)) with
      | none => simp
      | some om => dsimp only; split_ifs <;> simp
    generalize leA Tol.default (l.map fun o => (z, o.flushBy)) = bs at hlen
    clear x y z
    induction l generalizing bs with
    | nil => cases bs <;> rfl
    | cons o os ih =>
      cases bs with
      | nil => cases hlen
      | cons b bs =>
        rw [List.zipWith_cons_cons, List.map_cons, ih (fun o ho => h o (List.mem_cons_of_mem _ ho)) bs (by simpa using hlen), h o List.mem_cons_self]
        simp
  rw [key, key]

theorem findValid_later (h : CoreLater E φ α χ d) (q : QM A) (hq : ∀ o ∈ q.desired, o.flushBy = 0) (c : C) (x : ℚ) :
    ({ q with aux := α q.aux } : QM A).findValid E.q (χ c) (x + d) = q.findValid E.q c x := by
  unfold QM.findValid
  dsimp only
  rw [verdict_lasts hq (x + d) x, h.mask]

theorem qrequest_later (h : CoreLater E φ α χ d) (q : QM A) (hq : ∀ o ∈ q.desired, o.flushBy = 0) (c : C) (whole : Bool) :
    ({ q with aux := α q.aux } : QM A).request E.q (χ c) whole = ((q.request E.q c whole).1, { (q.request E.q c whole).2 with aux := α (q.request E.q c whole).2.aux }) := by
  unfold QM.request
  rw [h.mjd, findValid_later h q hq]
  dsimp only
  generalize (if whole then q.findValid E.q c (E.q.mjdOf c) else _) = indx
  split_ifs
  · simp only [h.detail]
  · rfl

theorem evalTier_later (h : CoreLater E φ α χ d) (c : C) (t : List Sv) : evalTier E.sv (χ c) (t.map φ) = ((evalTier E.sv c t).1, (evalTier E.sv c t).2.map φ) := by
  unfold evalTier
  simp only [List.map_map, Function.comp_def, h.reward]

theorem tierLoop_later (h : CoreLater E φ α χ d) (c : C) (ts : List (List Sv)) : ∀ n, tierLoop E.sv (χ c) n (ts.map (List.map φ))
    = (tierLoop E.sv c n ts).map fun r => (r.1, r.2.1, r.2.2.map (List.map φ)) := by
  induction ts with
  | nil => intro n; rfl
  | cons t ts ih =>
    intro n
    rw [List.map_cons]
    unfold tierLoop
    rw [evalTier_later h, ih]
    rcases evalTier E.sv c t with ⟨rs, t'⟩
    dsimp only
    cases XReal.nanmax rs with
    | none => rfl
    | some m =>
      dsimp only
      by_cases hm : XReal.ltB .ninf m = true
      · rw [if_pos hm, if_pos hm]
        rfl
      · rw [if_neg hm, if_neg hm]
        rcases tierLoop E.sv c (n + 1) ts with e | ⟨rs', ix, rest'⟩
        · rfl
        · dsimp only [Except.map]
          cases ts <;> rfl

theorem fillQueue_later (h : CoreLater E φ α χ d) (s : Core C Sv A) :
    (s.later φ α χ d).fillQueue E = (s.fillQueue E).map fun r => (r.1.later φ α χ d, r.2) := by
  obtain ⟨qm, tiers, counter, ix, conditions, sched, flushToo, ids, dict⟩ := s
  obtain ⟨Q, ⟨rew, gen, heard, arr, upd, due⟩, toos⟩ := E
  unfold Core.fillQueue Core.later
  cases conditions with
  | none => rfl
  | some c =>
    dsimp only [Option.map_some]
    rw [tierLoop_later h]
    generalize tierLoop _ c 0 tiers = walk
    rcases walk with e | ⟨rs, brk, tiers'⟩
    · rfl
    · dsimp only [Except.map]
      cases XReal.nanmax rs with
      | none => rfl
      | some m =>
        dsimp only
        by_cases hm : m = .ninf ∨ m = .nan
        · rw [if_pos hm, if_pos hm]; rfl
        · rw [if_neg hm, if_neg hm]
          cases brk with
          | none => rfl
          | some i0 =>
            cases bestIndex (rs.map fixNan) with
            | none => rfl
            | some i1 =>
              dsimp only
              rw [List.getElem?_map]
              cases tiers'[i0]? with
              | none => rfl
              | some tier =>
                dsimp only [Option.map_some]
                rw [List.getElem?_map]
                cases tier[i1]? with
                | none => rfl
                | some sv =>
                  dsimp only [Option.map_some]
                  have hg : gen (φ sv) (χ c) = ((gen sv c).1, φ (gen sv c).2) := h.gen sv c
                  rw [hg]
                  dsimp only
                  cases fillFilters dict (tagIds counter (gen sv c).1) with
                  | error e => rfl
                  | ok filled =>
                    dsimp only
                    simp only [List.map_set]
                    rfl

theorem tagIds_lasts {l : List Obs} : ∀ n, (∀ o ∈ l, o.flushBy = 0) → ∀ o ∈ tagIds n l, o.flushBy = 0 := by
  induction l with
  | nil => intro n _ o ho; cases ho
  | cons a l ih =>
    intro n h o ho
    unfold tagIds at ho
    rcases List.mem_cons.1 ho with rfl | ho
    · exact h a List.mem_cons_self
    · exact ih (n + 1) (fun o ho => h o (List.mem_cons_of_mem _ ho)) o ho

theorem fillFilters_lasts {dict : List (String × String)} {l : List Obs} : ∀ {l'}, fillFilters dict l = .ok l' → (∀ o ∈ l, o.flushBy = 0) → ∀ o ∈ l', o.flushBy = 0 := by
  induction l with
  | nil => intro l' h _ o ho; cases h; cases ho
  | cons a l ih =>
    intro l' h hl o ho
    unfold fillFilters at h
    cases ha : fillFilter dict a with
    | error e => rw [ha] at h; cases h
    | ok a' =>
      rw [ha] at h
      dsimp only at h
      cases hr : fillFilters dict l with
      | error e => rw [hr] at h; cases h
      | ok r =>
        rw [hr] at h
        cases h
        rcases List.mem_cons.1 ho with rfl | ho
        · have h0 := hl a List.mem_cons_self
          unfold fillFilter at ha
          split_ifs at ha
          · cases hd : dict.lookup a.band with
            | none => rw [hd] at ha; cases ha
            | some f => rw [hd] at ha; cases ha; exact h0
          · cases ha; exact h0
        · exact ih hr (fun o ho => hl o (List.mem_cons_of_mem _ ho)) o ho

theorem fillQueue_lasts (h : CoreLater E φ α χ d) {s s' : Core C Sv A} {ev : List Ev} (hf : s.fillQueue E = .ok (s', ev)) : Lasts s' := by
  unfold Core.fillQueue at hf
  cases hc : s.conditions with
  | none => rw [hc] at hf; cases hf
  | some c =>
    rw [hc] at hf
    dsimp only at hf
    rcases ht : tierLoop E.sv c 0 s.tiers with e | ⟨rs, brk, tiers'⟩
    · rw [ht] at hf; cases hf
    · rw [ht] at hf
      dsimp only at hf
      cases hm : XReal.nanmax rs with
      | none => rw [hm] at hf; cases hf
      | some m =>
        rw [hm] at hf
        dsimp only at hf
        split_ifs at hf
        · cases hf
          intro o ho
          cases ho
        · split at hf
          · split at hf
            · cases hf
            · split at hf
              · cases hf
              · rename_i sv _
                split at hf
                · cases hf
                · rename_i filled hfl
                  cases hf
                  exact fillFilters_lasts hfl (tagIds_lasts _ (h.lasting sv c))
          · cases hf

theorem qrequest_desired (q : QM A) (Q : QEnv C A) (c : C) (whole : Bool) : (q.request Q c whole).2.desired = q.desired := by
  unfold QM.request
  dsimp only
  split_ifs <;> rfl

theorem core_request_later (h : CoreLater E φ α χ d) (s : Core C Sv A) (hs : Lasts s) (x y : Option ℚ) (whole : Bool) :
    (s.later φ α χ d).request E y whole = (s.request E x whole).map fun r => (r.1.later φ α χ d, r.2) := by
  unfold Core.request
  show (match s.conditions.map χ with | none => _ | some c => _) = _
  cases s.conditions with
  | none => rfl
  | some c =>
    dsimp only [Option.map_some]
    have hfirst : (if (s.later φ α χ d).qm.nonePending then (s.later φ α χ d).fillQueue E else .ok (s.later φ α χ d, []))
        = (if s.qm.nonePending then s.fillQueue E else .ok (s, [])).map fun r => (r.1.later φ α χ d, r.2) := by
      show (if s.qm.nonePending then _ else _) = _
      split_ifs
      · exact fillQueue_later h s
      · rfl
    rw [hfirst]
    have hl1 : ∀ s1 ev, (if s.qm.nonePending then s.fillQueue E else .ok (s, [])) = .ok (s1, ev) → Lasts s1 := by
      intro s1 ev he
      split_ifs at he
      · exact fillQueue_lasts h he
      · cases he; exact hs
    generalize (if s.qm.nonePending then s.fillQueue E else .ok (s, [])) = first at hl1
    rcases first with e | ⟨s1, ev1⟩
    · rfl
    · have hl := hl1 s1 ev1 rfl
      dsimp only [Except.map]
      show (if s1.qm.nonePending then _ else _) = _
      by_cases hp : s1.qm.nonePending = true
      · rw [if_pos hp, if_pos hp]
      · rw [if_neg hp, if_neg hp]
        have hq : (s1.later φ α χ d).qm.request E.q (χ c) whole = _ := qrequest_later h s1.qm hl c whole
        rw [hq]
        dsimp only
        by_cases hz : (s1.qm.request E.q c whole).1.length = 0
        · rw [if_pos hz, if_pos hz]
          have hf : ({ s1.later φ α χ d with qm := ({ (s1.qm.request E.q c whole).2 with aux := α (s1.qm.request E.q c whole).2.aux } : QM A).flush } : Core C Sv A).fillQueue E = _ :=
            fillQueue_later h { s1 with qm := (s1.qm.request E.q c whole).2.flush }
          rw [hf]
          rcases hf3 : ({ s1 with qm := (s1.qm.request E.q c whole).2.flush } : Core C Sv A).fillQueue E with e | ⟨s3, ev3⟩
          · rfl
          · dsimp only [Except.map]
            have hq3 : (s3.later φ α χ d).qm.request E.q (χ c) whole = _ := qrequest_later h s3.qm (fillQueue_lasts h hf3) c whole
            rw [hq3]
            dsimp only
            by_cases hz3 : (s3.qm.request E.q c whole).1.length = 0
            · rw [if_pos hz3, if_pos hz3]; rfl
            · rw [if_neg hz3, if_neg hz3]; rfl
        · rw [if_neg hz, if_neg hz]; rfl

theorem core_request_lasts (h : CoreLater E φ α χ d) {s : Core C Sv A} (hs : Lasts s) {x : Option ℚ} {whole : Bool} {s' : Core C Sv A} {l : Option (List Obs)} {ev : List Ev}
    (hr : s.request E x whole = .ok (s', l, ev)) : Lasts s' := by
  unfold Core.request at hr
  cases hc : s.conditions with
  | none => rw [hc] at hr; cases hr
  | some c =>
    rw [hc] at hr
    dsimp only at hr
    have hl1 : ∀ s1 ev, (if s.qm.nonePending then s.fillQueue E else .ok (s, [])) = .ok (s1, ev) → Lasts s1 := by
      intro s1 ev he
      split_ifs at he
      · exact fillQueue_lasts h he
      · cases he; exact hs
    generalize (if s.qm.nonePending then s.fillQueue E else .ok (s, [])) = first at hl1 hr
    rcases first with e | ⟨s1, ev1⟩
    · cases hr
    · have hl := hl1 s1 ev1 rfl
      dsimp only at hr
      by_cases hp : s1.qm.nonePending = true
      · rw [if_pos hp] at hr; cases hr; exact hl
      · rw [if_neg hp] at hr
        by_cases hz : (s1.qm.request E.q c whole).1.length = 0
        · rw [if_pos hz] at hr
          rcases hf3 : ({ s1 with qm := (s1.qm.request E.q c whole).2.flush } : Core C Sv A).fillQueue E with e | ⟨s3, ev3⟩
          · rw [hf3] at hr; cases hr
          · rw [hf3] at hr
            have h3 := fillQueue_lasts h hf3
            have h4 : Lasts { s3 with qm := (s3.qm.request E.q c whole).2 } := by
              intro o ho
              rw [show ({ s3 with qm := (s3.qm.request E.q c whole).2 } : Core C Sv A).qm.desired = s3.qm.desired from qrequest_desired _ _ _ _] at ho
              exact h3 o ho
            dsimp only at hr
            by_cases hz3 : (s3.qm.request E.q c whole).1.length = 0
            · rw [if_pos hz3] at hr; cases hr; exact h4
            · rw [if_neg hz3] at hr; cases hr; exact h4
        · rw [if_neg hz] at hr
          cases hr
          intro o ho
          rw [show ({ s1 with qm := (s1.qm.request E.q c whole).2 } : Core C Sv A).qm.desired = s1.qm.desired from qrequest_desired _ _ _ _] at ho
          exact hl o ho

theorem backfill_later (o : Obs) : backfillBand (toldLater d o) = toldLater d (backfillBand o) := by
  unfold backfillBand
  show (if o.band = "" then _ else _) = _
  split_ifs <;> rfl

theorem addObs_parts (q : QM A) (Q : QEnv C A) (o : Obs) : q.addObs Q o = ⟨q.desired, if q.desired.length > 0 then (q.mark o).need else q.need, Q.addObs q.aux o⟩ := by
  unfold QM.addObs
  dsimp only
  split_ifs <;> rfl

theorem core_addObs_later (h : CoreLater E φ α χ d) (s : Core C Sv A) (o : Obs) : ((s.later φ α χ d).addObs E (toldLater d o)).1 = (s.addObs E o).1.later φ α χ d := by
  unfold Core.addObs
  rw [backfill_later]
  generalize backfillBand o = o
  have hq : (s.later φ α χ d).qm.addObs E.q (toldLater d o) = { s.qm.addObs E.q o with aux := α (s.qm.addObs E.q o).aux } := by
    rw [addObs_parts, addObs_parts, show (s.later φ α χ d).qm.aux = α s.qm.aux from rfl, h.noted]
    rfl
  show Core.mk ((s.later φ α χ d).qm.addObs E.q (toldLater d o)) ((s.tiers.map (List.map φ)).map fun t => t.map fun v => E.sv.addObs v (toldLater d o)) (Core.bump s.counter o.targetId) _ _ _ _ _ _ = _
  rw [hq]
  have ht : ((s.tiers.map (List.map φ)).map fun t => t.map fun v => E.sv.addObs v (toldLater d o)) = (s.tiers.map fun t => t.map fun v => E.sv.addObs v o).map (List.map φ) := by
    simp only [List.map_map, Function.comp_def, h.heard]
  rw [ht]
  rfl

theorem gather_later (h : CoreLater E φ α χ d) (ts : List (List Sv)) (x : ℚ) : Core.gatherScheduled E (ts.map (List.map φ)) (x + d) = (Core.gatherScheduled E ts x).map (· + d) := by
  unfold Core.gatherScheduled
  dsimp only
  have h1 : ((ts.map (List.map φ)).flatten.filterMap fun v => E.sv.scheduled v).flatten = ((ts.flatten.filterMap fun v => E.sv.scheduled v).flatten).map (· + d) := by
    rw [← List.map_flatten, List.filterMap_map, List.map_flatten, List.map_filterMap]
    congr 1
    apply List.filterMap_congr
    intro v _
    exact h.scheduled v
  rw [h1]
  generalize (ts.flatten.filterMap fun v => E.sv.scheduled v).flatten = l
  have h2 : (l.map (· + d)).insertionSort (fun a b => a ≤ b) = (l.insertionSort fun a b => a ≤ b).map (· + d) := by
    symm
    apply List.map_insertionSort
    intro a _ b _
    exact (add_le_add_iff_right d).symm
  rw [h2, List.filter_map]
  congr 1
  apply List.filter_congr
  intro t _
  simp

theorem core_update_later (h : CoreLater E φ α χ d) (s : Core C Sv A) (c : C) : (s.later φ α χ d).update E (χ c) = (s.update E c).later φ α χ d := by
  have htoo : (s.later φ α χ d).tooStep E (χ c) = (s.tooStep E c).later φ α χ d := by
    unfold Core.tooStep
    rw [h.toos]
    show (if s.flushForNewToo then _ else _) = _
    split_ifs
    · cases E.toos c with
      | none => rfl
      | some ts =>
        dsimp only
        show (if (ts.filter fun t => !s.tooIds.contains t.1).any (fun t => t.2) then _ else _) = _
        split_ifs <;> rfl
    · rfl
  unfold Core.update
  rw [htoo]
  generalize s.tooStep E c = s1
  have ht : ((s1.later φ α χ d).tiers.map fun t => t.map fun v => E.sv.update v (χ c)) = (s1.tiers.map fun t => t.map fun v => E.sv.update v c).map (List.map φ) := by
    show ((s1.tiers.map (List.map φ)).map fun t => t.map fun v => E.sv.update v (χ c)) = _
    simp only [List.map_map, Function.comp_def, h.update]
  dsimp only
  rw [ht, h.mjd, gather_later h]
  rfl

/-- What stands beside the core scheduler, and only looks at differences of times. -/
structure RestLater (X : Rest H C B) (η : H → H) (χ : C → C) (d : ℚ) : Prop where
  bandAdd : ∀ u v, X.bandAdd (η u) ⟨v.target, v.mjd + d, v.night, v.ID, v.slewtime, v.visittime⟩ = η (X.bandAdd u v)
  bands : ∀ u c, X.bands (η u) (χ c) = (η (X.bands u c).1, (X.bands u c).2)
  overhead : ∀ u v, X.overhead (η u) ⟨v.target, v.mjd + d, v.night, v.ID, v.slewtime, v.visittime⟩ = (η (X.overhead u v).1, (X.overhead u v).2)

theorem update_lasts {s : Core C Sv A} (hs : Lasts s) (c : C) : Lasts (s.update E c) := by
  have h1 : Lasts (s.tooStep E c) := by
    unfold Core.tooStep
    split_ifs
    · cases E.toos c with
      | none => exact hs
      | some ts =>
        dsimp only
        split_ifs
        · intro o ho
          cases ho
        · exact hs
    · exact hs
  intro o ho
  exact h1 o ho

theorem addObs_lasts {s : Core C Sv A} (hs : Lasts s) (o : Obs) : Lasts (s.addObs E o).1 := by
  intro p hp
  have e : (s.addObs E o).1.qm.desired = s.qm.desired := by
    show (s.qm.addObs E.q _).desired = _
    unfold QM.addObs
    dsimp only
    split_ifs <;> rfl
  rw [e] at hp
  exact hs p hp

theorem core_kept (h : CoreLater E φ α χ d) (X : Rest H C B) : SchedKeeps (coreSched E X) fun u => Lasts u.1 where
  update u c hu := update_lasts hu c
  request u x u' r hu hr := by
    change (coreRequest E u.1 x).map (fun r => ((r.1, u.2), r.2)) = some (u', r) at hr
    unfold coreRequest at hr
    rcases hq : u.1.request E (some x) false with e | ⟨s', l, ev⟩
    · rw [hq] at hr
      cases hr
    · rw [hq] at hr
      cases hr
      exact core_request_lasts h hu hq
  add u v hu := addObs_lasts hu _
  bandAdd _ _ hu := hu
  flush u hu := by
    intro o ho
    cases ho
  bands _ _ hu := hu
  overhead _ _ hu := hu

theorem core_later (h : CoreLater E φ α χ d) {X : Rest H C B} {η : H → H} (hX : RestLater X η χ d) :
    SchedLaterOn (fun u => Lasts u.1) (coreSched E X) (coreSched E X) (fun u => (u.1.later φ α χ d, η u.2)) id χ d where
  hasConds u _ := by
    show (u.1.conditions.map χ).isSome = _
    rw [Option.isSome_map]
    rfl
  check u x hu := by
    show (match u.1.conditions.map χ with | none => _ | some c => _) = coreCheck E u.1 x
    unfold coreCheck
    cases u.1.conditions with
    | none => rfl
    | some c =>
      show QM.checkQueueMjdOnly _ _ _ _ = _
      unfold QM.checkQueueMjdOnly
      rw [show (u.1.later φ α χ d).qm.findValid E.q (χ c) (x + d) = _ from findValid_later h u.1.qm hu c x]
  update u c _ := by
    show ((u.1.later φ α χ d).update E (χ c), η u.2) = _
    rw [core_update_later h]
    rfl
  request u x hu := by
    show (coreRequest E (u.1.later φ α χ d) (x + d)).map _ = ((coreRequest E u.1 x).map _).map _
    unfold coreRequest
    rw [core_request_later h u.1 hu (some x)]
    rcases u.1.request E (some x) false with e | ⟨s', l, ev⟩
    · rfl
    · simp [Except.map]
  add u v _ := by
    show (((u.1.later φ α χ d).addObs E (toldLater d (told v))).1, η u.2) = _
    rw [core_addObs_later h]
    rfl
  bandAdd u v _ := by
    show (_, X.bandAdd (η u.2) _) = _
    exact congrArg _ (hX.bandAdd u.2 v)
  flush _ _ := rfl
  bands u c _ := by
    show ((_, (X.bands (η u.2) (χ c)).1), (X.bands (η u.2) (χ c)).2) = _
    rw [hX.bands]
    rfl
  overhead u v _ := by
    show ((_, (X.overhead (η u.2) (visitLater id d v)).1), (X.overhead (η u.2) (visitLater id d v)).2) = _
    rw [show X.overhead (η u.2) (visitLater id d v) = _ from hX.overhead u.2 v]
    rfl

/-- **C263 (partial)** for the core scheduler: a simulation with surveys, masks, detailers and a telescope that only look at differences of times, and whose visits do not expire, does not
depend on the origin of time. The visits are the same, each `d` later, the surveys are at the end what they would be `d` later, and the queue and the numbering are the same. Missing: as for `C263_origin_partial`. -/
theorem C263_core_partial {S : Obs.Site} {M' : Obs.Kin K' Obs} {M : Obs.Kin K Obs} {κ : K' → K} (hn : Obs.Nights S.nights) (hd : Down.Ordered S.downs) (hM : Obs.NonNeg M')
    {X : Rest H C B} (hover : ∀ u v, 0 ≤ (X.overhead u v).2) (hK : KinLater M' M κ id d) (h : CoreLater E φ α χ d) {η : H → H} (hX : RestLater X η χ d)
    (fuel : ℕ) (conds' : Obs.St K' → C) (conds : Obs.St K → C) (hc : ∀ s : Obs.St K', conds ⟨s.mjd + d, κ s.kin, s.nextId⟩ = χ (conds' s)) (mount' : K' → B → K') (mount : K → B → K)
    (hm : ∀ k b, mount (κ k) b = κ (mount' k b)) (cfg : Sim.Cfg) (hstep : 0 ≤ cfg.stepNone) (n : ℕ) (w : World (Core C Sv A × H) K') (hw : ∀ o ∈ w.sched.1.qm.desired, o.flushBy = 0)
    (h0 : -1 < cfg.simStart.getD w.obs.mjd) (h1 : -1 < cfg.simStart.getD w.obs.mjd + d) :
    let a := Sim.run (V := Obs.Visit Obs) (env S M' fuel conds' mount' (coreSched E X)) cfg n w
    let b := Sim.run (V := Obs.Visit Obs) (env (siteLater d S) M fuel conds mount (coreSched E X)) { cfg with simStart := cfg.simStart.map (· + d) } n
      ⟨⟨w.obs.mjd + d, κ w.obs.kin, w.obs.nextId⟩,
        ({ w.sched.1 with
            qm := { w.sched.1.qm with aux := α w.sched.1.qm.aux }
            tiers := w.sched.1.tiers.map (List.map φ)
            conditions := w.sched.1.conditions.map χ
            scheduled := w.sched.1.scheduled.map (· + d) }, η w.sched.2), w.raised⟩
    b.kind = a.kind ∧ b.st.mjd = a.st.mjd + d ∧ b.st.nskip = a.st.nskip
      ∧ b.st.result = a.st.result.map (Option.map fun v => ⟨v.target, v.mjd + d, v.night, v.ID, v.slewtime, v.visittime⟩)
      ∧ b.st.w.obs.mjd = a.st.w.obs.mjd + d ∧ b.st.w.obs.kin = κ a.st.w.obs.kin ∧ b.st.w.obs.nextId = a.st.w.obs.nextId
      ∧ b.st.w.sched.1.tiers = a.st.w.sched.1.tiers.map (List.map φ) ∧ b.st.w.sched.1.qm.desired = a.st.w.sched.1.qm.desired ∧ b.st.w.sched.1.qm.need = a.st.w.sched.1.qm.need
      ∧ b.st.w.sched.1.counter = a.st.w.sched.1.counter ∧ b.st.w.sched.1.scheduled = a.st.w.sched.1.scheduled.map (· + d) ∧ b.st.w.sched.2 = η a.st.w.sched.2
      ∧ b.st.w.raised = a.st.w.raised := by
  intro a b
  have key := C263_origin_partial (S := S) (D' := restrict (coreSched E X) fun u => Lasts u.1) (D := coreSched E X) hn hd hM (fun u v => hover u.1.2 v) hK
    (restrict_later (core_kept h X) (core_later h hX)) fuel conds' conds hc mount' mount hm cfg hstep n ⟨w.obs, ⟨w.sched, hw⟩, w.raised⟩ h0 h1
  have proj : a = (Sim.run (V := Obs.Visit Obs) (env S M' fuel conds' mount' (restrict (coreSched E X) fun u => Lasts u.1)) cfg n ⟨w.obs, ⟨w.sched, hw⟩, w.raised⟩).map worldOf :=
    Sim.run_project (V := Obs.Visit Obs) (restrict_project (core_kept h X) S M' fuel conds' mount') cfg n ⟨w.obs, ⟨w.sched, hw⟩, w.raised⟩
  rw [proj]
  generalize Sim.run (V := Obs.Visit Obs) (env S M' fuel conds' mount' (restrict (coreSched E X) fun u => Lasts u.1)) cfg n ⟨w.obs, ⟨w.sched, hw⟩, w.raised⟩ = o at key
  obtain ⟨k1, k2, k3, k4, k5, k6, k7, k8, k9⟩ := key
  change b.kind = _ at k1
  change b.st.mjd = _ at k2
  change b.st.nskip = _ at k3
  change b.st.result = _ at k4
  change b.st.w.obs.mjd = _ at k5
  change b.st.w.obs.kin = _ at k6
  change b.st.w.obs.nextId = _ at k7
  change b.st.w.sched = _ at k8
  change b.st.w.raised = _ at k9
  rw [k1, k2, k3, k4, k5, k6, k7, k8, k9]
  cases o <;> exact ⟨rfl, rfl, rfl, rfl, rfl, rfl, rfl, rfl, rfl, rfl, rfl, rfl, rfl, rfl⟩

end

/-- Surveys that wait an hour after each visit they hear of and know the time of the last one: they ask for two visits that do not expire. -/
def paceEnv : Env ToyC ℚ Unit where
  q := toyE.q
  sv :=
    { reward := fun s c => ([if c.mjd - s < 1 / 24 then .ninf else .fin 1], s)
      gen := fun s _ => ([{ targetId := 0, band := "r" }, { targetId := 0, ra := 1, band := "g" }], s)
      addObs := fun s o => if s < o.mjd then o.mjd else s
      addArr := fun s _ => s
      update := fun s _ => s
      scheduled := fun s => some [s + 1 / 3] }
  toos := fun _ => none

/-- They only look at differences of times. -/
theorem paceEnv_later (d : ℚ) : CoreLater paceEnv (· + d) id (fun c => ⟨c.mjd + d, c.toos⟩) d where
  reward s c := by
    show ([if c.mjd + d - (s + d) < 1 / 24 then XReal.ninf else .fin 1], s + d) = _
    rw [add_sub_add_right_eq_sub]
    rfl
  gen _ _ := rfl
  heard s o := by
    show (if s + d < o.mjd + d then o.mjd + d else s + d) = (if s < o.mjd then o.mjd else s) + d
    by_cases h : s < o.mjd
    · rw [if_pos h, if_pos (by linarith)]
    · rw [if_neg h, if_neg (by linarith)]
  update _ _ := rfl
  scheduled s := by
    show some [s + d + 1 / 3] = some [s + 1 / 3 + d]
    rw [add_right_comm]
  mjd _ := rfl
  mask _ _ := rfl
  detail _ _ _ := rfl
  noted _ _ := rfl
  toos _ := rfl
  lasting s c o ho := by
    change o ∈ [({ targetId := 0, band := "r" } : Obs), { targetId := 0, ra := 1, band := "g" }] at ho
    simp only [List.mem_cons, List.not_mem_nil, or_false] at ho
    rcases ho with rfl | rfl <;> rfl

theorem wholeRest_later (d : ℚ) : RestLater wholeRest id (fun c => ⟨c.mjd + d, c.toos⟩) d := ⟨fun _ _ => rfl, fun _ _ => rfl, fun _ _ => rfl⟩

theorem wholeKin_later (d : ℚ) : KinLater wholeKin wholeKin (· + d) id d := ⟨fun _ => rfl, fun _ => rfl, fun _ _ _ => rfl, fun _ _ _ => rfl⟩

/-- What comes out with everything later by `d`: how the simulation ends, times and numbers of the visits, and what the surveys know. -/
def paceCoreOut (d : ℚ) : ℕ × List (ℚ × ℤ × ℤ) × List (List ℚ) × List ℚ :=
  let o := Sim.run (V := Obs.Visit Obs) (env (siteLater d toySite) wholeKin 60 (fun s => (⟨s.mjd, none⟩ : ToyC)) (fun k _ => k) (coreSched paceEnv wholeRest))
    { duration := 1 / 4, startSize := 2, appendSize := 2 } 60
    ⟨⟨d, d, 40⟩, (Core.init () [[d], [d - 1 / 50, d]] 7 true [], ()), false⟩
  (o.kind, (o.st.result.filterMap id).map fun v => (v.mjd, v.night, v.target.targetId), o.st.w.sched.1.tiers, o.st.w.sched.1.scheduled)

/-- A simulation with three surveys, and the same later by a thousand days. -/
example : paceCoreOut 1000 = ((paceCoreOut 0).1, (paceCoreOut 0).2.1.map (fun v => (v.1 + 1000, v.2)), (paceCoreOut 0).2.2.1.map (List.map (· + 1000)), (paceCoreOut 0).2.2.2.map (· + 1000))
    ∧ (paceCoreOut 0).1 = 0 ∧ 4 ≤ (paceCoreOut 0).2.1.length := by
  decide +kernel

end Verif
