import Verif.Props.WholeHeard
import Verif.Props.FeaturesCount
import Verif.Props.FeaturesLast

/-!
Property C206: what the features of a survey hold at the end of a whole simulation is given by the visits that the simulation returns.
-/

namespace Verif

open Whole Core

section
variable {C B Sv A H K F : Type}

/-- A part of the state of a survey that changes only when the survey hears of a visit, and then in the way of `hear`. -/
structure Follower (E : Env C Sv A) (F : Type) where
  look : Sv → F
  hear : F → Obs → F
  reward_keeps : ∀ s c, look (E.sv.reward s c).2 = look s
  gen_keeps : ∀ s c, look (E.sv.gen s c).2 = look s
  update_keeps : ∀ s c, look (E.sv.update s c) = look s
  addObs_hears : ∀ s o, look (E.sv.addObs s o) = hear (look s) o

/-- That part of all surveys, tier by tier. -/
def lookAll {E : Env C Sv A} (R : Follower E F) (s : Core C Sv A) : List (List F) := s.tiers.map fun t => t.map R.look

theorem evalTier_look {E : Env C Sv A} (R : Follower E F) (c : C) (t : List Sv) : (evalTier E.sv c t).2.map R.look = t.map R.look := by
  simp only [evalTier, List.map_map]
  apply List.map_congr_left
  intro v _
  simp only [Function.comp, R.reward_keeps]

theorem tierLoop_look {E : Env C Sv A} (R : Follower E F) (c : C) (ns : Nat) (tiers : List (List Sv))
    {rs : List XReal} {brk : Option Nat} {tiers' : List (List Sv)} (h : tierLoop E.sv c ns tiers = .ok (rs, brk, tiers')) :
    tiers'.map (fun t => t.map R.look) = tiers.map (fun t => t.map R.look) := by
  rcases tierLoop_spec E.sv c ns tiers h with ⟨_, _, ht, _⟩ | ⟨k, t, _, hk, _, _, _, ht⟩
  · rw [ht, List.map_map]
    apply List.map_congr_left
    intro t _
    exact evalTier_look R c t
  · have hsplit : tiers = tiers.take k ++ t :: tiers.drop (k + 1) := by
      have hlt : k < tiers.length := (List.getElem?_eq_some_iff.mp hk).1
      have hget : tiers[k] = t := (List.getElem?_eq_some_iff.mp hk).2
      rw [← hget]
      simp
    rw [ht]
    conv_rhs => rw [hsplit]
    rw [List.map_append, List.map_append, List.map_cons, List.map_cons, List.map_map, evalTier_look]
    congr 1
    apply List.map_congr_left
    intro t _
    exact evalTier_look R c t

theorem fillQueue_look {E : Env C Sv A} (R : Follower E F) {s s' : Core C Sv A} {ev : List Ev}
    (h : s.fillQueue E = .ok (s', ev)) : lookAll R s' = lookAll R s := by
  unfold fillQueue at h
  split at h
  · cases h
  · rename_i c hc
    split at h
    · cases h
    · rename_i rs brk tiers' hl
      have hr := tierLoop_look R c 0 s.tiers hl
      simp only at h
      split at h
      · cases h
      · split at h
        · cases h; exact hr
        · split at h
          · rename_i i0 i1 _
            split at h
            · cases h
            · rename_i tier hti
              split at h
              · cases h
              · rename_i sv hsv
                split at h
                · cases h
                · cases h
                  unfold lookAll
                  simp only
                  rw [List.map_set, List.map_set]
                  have h1 : (tier.map R.look)[i1]? = some (R.look (E.sv.gen sv c).2) := by
                    rw [List.getElem?_map, hsv, R.gen_keeps sv c]; rfl
                  rw [set_self_of_getElem? _ _ _ h1]
                  have h2 : (tiers'.map (fun t => t.map R.look))[i0]? = some (tier.map R.look) := by
                    rw [List.getElem?_map, hti]; rfl
                  rw [set_self_of_getElem? _ _ _ h2]
                  exact hr
          · cases h

theorem request_look {E : Env C Sv A} (R : Follower E F) {s s' : Core C Sv A} {m : Option ℚ} {w : Bool} {out : Option (List Obs)} {ev : List Ev}
    (h : s.step E (.request m w) = .ok (s', out, ev)) : lookAll R s' = lookAll R s := by
  obtain ⟨c, s1, ev1, _, hfirst, hrest⟩ := request_cases (m := m) h
  have h1 : lookAll R s1 = lookAll R s := by
    rcases hfirst with ⟨_, hf⟩ | ⟨_, rfl, _⟩
    · exact fillQueue_look R hf
    · rfl
  rcases hrest with ⟨_, rfl, _, _⟩ | ⟨_, _, rfl, _, _⟩ | ⟨_, _, s3, ev2, hf, rfl, _, _⟩
  · exact h1
  · exact h1
  · exact (fillQueue_look R hf).trans h1

theorem update_look {E : Env C Sv A} (R : Follower E F) (s : Core C Sv A) (c : C) : lookAll R (s.update E c) = lookAll R s := by
  have ht : (s.tooStep E c).tiers = s.tiers := by
    unfold tooStep
    split
    · split
      · rfl
      · simp only; split <;> rfl
    · rfl
  unfold lookAll Core.update
  simp only [ht, List.map_map]
  apply List.map_congr_left
  intro t _
  simp only [Function.comp, List.map_map]
  apply List.map_congr_left
  intro v _
  simp only [Function.comp, R.update_keeps]

theorem addObs_look {E : Env C Sv A} (R : Follower E F) (s : Core C Sv A) (o : Obs) :
    lookAll R (s.addObs E o).1 = (lookAll R s).map fun t => t.map fun f => R.hear f (backfillBand o) := by
  unfold lookAll Core.addObs
  simp only [List.map_map]
  apply List.map_congr_left
  intro t _
  simp only [Function.comp, List.map_map]
  apply List.map_congr_left
  intro v _
  simp only [Function.comp, R.addObs_hears]

/-- That part of the surveys is what the visits told make of `base`. -/
def FollowsTold {E : Env C Sv A} (R : Follower E F) (base : List (List F)) (p : World (Core C Sv A × H) K × List (Sim.Ev (Obs.Visit Obs) C B)) : Prop :=
  lookAll R p.1.sched.1 = base.map fun t => t.map fun f => ((Sim.toldOf p.2).map madeRow).foldl R.hear f

theorem FollowsTold.same {E : Env C Sv A} {R : Follower E F} {base : List (List F)} {p q : World (Core C Sv A × H) K × List (Sim.Ev (Obs.Visit Obs) C B)}
    (h : FollowsTold R base p) (ht : Sim.toldOf q.2 = Sim.toldOf p.2) (hs : lookAll R q.1.sched.1 = lookAll R p.1.sched.1) : FollowsTold R base q := by
  unfold FollowsTold
  rw [hs, ht]
  exact h

theorem followed_keeps (S : Obs.Site) (M : Obs.Kin K Obs) (fuel : ℕ) (conds : Obs.St K → C) (mount : K → B → K) (E : Env C Sv A) (R : Follower E F)
    (X : Rest H C B) (cfg : Sim.Cfg) (base : List (List F)) :
    Sim.Keeps (env S M fuel conds mount (coreSched E X)).recorded cfg (FollowsTold R base) (FollowsTold R base)
      (fun _ => FollowsTold R base) (fun _ => FollowsTold R base) := by
  have hsame : ∀ (w q : World (Core C Sv A × H) K × List (Sim.Ev (Obs.Visit Obs) C B)) e, FollowsTold R base w → q.2 = w.2 ++ [e] → Sim.toldOf [e] = [] →
      q.1.sched.1 = w.1.sched.1 → FollowsTold R base q := fun w q e h h1 h2 h3 => h.same (by rw [h1, told_one _ _ h2]) (by rw [h3])
  have hconds : ∀ w, FollowsTold R base w → FollowsTold R base ((env S M fuel conds mount (coreSched E X)).recorded.conds w).1 := fun w h => hsame w _ _ h rfl rfl rfl
  have hcheck : ∀ w x, FollowsTold R base w → FollowsTold R base ((env S M fuel conds mount (coreSched E X)).recorded.check w x).1 :=
    fun w x h => hsame w _ _ h rfl rfl rfl
  have hupdate : ∀ w c, FollowsTold R base w → FollowsTold R base ((env S M fuel conds mount (coreSched E X)).recorded.update w c) := fun w c h =>
    h.same (told_one _ _ rfl) (update_look R _ c)
  have hreq : ∀ (w : World (Core C Sv A × H) K × List (Sim.Ev (Obs.Visit Obs) C B)) x, FollowsTold R base w →
      FollowsTold R base ((env S M fuel conds mount (coreSched E X)).recorded.request w x).1 := by
    intro w x h
    show FollowsTold R base ((requestOf (coreSched E X) w.1 x).1, w.2 ++ [.request w.1.obs.mjd x (requestOf (coreSched E X) w.1 x).2])
    refine h.same (told_one _ _ rfl) ?_
    have hr : (coreSched E X).request w.1.sched x = (coreRequest E w.1.sched.1 x).map fun r => ((r.1, w.1.sched.2), r.2) := rfl
    dsimp only
    unfold requestOf
    rw [hr]
    unfold coreRequest
    cases hc : w.1.sched.1.request E (some x) false with
    | error e => rfl
    | ok r =>
      obtain ⟨s', l, ev⟩ := r
      exact request_look R (m := some x) (w := false) hc
  have hobs : ∀ (w : World (Core C Sv A × H) K × List (Sim.Ev (Obs.Visit Obs) C B)) v, FollowsTold R base w →
      FollowsTold R base ((env S M fuel conds mount (coreSched E X)).recorded.observe w v).1 := by
    intro w v h
    show FollowsTold R base ((observeOf S M fuel w.1 v).1, w.2 ++ [.observe w.1.obs.mjd v (observeOf S M fuel w.1 v).1.obs.mjd
      (observeOf S M fuel w.1 v).2.1 (observeOf S M fuel w.1 v).2.2])
    refine h.same (told_one _ _ rfl) ?_
    dsimp only
    unfold observeOf
    split <;> rfl
  refine ⟨hconds, hcheck, hupdate, fun w x h _ => hsame w _ _ h rfl rfl rfl, fun w v h => hsame w _ _ h rfl rfl rfl,
    fun w h => h.same (told_one _ _ rfl) rfl,
    fun w c h => hsame w _ _ h rfl rfl rfl, fun w b h => hsame w _ _ h rfl rfl rfl, fun w h => Sim.refresh_keeps hconds hcheck hupdate w h,
    ?_, ?_, ?_, ?_, fun w v h => hsame w _ _ h rfl rfl rfl, fun w v x h _ => hsame w _ _ h rfl rfl rfl, ?_⟩
  · intro w u h hr
    have := hreq w ((env S M fuel conds mount (coreSched E X)).recorded.clock w) h
    rw [hr] at this
    exact this
  · intro w u v h hr
    have := hreq w ((env S M fuel conds mount (coreSched E X)).recorded.clock w) h
    rw [hr] at this
    exact this
  · intro w v x nn h ho
    have := hobs w v h
    rw [ho] at this
    exact this
  · intro w v x v' nn h ho
    have := hobs w v h
    rw [ho] at this
    exact this
  · intro w v h
    have ht : Sim.toldOf ((env S M fuel conds mount (coreSched E X)).recorded.add w v).2 = Sim.toldOf w.2 ++ [v] := by
      show Sim.toldOf (w.2 ++ [.add w.1.obs.mjd v]) = _
      rw [Sim.toldOf_append]
      rfl
    have hs : ((env S M fuel conds mount (coreSched E X)).recorded.add w v).1.sched.1 = (w.1.sched.1.addObs E (told v)).1 := rfl
    unfold FollowsTold
    rw [hs, addObs_look, ht, backfill_told]
    unfold FollowsTold at h
    rw [h]
    simp [Function.comp_def]

/-- C206: at the end of a simulation with the core scheduler, any part of the surveys that changes only by hearing of visits (a feature) holds what the
visits returned, one after the other, make of what it held at the start: nothing that happened on the way, no request, no queue that was thrown away and
no change of the conditions has left a trace in it. -/
theorem C206_followed (S : Obs.Site) (hn : Obs.Nights S.nights) (hd : Down.Ordered S.downs) (M : Obs.Kin K Obs) (hM : Obs.NonNeg M) (fuel : ℕ)
    (conds : Obs.St K → C) (mount : K → B → K) (E : Env C Sv A) (R : Follower E F) (X : Rest H C B) (hX : ∀ h v, 0 ≤ (X.overhead h v).2)
    (cfg : Sim.Cfg) (hstep : 0 ≤ cfg.stepNone) (h1 : 0 < cfg.startSize) (h2 : 0 < cfg.appendSize) (n : ℕ) (w : World (Core C Sv A × H) K) :
    let s := (Sim.run (V := Obs.Visit Obs) (env S M fuel conds mount (coreSched E X)) cfg n w).st
    ∃ vs : List (Obs.Visit Obs), s.result = vs.map some ∧
      (s.w.sched.1.tiers.map fun t => t.map R.look) = w.sched.1.tiers.map fun t => t.map fun sv => (vs.map madeRow).foldl R.hear (R.look sv) := by
  intro s
  have Kc := whole_contract S hn hd M hM fuel conds mount (coreSched E X) (fun u v => hX _ _)
  obtain ⟨hres, hw, ht⟩ := recorded_result (env S M fuel conds mount (coreSched E X)) cfg h1 h2 n w
  have key : FollowsTold R (lookAll R w.sched.1) (Sim.run (V := Obs.Visit Obs) (env S M fuel conds mount (coreSched E X)).recorded cfg n (w, [])).st.w := by
    have h0 : ∀ p : World (Core C Sv A × H) K × List (Sim.Ev (Obs.Visit Obs) C B), p.1.sched.1 = w.sched.1 → Sim.toldOf p.2 = [] →
        FollowsTold R (lookAll R w.sched.1) p := by
      intro p hp hq
      unfold FollowsTold
      rw [hp, hq]
      simp
    refine Sim.run_keeps (Sim.recorded_contract Kc) hstep (followed_keeps S M fuel conds mount E R X cfg _) n (w, []) ?_ ?_
    · intro _
      exact h0 _ rfl rfl
    · intro m _
      exact h0 _ rfl rfl
  refine ⟨_, hres, ?_⟩
  unfold FollowsTold at key
  rw [ht, ← hw] at key
  unfold lookAll at key
  rw [List.map_map] at key
  simpa [Function.comp_def] using key

/-- How features read a visit: time, night, band and note; pixels and seeing in any way. -/
def ReadsVisit (S : Obs.Site) (conv : Obs → Feat.Vis) : Prop :=
  ∀ o, (conv o).mjd = o.mjd ∧ (conv o).night = ⌊o.mjd - S.mjdStart⌋ ∧ (conv o).band = o.band ∧ (conv o).note = o.schedulerNote

theorem foldl_conv {V : Type} (conv : Obs → V) (one : F → V → F) (l : List Obs) (f : F) :
    l.foldl (fun f o => one f (conv o)) f = (l.map conv).foldl one f := by
  rw [List.foldl_map]

/-- C206, at every survey: at the end of a simulation a feature that began empty holds what its updates make of the returned visits. -/
theorem followed_each (S : Obs.Site) (hn : Obs.Nights S.nights) (hd : Down.Ordered S.downs) (M : Obs.Kin K Obs) (hM : Obs.NonNeg M) (fuel : ℕ)
    (conds : Obs.St K → C) (mount : K → B → K) (E : Env C Sv A) (R : Follower E F) (X : Rest H C B) (hX : ∀ h v, 0 ≤ (X.overhead h v).2)
    (cfg : Sim.Cfg) (hstep : 0 ≤ cfg.stepNone) (h1 : 0 < cfg.startSize) (h2 : 0 < cfg.appendSize) (n : ℕ) (w : World (Core C Sv A × H) K)
    (conv : Obs → Feat.Vis) (hconv : ReadsVisit S conv) (one : F → Feat.Vis → F) (hone : ∀ f o, R.hear f o = one f (conv o))
    (f0 : F) (h0 : ∀ t ∈ w.sched.1.tiers, ∀ sv ∈ t, R.look sv = f0) :
    let s := (Sim.run (V := Obs.Visit Obs) (env S M fuel conds mount (coreSched E X)) cfg n w).st
    ∃ vs : List (Obs.Visit Obs), s.result = vs.map some ∧ Feat.Chrono (vs.map fun v => conv (madeRow v))
      ∧ (∀ v ∈ vs, (conv (madeRow v)).night = v.night) ∧ ∀ t ∈ s.w.sched.1.tiers, ∀ sv ∈ t, R.look sv = (vs.map fun v => conv (madeRow v)).foldl one f0 := by
  intro s
  obtain ⟨vs, hr, ht⟩ := C206_followed S hn hd M hM fuel conds mount E R X hX cfg hstep h1 h2 n w
  obtain ⟨vs', hr', hp, -, he⟩ := C183_visits S hn hd M hM fuel conds mount (coreSched E X) (fun u v => hX _ _) cfg hstep h1 h2 n w
  have hvv : vs' = vs := List.map_injective_iff.2 (Option.some_injective _) (hr'.symm.trans hr)
  subst hvv
  refine ⟨vs', hr, ?_, ?_, ?_⟩
  · unfold Feat.Chrono
    rw [List.pairwise_map]
    refine (List.Pairwise.and_mem.1 hp).imp ?_
    rintro a b ⟨ha, hb, hab⟩
    obtain ⟨-, -, -, -, -, -, ha2⟩ := he a ha
    obtain ⟨-, -, -, -, -, hb1, -⟩ := he b hb
    have hle : a.mjd ≤ b.mjd := by linarith
    rw [(hconv _).1, (hconv _).1, (hconv _).2.1, (hconv _).2.1]
    exact ⟨hle, Int.floor_mono (by show a.mjd - S.mjdStart ≤ b.mjd - S.mjdStart; linarith)⟩
  · intro v hv
    rw [(hconv _).2.1, (he v hv).2.2.2.2.1]
    rfl
  · intro t htm sv hsv
    have hmem : R.look sv ∈ t.map R.look := List.mem_map_of_mem hsv
    have htm' : t.map R.look ∈ s.w.sched.1.tiers.map fun t => t.map R.look := List.mem_map_of_mem htm
    rw [ht] at htm'
    obtain ⟨t0, ht0, hte⟩ := List.mem_map.1 htm'
    rw [← hte] at hmem
    obtain ⟨sv0, hsv0, hse⟩ := List.mem_map.1 hmem
    rw [← hse, h0 t0 ht0 sv0 hsv0, show R.hear = fun f o => one f (conv o) from by funext f o; exact hone f o, foldl_conv, List.map_map]
    rfl

/-- C206 for the count of visits: at the end of a simulation each survey's count is the number of visits returned with the wanted band and note, in the whole
simulation or, if asked for, in the night of the last visit. Bands are single letters. -/
theorem C206_count (S : Obs.Site) (hn : Obs.Nights S.nights) (hd : Down.Ordered S.downs) (M : Obs.Kin K Obs) (hM : Obs.NonNeg M) (fuel : ℕ)
    (conds : Obs.St K → C) (mount : K → B → K) (E : Env C Sv A) (R : Follower E Feat.NObsCount) (X : Rest H C B) (hX : ∀ h v, 0 ≤ (X.overhead h v).2)
    (cfg : Sim.Cfg) (hstep : 0 ≤ cfg.stepNone) (h1 : 0 < cfg.startSize) (h2 : 0 < cfg.appendSize) (n : ℕ) (w : World (Core C Sv A × H) K)
    (conv : Obs → Feat.Vis) (hconv : ReadsVisit S conv) (c : Feat.NObsCount.Cfg) (hone : ∀ f o, R.hear f o = Feat.NObsCount.one c f (conv o))
    (h0 : ∀ t ∈ w.sched.1.tiers, ∀ sv ∈ t, R.look sv = Feat.NObsCount.init) :
    let s := (Sim.run (V := Obs.Visit Obs) (env S M fuel conds mount (coreSched E X)) cfg n w).st
    ∃ vs : List (Obs.Visit Obs), s.result = vs.map some ∧ ((∀ b ∈ c.band, Feat.OneLetter b) → (∀ v ∈ vs, Feat.OneLetter (madeRow v).band) →
      ∀ t ∈ s.w.sched.1.tiers, ∀ sv ∈ t, (R.look sv).count = vs.countP fun v => decide (c.perNight = true → ∀ l ∈ vs.getLast?, v.night = l.night)
        && decide (∀ b ∈ c.band, (madeRow v).band = b) && decide (∀ m ∈ c.note, Feat.isIn m v.target.schedulerNote)) := by
  intro s
  obtain ⟨vs, hr, hc, hnight, hl⟩ := followed_each S hn hd M hM fuel conds mount E R X hX cfg hstep h1 h2 n w conv hconv (Feat.NObsCount.one c) hone _ h0
  refine ⟨vs, hr, fun hb1 hb2 t ht sv hsv => ?_⟩
  rw [hl t ht sv hsv]
  cases hlast : vs.getLast? with
  | none =>
    rw [List.getLast?_eq_none_iff.1 hlast]
    rfl
  | some l =>
    have hlast' : (vs.map fun v => conv (madeRow v)).getLast? = some (conv (madeRow l)) := by rw [List.getLast?_map, hlast]; rfl
    have hlet : Feat.Letters c.band (vs.map fun v => conv (madeRow v)) := by
      refine ⟨hb1, ?_⟩
      intro v hv
      obtain ⟨u, hu, rfl⟩ := List.mem_map.1 hv
      rw [(hconv _).2.2.1]
      exact hb2 u hu
    rw [C70_count c _ _ hlast' hc hlet, List.countP_map]
    apply List.countP_congr
    intro v hv
    have hlm : l ∈ vs := List.mem_of_getLast? hlast
    simp only [Function.comp, Feat.InBand, hnight v hv, hnight l hlm, (hconv _).2.2.1, (hconv _).2.2.2, Option.mem_def, Option.some.injEq, forall_eq']
    rfl

/-- C206 for the last visit: at the end of a simulation each survey holds the last of the visits returned with the wanted band and note, or none. -/
theorem C206_last (S : Obs.Site) (hn : Obs.Nights S.nights) (hd : Down.Ordered S.downs) (M : Obs.Kin K Obs) (hM : Obs.NonNeg M) (fuel : ℕ)
    (conds : Obs.St K → C) (mount : K → B → K) (E : Env C Sv A) (R : Follower E (Option Feat.Vis)) (X : Rest H C B) (hX : ∀ h v, 0 ≤ (X.overhead h v).2)
    (cfg : Sim.Cfg) (hstep : 0 ≤ cfg.stepNone) (h1 : 0 < cfg.startSize) (h2 : 0 < cfg.appendSize) (n : ℕ) (w : World (Core C Sv A × H) K)
    (conv : Obs → Feat.Vis) (hconv : ReadsVisit S conv) (c : Feat.LastObs.Cfg) (hone : ∀ f o, R.hear f o = Feat.LastObs.one c f (conv o))
    (h0 : ∀ t ∈ w.sched.1.tiers, ∀ sv ∈ t, R.look sv = none) :
    let s := (Sim.run (V := Obs.Visit Obs) (env S M fuel conds mount (coreSched E X)) cfg n w).st
    ∃ vs : List (Obs.Visit Obs), s.result = vs.map some ∧ ∀ t ∈ s.w.sched.1.tiers, ∀ sv ∈ t,
      R.look sv = ((vs.filter fun v => decide (∀ b ∈ c.band, (madeRow v).band = b) && decide (∀ m ∈ c.note, Feat.isIn m v.target.schedulerNote)).getLast?).map
        fun v => conv (madeRow v) := by
  intro s
  obtain ⟨vs, hr, -, -, hl⟩ := followed_each S hn hd M hM fuel conds mount E R X hX cfg hstep h1 h2 n w conv hconv (Feat.LastObs.one c) hone _ h0
  refine ⟨vs, hr, fun t ht sv hsv => ?_⟩
  have := (C34_last_observation c [] (vs.map fun v => conv (madeRow v))).2
  rw [List.nil_append] at this
  rw [hl t ht sv hsv, this, List.filter_map, List.getLast?_map]
  congr 2
  apply List.filter_congr
  intro v _
  simp only [Function.comp, Feat.InBand, (hconv _).2.2.1, (hconv _).2.2.2]
  rfl

open Classical in
/-- C206 for the maps of counts: at the end of a simulation each survey has, for each pixel, the number of visits returned that count there. Bands are single
letters, and the seeing is not at its limit. -/
theorem C206_pixels (S : Obs.Site) (hn : Obs.Nights S.nights) (hd : Down.Ordered S.downs) (M : Obs.Kin K Obs) (hM : Obs.NonNeg M) (fuel : ℕ)
    (conds : Obs.St K → C) (mount : K → B → K) (E : Env C Sv A) (R : Follower E (ℕ → ℕ)) (X : Rest H C B) (hX : ∀ h v, 0 ≤ (X.overhead h v).2)
    (cfg : Sim.Cfg) (hstep : 0 ≤ cfg.stepNone) (h1 : 0 < cfg.startSize) (h2 : 0 < cfg.appendSize) (n : ℕ) (w : World (Core C Sv A × H) K)
    (conv : Obs → Feat.Vis) (hconv : ReadsVisit S conv) (c : Feat.NObservations.Cfg) (hone : ∀ f o, R.hear f o = Feat.NObservations.one c f (conv o))
    (h0 : ∀ t ∈ w.sched.1.tiers, ∀ sv ∈ t, R.look sv = fun _ => 0) :
    let s := (Sim.run (V := Obs.Visit Obs) (env S M fuel conds mount (coreSched E X)) cfg n w).st
    ∃ vs : List (Obs.Visit Obs), s.result = vs.map some ∧ ((∀ b ∈ c.band, Feat.OneLetter b) → (∀ v ∈ vs, Feat.OneLetter (madeRow v).band) →
      SeeingClear c (vs.map fun v => conv (madeRow v)) →
      ∀ t ∈ s.w.sched.1.tiers, ∀ sv ∈ t, ∀ p, R.look sv p = vs.countP fun v => decide (Counts c p (conv (madeRow v)))) := by
  intro s
  obtain ⟨vs, hr, -, -, hl⟩ := followed_each S hn hd M hM fuel conds mount E R X hX cfg hstep h1 h2 n w conv hconv (Feat.NObservations.one c) hone _ h0
  refine ⟨vs, hr, fun hb1 hb2 hs t ht sv hsv p => ?_⟩
  have hlet : Feat.Letters c.band (vs.map fun v => conv (madeRow v)) := by
    refine ⟨hb1, ?_⟩
    intro v hv
    obtain ⟨u, hu, rfl⟩ := List.mem_map.1 hv
    rw [(hconv _).2.2.1]
    exact hb2 u hu
  rw [hl t ht sv hsv, nObservations_foldl c p _ _ hlet hs, List.countP_map]
  simp only [zero_add]
  rfl

end

/-- How the features of the example read a visit. -/
def toyConv (o : Obs) : Feat.Vis := ⟨0, o.mjd, ⌊o.mjd - toySite.mjdStart⌋, o.band, o.schedulerNote, "", none, 0, o.ra, o.dec, [3, o.payload]⟩

example : ReadsVisit toySite toyConv := fun _ => ⟨rfl, rfl, rfl, rfl⟩

/-- Any feature of visits heard of follows, in surveys that are a log. -/
def logFollower {F : Type} (one : F → Feat.Vis → F) (f0 : F) : Follower logEnv F where
  look s := (s.1.map toyConv).foldl one f0
  hear f o := one f (toyConv o)
  reward_keeps _ _ := rfl
  gen_keeps _ _ := rfl
  update_keeps _ _ := rfl
  addObs_hears s o := by
    show ((s.1 ++ [o]).map toyConv).foldl one f0 = _
    rw [List.map_append, List.foldl_append]
    rfl

/-- In this simulation of one night two visits are made, and both surveys count two. -/
example : ((Sim.run (V := Obs.Visit Obs) (env toySite wholeKin 20 (fun s => (⟨s.mjd, none⟩ : ToyC)) (fun k _ => k) (coreSched logEnv wholeRest))
      { duration := 1 / 25, startSize := 2, appendSize := 2 } 20
      ⟨⟨0, 0, 40⟩, (Core.init () [[([], []), ([], [])]] 5 true [], ()), false⟩).st.w.sched.1.tiers.map fun t =>
        t.map fun sv => ((logFollower (Feat.NObsCount.one ⟨none, some "r", true⟩) Feat.NObsCount.init).look sv).count)
    = [[2, 2]] := by
  decide +kernel

end Verif
