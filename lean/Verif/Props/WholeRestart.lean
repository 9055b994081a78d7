import Verif.Props.WholeFollow

/-!
Property C207: a scheduler made anew and told of the visits of a simulation knows what the scheduler of the simulation knows.
-/

namespace Verif

open Whole Core

section
variable {C B Sv A H K F : Type}

/-- A follower that says also how a table of visits is taken in. -/
structure Batcher (E : Env C Sv A) (F : Type) extends Follower E F where
  batch : F → List Obs → F
  addArr_hears : ∀ s l, look (E.sv.addArr s l) = batch (look s) l

/-- A table with the rows of visits made at different times is sorted back to the order in which they were made. -/
theorem table_sorted {vs : List (Obs.Visit Obs)} (ho : vs.Pairwise fun a b => a.mjd ≤ b.mjd) (hd : (vs.map Obs.Visit.mjd).Nodup)
    {tab : List Obs} (hp : tab.Perm (vs.map told)) :
    (tab.map backfillBand).insertionSort (fun a b => a.mjd ≤ b.mjd) = vs.map madeRow := by
  have hrow : (vs.map told).map backfillBand = vs.map madeRow := by
    rw [List.map_map]
    exact List.map_congr_left fun v _ => backfill_told v
  have hperm : ((tab.map backfillBand).insertionSort (fun a b => a.mjd ≤ b.mjd)).Perm (vs.map madeRow) :=
    (List.perm_insertionSort _ _).trans (by rw [← hrow]; exact hp.map _)
  have hnd : ((vs.map madeRow).map Obs.mjd).Nodup := by
    rw [List.map_map]
    exact hd
  refine List.Perm.eq_of_pairwise (le := fun a b : Obs => a.mjd ≤ b.mjd) ?_ ?_ ?_ hperm
  · intro a b ha hb h1 h2
    exact List.inj_on_of_nodup_map hnd (hperm.mem_iff.1 ha) hb (le_antisymm h1 h2)
  · haveI : Std.Total (fun a b : Obs => a.mjd ≤ b.mjd) := ⟨fun a b => le_total a.mjd b.mjd⟩
    haveI : IsTrans Obs (fun a b : Obs => a.mjd ≤ b.mjd) := ⟨fun a b c h1 h2 => le_trans (α := ℚ) h1 h2⟩
    exact List.pairwise_insertionSort _ _
  · rw [List.pairwise_map]
    exact ho

/-- What the surveys of any scheduler know after being told of such a table. -/
theorem addArr_look {E : Env C Sv A} (R : Batcher E F) (r : Core C Sv A) {vs : List (Obs.Visit Obs)} (hne : vs ≠ [])
    (ho : vs.Pairwise fun a b => a.mjd ≤ b.mjd) (hd : (vs.map Obs.Visit.mjd).Nodup) {tab : List Obs} (hp : tab.Perm (vs.map told)) (f0 : F)
    (hr : ∀ t ∈ r.tiers, ∀ sv ∈ t, R.look sv = f0) (hb : R.batch f0 (vs.map madeRow) = (vs.map madeRow).foldl R.hear f0) :
    ∃ r' ev, r.addArr E tab = .ok (r', ev) ∧ lookAll R.toFollower r' = r.tiers.map fun t => t.map fun _ => (vs.map madeRow).foldl R.hear f0 := by
  have hs := table_sorted ho hd hp
  have hlen : tab.length = vs.length := by rw [hp.length_eq, List.length_map]
  have hpos : 0 < vs.length := List.length_pos_iff.2 hne
  rcases tab with _ | ⟨o, _ | ⟨o', tab⟩⟩
  · simp at hlen; omega
  · refine ⟨(r.addObs E o).1, (r.addObs E o).2, rfl, ?_⟩
    rw [addObs_look]
    have : vs.map madeRow = [backfillBand o] := by rw [← hs]; rfl
    rw [this]
    unfold lookAll
    rw [List.map_map]
    apply List.map_congr_left
    intro t ht
    simp only [Function.comp, List.map_map]
    apply List.map_congr_left
    intro sv hsv
    simp only [Function.comp, hr t ht sv hsv]
    rfl
  · unfold Core.addArr
    dsimp only
    rw [hs]
    cases hv : vs.map madeRow with
    | nil => rw [List.map_eq_nil_iff] at hv; exact absurd hv hne
    | cons a l =>
      refine ⟨_, _, rfl, ?_⟩
      unfold lookAll
      dsimp only
      rw [List.map_map]
      apply List.map_congr_left
      intro t ht
      simp only [Function.comp, List.map_map]
      apply List.map_congr_left
      intro sv hsv
      simp only [Function.comp, R.addArr_hears, hr t ht sv hsv, ← hv, hb]

/-- The surveys of a simulation and those of a scheduler told of its visits, from the same start. -/
theorem restart_each (S : Obs.Site) (hn : Obs.Nights S.nights) (hd : Down.Ordered S.downs) (M : Obs.Kin K Obs) (hM : Obs.NonNeg M) (fuel : ℕ)
    (conds : Obs.St K → C) (mount : K → B → K) (E : Env C Sv A) (R : Batcher E F) (X : Rest H C B) (hX : ∀ h v, 0 ≤ (X.overhead h v).2)
    (cfg : Sim.Cfg) (hstep : 0 ≤ cfg.stepNone) (h1 : 0 < cfg.startSize) (h2 : 0 < cfg.appendSize) (n : ℕ) (w : World (Core C Sv A × H) K)
    (conv : Obs → Feat.Vis) (hconv : ReadsVisit S conv) (one : F → Feat.Vis → F) (hone : ∀ f o, R.hear f o = one f (conv o)) (f0 : F)
    (r : Core C Sv A) (hshape : r.tiers.map List.length = w.sched.1.tiers.map List.length)
    (h0 : ∀ t ∈ w.sched.1.tiers ++ r.tiers, ∀ sv ∈ t, R.look sv = f0) :
    let s := (Sim.run (V := Obs.Visit Obs) (env S M fuel conds mount (coreSched E X)) cfg n w).st
    ∃ vs : List (Obs.Visit Obs), s.result = vs.map some ∧ Feat.Chrono (vs.map fun v => conv (madeRow v)) ∧ (vs ≠ [] → (vs.map Obs.Visit.mjd).Nodup →
      ∀ tab : List Obs, tab.Perm (vs.map told) → R.batch f0 (vs.map madeRow) = (vs.map madeRow).foldl R.hear f0 → ∃ r' ev, r.addArr E tab = .ok (r', ev)
        ∧ (r'.tiers.map fun t => t.map R.look) = s.w.sched.1.tiers.map fun t => t.map R.look) := by
  intro s
  obtain ⟨vs, hr, hc, -, -⟩ := followed_each S hn hd M hM fuel conds mount E R.toFollower X hX cfg hstep h1 h2 n w conv hconv one hone f0
    (fun t ht => h0 t (List.mem_append_left _ ht))
  obtain ⟨vs', hr', ht⟩ := C206_followed S hn hd M hM fuel conds mount E R.toFollower X hX cfg hstep h1 h2 n w
  have hvv : vs' = vs := List.map_injective_iff.2 (Option.some_injective _) (hr'.symm.trans hr)
  subst hvv
  refine ⟨vs', hr, hc, fun hne hnd tab hp hb => ?_⟩
  have ho : vs'.Pairwise fun a b => a.mjd ≤ b.mjd := by
    unfold Feat.Chrono at hc
    rw [List.pairwise_map] at hc
    refine hc.imp ?_
    intro a b hab
    have := hab.1
    rw [(hconv _).1, (hconv _).1] at this
    exact this
  obtain ⟨r', ev, hok, hl⟩ := addArr_look R r hne ho hnd hp f0 (fun t ht => h0 t (List.mem_append_right _ ht)) hb
  refine ⟨r', ev, hok, hl.trans (Eq.trans ?_ ht.symm)⟩
  have hconst : ∀ (T : List (List Sv)) (x : F), (T.map fun t => t.map fun _ => x) = (T.map List.length).map fun k => List.replicate k x := by
    intro T x
    rw [List.map_map]
    apply List.map_congr_left
    intro t _
    simp
  rw [hconst, hshape, ← hconst]
  apply List.map_congr_left
  intro t ht'
  apply List.map_congr_left
  intro sv hsv
  rw [h0 t (List.mem_append_left _ ht') sv hsv]

/-- C207 for the count of visits: a scheduler made anew with the same surveys and told of the visits of a simulation, in a table of any order, has in each survey the count that the
scheduler of the simulation has. Visits are at different times and there is at least one, bands are single letters. -/
theorem C207_count (S : Obs.Site) (hn : Obs.Nights S.nights) (hd : Down.Ordered S.downs) (M : Obs.Kin K Obs) (hM : Obs.NonNeg M) (fuel : ℕ)
    (conds : Obs.St K → C) (mount : K → B → K) (E : Env C Sv A) (R : Batcher E Feat.NObsCount) (X : Rest H C B) (hX : ∀ h v, 0 ≤ (X.overhead h v).2)
    (cfg : Sim.Cfg) (hstep : 0 ≤ cfg.stepNone) (h1 : 0 < cfg.startSize) (h2 : 0 < cfg.appendSize) (n : ℕ) (w : World (Core C Sv A × H) K)
    (conv : Obs → Feat.Vis) (hconv : ReadsVisit S conv) (c : Feat.NObsCount.Cfg)
    (hone : ∀ f o, R.hear f o = Feat.NObsCount.one c f (conv o)) (hbatch : ∀ f l, R.batch f l = Feat.NObsCount.bulk c f (l.map conv))
    (r : Core C Sv A) (hshape : r.tiers.map List.length = w.sched.1.tiers.map List.length)
    (h0 : ∀ t ∈ w.sched.1.tiers ++ r.tiers, ∀ sv ∈ t, R.look sv = Feat.NObsCount.init) :
    let s := (Sim.run (V := Obs.Visit Obs) (env S M fuel conds mount (coreSched E X)) cfg n w).st
    ∃ vs : List (Obs.Visit Obs), s.result = vs.map some ∧ (vs ≠ [] → (vs.map Obs.Visit.mjd).Nodup → (∀ b ∈ c.band, Feat.OneLetter b) → (∀ v ∈ vs, Feat.OneLetter (madeRow v).band) →
      ∀ tab : List Obs, tab.Perm (vs.map told) → ∃ r' ev, r.addArr E tab = .ok (r', ev)
        ∧ (r'.tiers.map fun t => t.map R.look) = s.w.sched.1.tiers.map fun t => t.map R.look) := by
  intro s
  obtain ⟨vs, hr, hc, hall⟩ := restart_each S hn hd M hM fuel conds mount E R X hX cfg hstep h1 h2 n w conv hconv (Feat.NObsCount.one c) hone (Feat.NObsCount.init) r hshape h0
  refine ⟨vs, hr, fun hne hnd hb1 hb2 tab hp => hall hne hnd tab hp ?_⟩
  have hlet : Feat.Letters c.band (vs.map fun v => conv (madeRow v)) := by
    refine ⟨hb1, ?_⟩
    intro v hv
    obtain ⟨u, hu, rfl⟩ := List.mem_map.1 hv
    rw [(hconv _).2.2.1]
    exact hb2 u hu
  rw [hbatch, List.map_map, show R.hear = fun f o => Feat.NObsCount.one c f (conv o) from by funext f o; exact hone f o, foldl_conv, List.map_map]
  have := C33_count_partial c [] (vs.map fun v => conv (madeRow v)) hc hlet (by simp)
  rw [List.foldl_nil, List.nil_append] at this
  exact this

/-- C207 for the last visit. -/
theorem C207_last (S : Obs.Site) (hn : Obs.Nights S.nights) (hd : Down.Ordered S.downs) (M : Obs.Kin K Obs) (hM : Obs.NonNeg M) (fuel : ℕ)
    (conds : Obs.St K → C) (mount : K → B → K) (E : Env C Sv A) (R : Batcher E (Option Feat.Vis)) (X : Rest H C B) (hX : ∀ h v, 0 ≤ (X.overhead h v).2)
    (cfg : Sim.Cfg) (hstep : 0 ≤ cfg.stepNone) (h1 : 0 < cfg.startSize) (h2 : 0 < cfg.appendSize) (n : ℕ) (w : World (Core C Sv A × H) K)
    (conv : Obs → Feat.Vis) (hconv : ReadsVisit S conv) (c : Feat.LastObs.Cfg)
    (hone : ∀ f o, R.hear f o = Feat.LastObs.one c f (conv o)) (hbatch : ∀ f l, R.batch f l = Feat.LastObs.bulk c f (l.map conv))
    (r : Core C Sv A) (hshape : r.tiers.map List.length = w.sched.1.tiers.map List.length)
    (h0 : ∀ t ∈ w.sched.1.tiers ++ r.tiers, ∀ sv ∈ t, R.look sv = none) :
    let s := (Sim.run (V := Obs.Visit Obs) (env S M fuel conds mount (coreSched E X)) cfg n w).st
    ∃ vs : List (Obs.Visit Obs), s.result = vs.map some ∧ (vs ≠ [] → (vs.map Obs.Visit.mjd).Nodup → 
      ∀ tab : List Obs, tab.Perm (vs.map told) → ∃ r' ev, r.addArr E tab = .ok (r', ev)
        ∧ (r'.tiers.map fun t => t.map R.look) = s.w.sched.1.tiers.map fun t => t.map R.look) := by
  intro s
  obtain ⟨vs, hr, hc, hall⟩ := restart_each S hn hd M hM fuel conds mount E R X hX cfg hstep h1 h2 n w conv hconv (Feat.LastObs.one c) hone (none) r hshape h0
  refine ⟨vs, hr, fun hne hnd tab hp => hall hne hnd tab hp ?_⟩
  rw [hbatch, List.map_map, show R.hear = fun f o => Feat.LastObs.one c f (conv o) from by funext f o; exact hone f o, foldl_conv, List.map_map]
  exact (C34_last_observation c [] (vs.map fun v => conv (madeRow v))).1

/-- C207 for the maps of counts, if the seeing is not at its limit and a visit does not cover a pixel twice. -/
theorem C207_pixels (S : Obs.Site) (hn : Obs.Nights S.nights) (hd : Down.Ordered S.downs) (M : Obs.Kin K Obs) (hM : Obs.NonNeg M) (fuel : ℕ)
    (conds : Obs.St K → C) (mount : K → B → K) (E : Env C Sv A) (R : Batcher E (ℕ → ℕ)) (X : Rest H C B) (hX : ∀ h v, 0 ≤ (X.overhead h v).2)
    (cfg : Sim.Cfg) (hstep : 0 ≤ cfg.stepNone) (h1 : 0 < cfg.startSize) (h2 : 0 < cfg.appendSize) (n : ℕ) (w : World (Core C Sv A × H) K)
    (conv : Obs → Feat.Vis) (hconv : ReadsVisit S conv) (c : Feat.NObservations.Cfg)
    (hone : ∀ f o, R.hear f o = Feat.NObservations.one c f (conv o)) (hbatch : ∀ f l, R.batch f l = Feat.NObservations.bulk c f (l.map conv))
    (r : Core C Sv A) (hshape : r.tiers.map List.length = w.sched.1.tiers.map List.length)
    (h0 : ∀ t ∈ w.sched.1.tiers ++ r.tiers, ∀ sv ∈ t, R.look sv = fun _ => 0) :
    let s := (Sim.run (V := Obs.Visit Obs) (env S M fuel conds mount (coreSched E X)) cfg n w).st
    ∃ vs : List (Obs.Visit Obs), s.result = vs.map some ∧ (vs ≠ [] → (vs.map Obs.Visit.mjd).Nodup → (∀ b ∈ c.band, Feat.OneLetter b) → (∀ v ∈ vs, Feat.OneLetter (madeRow v).band) →
      SeeingClear c (vs.map fun v => conv (madeRow v)) → (∀ o, (conv o).pix.Nodup) →
      ∀ tab : List Obs, tab.Perm (vs.map told) → ∃ r' ev, r.addArr E tab = .ok (r', ev)
        ∧ (r'.tiers.map fun t => t.map R.look) = s.w.sched.1.tiers.map fun t => t.map R.look) := by
  intro s
  obtain ⟨vs, hr, hc, hall⟩ := restart_each S hn hd M hM fuel conds mount E R X hX cfg hstep h1 h2 n w conv hconv (Feat.NObservations.one c) hone (fun _ => 0) r hshape h0
  refine ⟨vs, hr, fun hne hnd hb1 hb2 hs hf tab hp => hall hne hnd tab hp ?_⟩
  have hlet : Feat.Letters c.band (vs.map fun v => conv (madeRow v)) := by
    refine ⟨hb1, ?_⟩
    intro v hv
    obtain ⟨u, hu, rfl⟩ := List.mem_map.1 hv
    rw [(hconv _).2.2.1]
    exact hb2 u hu
  rw [hbatch, List.map_map, show R.hear = fun f o => Feat.NObservations.one c f (conv o) from by funext f o; exact hone f o, foldl_conv, List.map_map]
  have hf' : Feat.Footprints (vs.map fun v => conv (madeRow v)) := by
    intro v hv
    obtain ⟨u, _, rfl⟩ := List.mem_map.1 hv
    exact hf _
  exact (C33_per_pixel_partial c [] (vs.map fun v => conv (madeRow v)) hlet hf' hs).1

/-- C207 is violated by a simulation without visits: its table cannot be taken in. -/
theorem C207_empty_violated (E : Env C Sv A) (r : Core C Sv A) : r.addArr E [] = .error .emptyArray := rfl

end

/-- Surveys that only count. -/
def countEnv : Env ToyC Feat.NObsCount Unit where
  q := toyE.q
  sv := { reward := fun s _ => ([.fin s.count], s), gen := fun s _ => ([{ targetId := 0, band := "r" }], s),
          addObs := fun s o => Feat.NObsCount.one ⟨none, some "r", true⟩ s (toyConv o), addArr := fun s l => Feat.NObsCount.bulk ⟨none, some "r", true⟩ s (l.map toyConv),
          update := fun s _ => s, scheduled := fun _ => none }
  toos := ToyC.toos

/-- These meet what C206 and C207 ask for. -/
def countBatcher : Batcher countEnv Feat.NObsCount where
  look s := s
  hear f o := Feat.NObsCount.one ⟨none, some "r", true⟩ f (toyConv o)
  reward_keeps _ _ := rfl
  gen_keeps _ _ := rfl
  update_keeps _ _ := rfl
  addObs_hears _ _ := rfl
  batch f l := Feat.NObsCount.bulk ⟨none, some "r", true⟩ f (l.map toyConv)
  addArr_hears _ _ := rfl

/-- In this simulation two visits are made in a night, so both surveys count two, and two surveys told of the table of the visits, in the other order, too. -/
example : let s := (Sim.run (V := Obs.Visit Obs) (env toySite wholeKin 20 (fun s => (⟨s.mjd, none⟩ : ToyC)) (fun k _ => k) (coreSched countEnv wholeRest))
      { duration := 1 / 25, startSize := 2, appendSize := 2 } 20
      ⟨⟨0, 0, 40⟩, (Core.init () [[Feat.NObsCount.init, Feat.NObsCount.init]] 5 true [], ()), false⟩).st
    s.w.sched.1.tiers = [[⟨0, 2⟩, ⟨0, 2⟩]] ∧
    (match (Core.init () [[Feat.NObsCount.init, Feat.NObsCount.init]] 5 true []).addArr countEnv ((s.result.filterMap id).reverse.map told) with
      | .ok (r, _) => r.tiers
      | .error _ => []) = [[⟨0, 2⟩, ⟨0, 2⟩]] := by
  decide +kernel

end Verif
