import Verif.Lemmas.SimShift
import Verif.Props.WholeEnds

/-!
Property C263: a simulation does not depend on the origin of time.
-/

namespace Verif

open Whole

/-- The same intervals, later by `d`. -/
def ivLater (d : ℚ) (r : ℚ × ℚ) : ℚ × ℚ := (r.1 + d, r.2 + d)

/-- The same site with everything later by `d`. -/
def siteLater (d : ℚ) (S : Obs.Site) : Obs.Site :=
  { S with cloud := fun t => S.cloud (t - d), nights := S.nights.map (ivLater d), downs := S.downs.map (ivLater d), mjdStart := S.mjdStart + d }

section
variable {d : ℚ} {S : Obs.Site}

theorem lastStarted_later (l : List (ℚ × ℚ)) (t : ℚ) : Obs.lastStarted (l.map (ivLater d)) (t + d) = Obs.lastStarted l t := by
  unfold Obs.lastStarted
  rw [List.takeWhile_map, List.length_map]
  have : ((fun r : ℚ × ℚ => decide (r.1 ≤ t + d)) ∘ ivLater d) = fun r => decide (r.1 ≤ t) := by
    funext r
    show decide (r.1 + d ≤ t + d) = _
    simp only [add_le_add_iff_right]
  rw [this]

theorem row_later (l : List (ℚ × ℚ)) (i : ℤ) : Obs.row (l.map (ivLater d)) i = (Obs.row l i).map (ivLater d) := by
  unfold Obs.row
  rw [List.length_map]
  dsimp only
  simp only [List.getElem?_map]
  split_ifs
  · cases l[i.toNat]? <;> rfl
  · cases l[((l.length : ℤ) + i).toNat]? <;> rfl
  · rfl

theorem checkUp_later (t : ℚ) : Obs.checkUp (siteLater d S) (t + d) = (Obs.checkUp S t).map fun r => (r.1, r.2 + d) := by
  unfold Obs.checkUp siteLater
  dsimp only
  rw [lastStarted_later, row_later]
  split_ifs
  · cases Obs.row S.downs (Obs.lastStarted S.downs t) with
    | error e => rfl
    | ok r =>
      dsimp only [Except.map]
      show (if t + d < r.2 + d then _ else _) = _
      simp only [add_lt_add_iff_right]
      split_ifs <;> rfl
  · rfl

theorem cloud_later (t : ℚ) : (siteLater d S).cloud (t + d) = S.cloud t := by
  show S.cloud (t + d - d) = _
  rw [add_sub_cancel_right]

theorem skipClouds_later (n : ℕ) : ∀ t, Obs.skipClouds (siteLater d S) n (t + d) = (Obs.skipClouds S n t).map (· + d) := by
  induction n with
  | zero =>
    intro t
    unfold Obs.skipClouds
    rw [cloud_later]
    show (if S.cloudLimit < _ then _ else _) = _
    split_ifs <;> rfl
  | succ n ih =>
    intro t
    unfold Obs.skipClouds
    rw [cloud_later, add_right_comm, ih]
    show (if S.cloudLimit < _ then _ else _) = _
    split_ifs <;> rfl

theorem nightPart_later (p : Bool) (t t1 : ℚ) : Obs.nightPart (siteLater d S) p (t + d) (t1 + d) = (Obs.nightPart S p t t1).map fun r => (r.1, r.2 + d) := by
  unfold Obs.nightPart siteLater
  dsimp only
  rw [lastStarted_later, row_later, row_later]
  cases Obs.row S.nights (Obs.lastStarted S.nights t) with
  | error e => rfl
  | ok n =>
    simp only [Except.map, bind, Except.bind, pure, Except.pure, ivLater, add_lt_add_iff_right]
    cases Obs.row S.nights (Obs.lastStarted S.nights t + 1) with
    | error e => split_ifs <;> rfl
    | ok m => split_ifs <;> rfl

theorem screen_later (n : ℕ) (t : ℚ) : Obs.screen (siteLater d S) n (t + d) = (Obs.screen S n t).map fun r => (r.1, r.2 + d) := by
  unfold Obs.screen
  rw [skipClouds_later, cloud_later, checkUp_later]
  cases Obs.skipClouds S n t with
  | error e => rfl
  | ok t1 =>
    have hp := nightPart_later (d := d) (S := S) (!decide (S.cloudLimit < S.cloud t)) t t1
    have hl : (siteLater d S).cloudLimit = S.cloudLimit := rfl
    simp only [Except.map, bind, Except.bind, hl]
    rw [hp]
    cases Obs.nightPart S (!decide (S.cloudLimit < S.cloud t)) t t1 with
    | error e => rfl
    | ok r =>
      dsimp only [Except.map]
      cases Obs.checkUp S t with
      | error e => rfl
      | ok u =>
        obtain ⟨_ | _, x⟩ := u <;> rfl

theorem check_later (n : ℕ) : (∀ t, Obs.checkMjd (siteLater d S) n (t + d) = (Obs.checkMjd S n t).map fun r => (r.1, r.2 + d))
    ∧ ∀ t, Obs.search (siteLater d S) n (t + d) = (Obs.search S n t).map (· + d) := by
  induction n with
  | zero => exact ⟨fun _ => by simp only [Obs.checkMjd]; rfl, fun _ => by simp only [Obs.search]; rfl⟩
  | succ n ih =>
    refine ⟨fun t => ?_, fun t => ?_⟩
    · simp only [Obs.checkMjd]
      rw [screen_later]
      rcases Obs.screen S n t with e | ⟨_ | _, x⟩
      · rfl
      · dsimp only [Except.map]
        rw [ih.2]
        cases Obs.search S n x <;> rfl
      · rfl
    · simp only [Obs.search]
      rw [ih.1]
      rcases Obs.checkMjd S n t with e | ⟨_ | _, x⟩
      · rfl
      · dsimp only [Except.map]
        exact ih.2 x
      · rfl

end

/-- A completed visit, later by `d`; `τ` translates the target. -/
def visitLater {O' O : Type} (τ : O' → O) (d : ℚ) (v : Obs.Visit O') : Obs.Visit O := ⟨τ v.target, v.mjd + d, v.night, v.ID, v.slewtime, v.visittime⟩

/-- The observatory, later by `d`; `κ` translates the telescope. -/
def obsLater {K' K : Type} (κ : K' → K) (d : ℚ) (s : Obs.St K') : Obs.St K := ⟨s.mjd + d, κ s.kin, s.nextId⟩

/-- The whole, later by `d`; `σ` translates the scheduler. -/
def worldLater {U' U K' K : Type} (σ : U' → U) (κ : K' → K) (d : ℚ) (w : World U' K') : World U K := ⟨obsLater κ d w.obs, σ w.sched, w.raised⟩

section
variable {U U' K K' O O' C C' B : Type}

/-- A telescope that does not know the origin of time: with times later by `d` it does the same. -/
structure KinLater (M' : Obs.Kin K' O') (M : Obs.Kin K O) (κ : K' → K) (τ : O' → O) (d : ℚ) : Prop where
  last : ∀ k, M.lastMjd (κ k) = M'.lastMjd k + d
  park : ∀ k, M.park (κ k) = κ (M'.park k)
  observe : ∀ k o t, M.observe (κ k) (τ o) (t + d) = (κ (M'.observe k o t).1, (M'.observe k o t).2)
  prepare : ∀ k o t, M.prepare (κ k) (t + d) (τ o) = (M'.prepare k t o).map τ

/-- A scheduler that does not know it. -/
structure SchedLater (D' : Sched U' O' C' B) (D : Sched U O C B) (σ : U' → U) (τ : O' → O) (χ : C' → C) (d : ℚ) : Prop where
  hasConds : ∀ u, D.hasConds (σ u) = D'.hasConds u
  check : ∀ u x, D.check (σ u) (x + d) = D'.check u x
  update : ∀ u c, D.update (σ u) (χ c) = σ (D'.update u c)
  request : ∀ u x, D.request (σ u) (x + d) = (D'.request u x).map fun r => (σ r.1, r.2.map τ)
  add : ∀ u v, D.add (σ u) (visitLater τ d v) = σ (D'.add u v)
  bandAdd : ∀ u v, D.bandAdd (σ u) (visitLater τ d v) = σ (D'.bandAdd u v)
  flush : ∀ u, D.flush (σ u) = σ (D'.flush u)
  bands : ∀ u c, D.bands (σ u) (χ c) = (σ (D'.bands u c).1, (D'.bands u c).2)
  overhead : ∀ u v, D.overhead (σ u) (visitLater τ d v) = (σ (D'.overhead u v).1, (D'.overhead u v).2)

variable {S : Obs.Site} {M' : Obs.Kin K' O'} {M : Obs.Kin K O} {κ : K' → K} {τ : O' → O} {χ : C' → C} {σ : U' → U} {d : ℚ} {D' : Sched U' O' C' B} {D : Sched U O C B}

theorem parks_later (h : KinLater M' M κ τ d) (s : Obs.St K') :
    (if (siteLater d S).parkAfter < (obsLater κ d s).mjd - M.lastMjd (obsLater κ d s).kin then M.park (obsLater κ d s).kin else (obsLater κ d s).kin)
      = κ (if S.parkAfter < s.mjd - M'.lastMjd s.kin then M'.park s.kin else s.kin) := by
  show (if S.parkAfter < s.mjd + d - M.lastMjd (κ s.kin) then M.park (κ s.kin) else κ s.kin) = _
  rw [h.last, h.park, add_sub_add_right_eq_sub]
  split_ifs <;> rfl

theorem observe_shifted (h : KinLater M' M κ τ d) (fuel : ℕ) (s : Obs.St K') (o : O') :
    Obs.observe (siteLater d S) M fuel (obsLater κ d s) (τ o) = (Obs.observe S M' fuel s o).map fun r => (obsLater κ d r.1, r.2.1.map (visitLater τ d), r.2.2) := by
  have hn : ∀ x : ℚ, ⌊x + d - (S.mjdStart + d)⌋ = ⌊x - S.mjdStart⌋ := fun x => by rw [add_sub_add_right_eq_sub]
  unfold Obs.observe
  rw [parks_later h]
  rw [show M.prepare (obsLater κ d s).kin (obsLater κ d s).mjd (τ o) = _ from h.prepare s.kin o s.mjd]
  cases M'.prepare s.kin s.mjd o with
  | none => rfl
  | some o' =>
    dsimp only [Option.map_some]
    generalize (if S.parkAfter < s.mjd - M'.lastMjd s.kin then M'.park s.kin else s.kin) = k
    rw [show M.observe (κ k) (τ o') (obsLater κ d s).mjd = _ from h.observe k o' s.mjd]
    generalize M'.observe k o' s.mjd = r
    obtain ⟨a, _ | slew, t⟩ := r
    · rfl
    · dsimp only
      have hc := (check_later (d := d) (S := S) fuel).1 (s.mjd + (slew + t) / 24 / 3600)
      rw [show (obsLater κ d s).mjd + (slew + t) / 24 / 3600 = s.mjd + (slew + t) / 24 / 3600 + d from add_right_comm _ _ _, hc]
      rcases Obs.checkMjd S fuel (s.mjd + (slew + t) / 24 / 3600) with e | ⟨_ | _, new⟩
      · rfl
      · dsimp only [Except.map]
        unfold Obs.St.night obsLater siteLater
        dsimp only
        rw [hn, hn, h.park]
        rfl
      · dsimp only [Except.map]
        unfold Obs.St.night obsLater siteLater visitLater
        dsimp only [Option.map_some]
        rw [add_right_comm s.mjd d, hn, add_right_comm _ d]

theorem whole_later (hK : KinLater M' M κ τ d) (hS : SchedLater D' D σ τ χ d) (fuel : ℕ) {conds' : Obs.St K' → C'} {conds : Obs.St K → C}
    (hc : ∀ s, conds (obsLater κ d s) = χ (conds' s)) {mount' : K' → B → K'} {mount : K → B → K} (hm : ∀ k b, mount (κ k) b = κ (mount' k b)) :
    Sim.Shift (env S M' fuel conds' mount' D') (env (siteLater d S) M fuel conds mount D) (worldLater σ κ d) (fun v => ⟨τ v.target, v.mjd, v.night, v.ID, v.slewtime, v.visittime⟩)
      (visitLater τ d) χ d where
  clock _ := rfl
  set _ _ := rfl
  conds w := by
    show (World.mk (Obs.idle (siteLater d S) M (obsLater κ d w.obs)) _ _, conds (obsLater κ d w.obs)) = _
    rw [hc]
    unfold Obs.idle
    rw [parks_later hK]
    rfl
  hasConds w := hS.hasConds _
  check w x := by
    show (_, D.check (σ w.sched) (x + d)) = _
    rw [hS.check]
    rfl
  update w c := by
    show World.mk _ (D.update (σ w.sched) (χ c)) _ = _
    rw [hS.update]
    rfl
  request w x := by
    show requestOf D (worldLater σ κ d w) (x + d) = (worldLater σ κ d (requestOf D' w x).1, (requestOf D' w x).2.map _)
    unfold requestOf
    rw [show D.request (worldLater σ κ d w).sched (x + d) = _ from hS.request w.sched x]
    rcases D'.request w.sched x with _ | ⟨u, _ | o⟩ <;> rfl
  observe w v := by
    show observeOf (siteLater d S) M fuel (worldLater σ κ d w) ⟨τ v.target, _, _, _, _, _⟩
      = (worldLater σ κ d (observeOf S M' fuel w v).1, (observeOf S M' fuel w v).2.1.map (visitLater τ d), (observeOf S M' fuel w v).2.2)
    unfold observeOf
    rw [show Obs.observe (siteLater d S) M fuel (worldLater σ κ d w).obs (τ v.target) = _ from observe_shifted hK fuel w.obs v.target]
    rcases Obs.observe S M' fuel w.obs v.target with e | ⟨s, r, nn⟩ <;> rfl
  overhead w v := by
    show (World.mk _ (D.overhead (σ w.sched) (visitLater τ d v)).1 _, (D.overhead (σ w.sched) (visitLater τ d v)).2) = _
    rw [hS.overhead]
    rfl
  add w v := by
    show World.mk _ (D.add (σ w.sched) (visitLater τ d v)) _ = _
    rw [hS.add]
    rfl
  bandAdd w v := by
    show World.mk _ (D.bandAdd (σ w.sched) (visitLater τ d v)) _ = _
    rw [hS.bandAdd]
    rfl
  flush w := by
    show World.mk _ (D.flush (σ w.sched)) _ = _
    rw [hS.flush]
    rfl
  bands w c := by
    show (World.mk _ (D.bands (σ w.sched) (χ c)).1 _, (D.bands (σ w.sched) (χ c)).2) = _
    rw [hS.bands]
    rfl
  mount w b := by
    show World.mk ⟨_, mount (κ w.obs.kin) b, _⟩ _ _ = _
    rw [hm]
    rfl

/-- **C263 (partial)** A simulation does not depend on the origin of time: when the nights, the downtimes, the clouds, the begin of the survey, the clock, the telescope and the scheduler are all later by `d`,
the simulation ends in the same way, `d` later, with the same visits, each `d` later and with the same night, number, slew and visit times, and the telescope and the
scheduler are at the end what they would be, `d` later. This is for telescopes and schedulers that do not know the origin of time themselves, and for simulations
that begin later than the time -1 on both scales. Missing: earlier begins (`C263_flush_violated`), and visits of the core scheduler that expire (`C263_expiry_violated`). -/
theorem C263_origin_partial (hn : Obs.Nights S.nights) (hd : Down.Ordered S.downs) (hM : Obs.NonNeg M') (hD : FairOverhead D') (hK : KinLater M' M κ τ d) (hS : SchedLater D' D σ τ χ d)
    (fuel : ℕ) (conds' : Obs.St K' → C') (conds : Obs.St K → C) (hc : ∀ s : Obs.St K', conds ⟨s.mjd + d, κ s.kin, s.nextId⟩ = χ (conds' s)) (mount' : K' → B → K') (mount : K → B → K)
    (hm : ∀ k b, mount (κ k) b = κ (mount' k b)) (cfg : Sim.Cfg) (hstep : 0 ≤ cfg.stepNone) (n : ℕ) (w : World U' K')
    (h0 : -1 < cfg.simStart.getD w.obs.mjd) (h1 : -1 < cfg.simStart.getD w.obs.mjd + d) :
    let a := Sim.run (V := Obs.Visit O') (env S M' fuel conds' mount' D') cfg n w
    let b := Sim.run (V := Obs.Visit O) (env (siteLater d S) M fuel conds mount D) { cfg with simStart := cfg.simStart.map (· + d) } n
      ⟨⟨w.obs.mjd + d, κ w.obs.kin, w.obs.nextId⟩, σ w.sched, w.raised⟩
    b.kind = a.kind ∧ b.st.mjd = a.st.mjd + d ∧ b.st.nskip = a.st.nskip
      ∧ b.st.result = a.st.result.map (Option.map fun v => ⟨τ v.target, v.mjd + d, v.night, v.ID, v.slewtime, v.visittime⟩)
      ∧ b.st.w.obs.mjd = a.st.w.obs.mjd + d ∧ b.st.w.obs.kin = κ a.st.w.obs.kin ∧ b.st.w.obs.nextId = a.st.w.obs.nextId
      ∧ b.st.w.sched = σ a.st.w.sched ∧ b.st.w.raised = a.st.w.raised := by
  intro a b
  have e : b = a.shift (worldLater σ κ d) (visitLater τ d) d :=
    Sim.run_shift (V := Obs.Visit O) (whole_later hK hS fuel hc hm) (whole_contract S hn hd M' hM fuel conds' mount' D' hD) cfg hstep n w h0 h1
  rw [e, Sim.shift_kind, Sim.shift_st, Sim.shift_result]
  exact ⟨rfl, rfl, rfl, rfl, rfl, rfl, rfl, rfl, rfl⟩

end

/-- A telescope that turns down targets below zero. -/
def paceKin : Obs.Kin ℚ ℚ := ⟨fun k => k, fun k => k, fun _ o t => (t, if o < 0 then none else some o, 2000), fun _ _ o => some o⟩

/-- A scheduler that waits after each visit, and asks for a target out of reach until its queue is flushed. -/
def paceSched : Sched (ℚ × Bool) ℚ ℚ Unit where
  hasConds _ := true
  check _ _ := false
  update u _ := u
  request u x := some (u, if x - u.1 < 1 / 25 then none else some (if u.2 then 60 else -1))
  add u v := (v.mjd, u.2)
  bandAdd u _ := u
  flush u := (u.1, true)
  bands u _ := (u, ())
  overhead u _ := (u, 5)

/-- They do not know the origin of time. -/
theorem pace_later (d : ℚ) : KinLater paceKin paceKin (· + d) id d ∧ SchedLater paceSched paceSched (fun u => (u.1 + d, u.2)) id (· + d) d := by
  refine ⟨⟨fun _ => rfl, fun _ => rfl, fun _ _ _ => rfl, fun _ _ _ => rfl⟩,
    ⟨fun _ => rfl, fun _ _ => rfl, fun _ _ => rfl, fun u x => ?_, fun _ _ => rfl, fun _ _ => rfl, fun _ => rfl, fun _ _ => rfl, fun _ _ => rfl⟩⟩
  show some (_, if x + d - (u.1 + d) < 1 / 25 then none else _) = _
  rw [add_sub_add_right_eq_sub]
  show _ = some (_, Option.map id (if x - u.1 < 1 / 25 then none else _))
  rw [Option.map_id]
  rfl

example : Obs.NonNeg paceKin ∧ FairOverhead paceSched ∧ Obs.Nights toySite.nights ∧ Down.Ordered toySite.downs := by
  refine ⟨fun k o t => ⟨fun x hx => ?_, ?_⟩, fun _ _ => by norm_num [paceSched], toySite_nights, toySite_downs⟩
  · simp only [paceKin, Option.mem_def] at hx
    split_ifs at hx with h
    cases hx
    exact not_lt.1 h
  · norm_num [paceKin]

/-- What comes out with everything later by `d`: how the simulation ends, times, nights and numbers of the visits, and the clock. -/
def paceOut (d : ℚ) : ℕ × List (ℚ × ℤ × ℕ) × ℚ :=
  let o := Sim.run (V := Obs.Visit ℚ) (env (siteLater d toySite) paceKin 60 (fun s => s.mjd) (fun k _ => k) paceSched) { duration := 6 / 5, startSize := 2, appendSize := 2, useOverhead := true } 200
    ⟨⟨1 / 8 + d, d, 40⟩, (d, false), false⟩
  (o.kind, (o.st.result.filterMap id).map fun v => (v.mjd, v.night, v.ID), o.st.w.obs.mjd)

/-- A simulation over a downtime and clouds, and the same later by a thousand days. -/
example : paceOut 1000 = ((paceOut 0).1, (paceOut 0).2.1.map fun v => (v.1 + 1000, v.2), (paceOut 0).2.2 + 1000) ∧ (paceOut 0).1 = 0 ∧ 4 ≤ (paceOut 0).2.1.length
    ∧ (paceOut 0).2.1.map (fun v => v.2.1) ≠ List.replicate (paceOut 0).2.1.length 0 := by
  decide +kernel

/-- C263 is violated by simulations that are at the time -1 when a visit is turned down: the loop takes -1 as the time of the last flush before there was one (sim_runner.py 111, 202-217), and ends with the error
that is meant for a second visit turned down at the same time. -/
theorem C263_flush_violated : (paceOut 0).1 = 0 ∧ (paceOut (-9 / 8)).1 = 1 ∧ (paceOut (-9 / 8)).2.1 = [] := by
  decide +kernel

/-- A core scheduler with one survey whose second visit expires four tenths of a second before it would be asked for. -/
def expiryOut (d : ℚ) : List (ℚ × ℚ) :=
  let o := Sim.run (V := Obs.Visit Obs) (env (siteLater d toySite) wholeKin 20 (fun s => (⟨s.mjd, none⟩ : ToyC)) (fun k _ => k) (coreSched toyE wholeRest))
    { duration := 1 / 25, startSize := 4, appendSize := 2, updateEvery := true } 20
    ⟨⟨d, d, 40⟩, (Core.init () [[⟨[.fin 1], [{ targetId := 0 }, { targetId := 0, ra := 1, flushBy := 103 / 4320 - 1 / 200000 + d }, { targetId := 0 }], none⟩]] 5 true [], ()), false⟩
  (o.st.result.filterMap id).map fun v => (v.mjd - d, v.target.ra)

/-- C263 is violated by visits of the core scheduler that expire: times are compared with a tolerance that is relative to their size (utils.py 188-220, queue_manager.py 114-152),
so a visit that has expired at dates near 0 is still made at dates near 60000. -/
theorem C263_expiry_violated : expiryOut 0 = [(1 / 1440, 0), (53 / 2160, 0)] ∧ expiryOut 60000 = [(1 / 1440, 0), (53 / 2160, 1)] := by
  decide +kernel

end Verif
