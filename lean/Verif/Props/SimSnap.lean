import Verif.Model.SimSnap
import Verif.Props.WholeAhead
import Verif.Props.SimOptions

/-!
C232: saving snapshots does not change a simulation.  C233: every call of the scheduler has its snapshot.
-/

namespace Verif

open Whole

/-! ### C232 -/

section
variable {U K O C B : Type}

/-- The telescope is not waiting to be parked. -/
def AtRest (S : Obs.Site) (M : Obs.Kin K O) (w : World U K) : Prop := Obs.idle S M w.obs = w.obs

/-- A telescope notes when it began to move to a visit, and stays as it was when it cannot. -/
structure Starts (M : Obs.Kin K O) : Prop where
  begun : ∀ k o t x, (M.observe k o t).2.1 = some x → M.lastMjd (M.observe k o t).1 = t
  refused : ∀ k o t, (M.observe k o t).2.1 = none → (M.observe k o t).1 = k

theorem starts_telescope (T : Kinem.Cfg ℚ) (resolve lax : Bool) : Starts (Kinem.kin T resolve lax) := by
  refine ⟨fun k o t x h => ?_, fun k o t h => ?_⟩
  · have h : (Kinem.observe T k { o.1 with rotTel := none } t lax false).2.1 = some x := h
    show (Kinem.observe T k { o.1 with rotTel := none } t lax false).1.lastMjd = t
    unfold Kinem.observe at h ⊢
    cases hs : Kinem.slew T k { o.1 with rotTel := none } t lax false with
    | none => rw [hs] at h; cases h
    | some r =>
      dsimp only
      unfold Kinem.slew at hs
      repeat' split at hs
      all_goals first
        | (cases hs; done)
        | (cases hs; rfl)
  · have h : (Kinem.observe T k { o.1 with rotTel := none } t lax false).2.1 = none := h
    show (Kinem.observe T k { o.1 with rotTel := none } t lax false).1 = k
    unfold Kinem.observe at h ⊢
    cases hs : Kinem.slew T k { o.1 with rotTel := none } t lax false with
    | none => rfl
    | some r => rw [hs] at h; cases h

variable (S : Obs.Site) (M : Obs.Kin K O) (fuel : ℕ) (conds : Obs.St K → C) (mount : K → B → K) (D : Sched U O C B)

local notation "sim" => env S M fuel conds mount D

theorem observe_atRest (hK : Parks M mount) (hM : Starts M) {w x : World U K} {v : Obs.Visit O} {r : Option (Obs.Visit O)} {nn : Bool}
    (h : AtRest S M w) (ho : observeOf S M fuel w v = (x, r, nn)) :
    (r = none → AtRest S M x)
    ∧ ∀ v', r = some v' → M.lastMjd x.obs.kin = w.obs.mjd ∧ x.obs.mjd = w.obs.mjd + v'.slewtime / 24 / 3600 + v'.visittime / 24 / 3600 := by
  have hk : (if S.parkAfter < w.obs.mjd - M.lastMjd w.obs.kin then M.park w.obs.kin else w.obs.kin) = w.obs.kin := congrArg Obs.St.kin h
  unfold observeOf Obs.observe at ho
  cases hp : M.prepare w.obs.kin w.obs.mjd v.target with
  | none =>
    rw [hp] at ho
    cases ho
    exact ⟨fun _ => h, fun v' h' => by cases h'⟩
  | some o =>
    rw [hp] at ho
    dsimp only at ho
    rw [hk] at ho
    cases hs : (M.observe w.obs.kin o w.obs.mjd).2.1 with
    | none =>
      rw [hs] at ho
      cases ho
      refine ⟨fun _ => ?_, fun v' h' => by cases h'⟩
      unfold AtRest
      dsimp only
      rw [hM.refused _ _ _ hs]
      exact h
    | some t =>
      rw [hs] at ho
      dsimp only at ho
      generalize Obs.checkMjd S fuel (w.obs.mjd + (t + (M.observe w.obs.kin o w.obs.mjd).2.2) / 24 / 3600) = c at ho
      rcases c with e | ⟨_ | _, new⟩
      · cases ho
        exact ⟨fun _ => h, fun v' h' => by cases h'⟩
      · cases ho
        refine ⟨fun _ => ?_, fun v' h' => by cases h'⟩
        unfold AtRest Obs.idle
        dsimp only
        rw [hK.again, ite_self]
      · cases ho
        refine ⟨fun h' => (nomatch h'), fun v' h' => ?_⟩
        cases h'
        exact ⟨hM.begun _ _ _ _ hs, rfl⟩

theorem updateNow_atRest (hK : Parks M mount) (w : World U K) : AtRest S M (Sim.updateNow sim w) := hK.idle_idle S w.obs

theorem mountNow_atRest (hK : Parks M mount) (w : World U K) : AtRest S M (Sim.mountNow sim w) := hK.idle_mount S w.obs _

theorem refresh_atRest (hK : Parks M mount) (cfg : Sim.Cfg) {w : World U K} (h : AtRest S M w) : AtRest S M (Sim.refresh sim cfg w) :=
  Sim.refresh_keeps_now (P := AtRest S M) (fun _ _ h => h) (fun w _ => updateNow_atRest S M fuel conds mount D hK w) w h

theorem request_atRest {w : World U K} (x : ℚ) (h : AtRest S M w) : AtRest S M (requestOf D w x).1 := by
  unfold requestOf
  cases D.request w.sched x with
  | none => exact h
  | some r => exact h

theorem endOfPass_atRest (hK : Parks M mount) (cfg : Sim.Cfg) (nn : Bool) {s : Sim.St (World U K) (Obs.Visit O)} (h : AtRest S M s.w) :
    AtRest S M (Sim.endOfPass sim cfg nn s).st.w := by
  rw [Sim.endOfPass_st]
  dsimp only
  split_ifs
  · exact mountNow_atRest S M fuel conds mount D hK _
  · exact h

/-- A visit that, with the slew before and `extra` seconds after it, takes longer than the time after which the telescope is parked. -/
def LongVisit (extra : ℚ) (v : Obs.Visit O) : Prop := S.parkAfter < v.slewtime / 24 / 3600 + v.visittime / 24 / 3600 + extra / 86400

theorem pass_atRest (hK : Parks M mount) (hM : Starts M) {cfg : Sim.Cfg} (ha : 0 < cfg.appendSize) {extra : ℚ} (he : 0 ≤ extra)
    (hD : cfg.useOverhead = true → ∀ u v, (D.overhead u v).2 ≤ extra) {done : List (Obs.Visit O)} {s : Sim.St (World U K) (Obs.Visit O)}
    (hr : RowsOf done s) (h : AtRest S M s.w) :
    AtRest S M (Sim.pass sim cfg s).st.w ∨ ∃ v, LongVisit S extra v ∧ RowsOf (done ++ [v]) (Sim.pass sim cfg s).st := by
  have hf := refresh_atRest S M fuel conds mount D hK cfg h
  unfold Sim.pass
  dsimp only
  generalize Sim.refresh sim cfg s.w = w at hf
  have hq := request_atRest S M D (w.obs.mjd) hf
  have eq : (sim).request w ((sim).clock w) = requestOf D w w.obs.mjd := rfl
  rw [eq]
  generalize requestOf D w w.obs.mjd = q at hq
  rcases q with ⟨u, _ | v⟩
  · left
    dsimp only
    unfold Sim.skipPass
    dsimp only
    split_ifs <;> exact updateNow_atRest S M fuel conds mount D hK _
  · dsimp only at hq ⊢
    have eo : (sim).observe u v = observeOf S M fuel u v := rfl
    rw [eo]
    rcases ho : observeOf S M fuel u v with ⟨x, _ | v', nn⟩
    · have hx := (observe_atRest S M fuel mount hK hM hq ho).1 rfl
      left
      dsimp only
      unfold Sim.rejectedPass
      dsimp only
      split_ifs
      · exact hx
      · exact endOfPass_atRest S M fuel conds mount D hK cfg nn hx
    · obtain ⟨h1, h2⟩ := (observe_atRest S M fuel mount hK hM hq ho).2 v' rfl
      dsimp only
      unfold Sim.completedPass
      obtain ⟨k, hk, e1, e2⟩ := hr
      obtain ⟨j, hj, f1⟩ := store_row cfg ha done k hk v'
      dsimp only
      rw [e1, e2, f1]
      by_cases hl : LongVisit S extra v'
      · exact .inr ⟨v', hl, endOfPass_filled _ cfg nn ⟨j, hj, rfl, by simp⟩⟩
      · left
        refine endOfPass_atRest S M fuel conds mount D hK cfg nn ?_
        have hl : v'.slewtime / 24 / 3600 + v'.visittime / 24 / 3600 + extra / 86400 ≤ S.parkAfter := not_lt.1 hl
        have key : ∀ z : World U K, z.obs.kin = x.obs.kin → z.obs.mjd ≤ x.obs.mjd + extra / 86400 → AtRest S M z := by
          intro z hz1 hz2
          unfold AtRest Obs.idle
          rw [if_neg (by rw [hz1, h1]; linarith)]
        unfold Sim.addOverhead
        split_ifs with hu
        · refine key _ rfl ?_
          show x.obs.mjd + (D.overhead x.sched v').2 / 86400 ≤ _
          have := hD hu x.sched v'
          linarith
        · refine key _ rfl ?_
          show x.obs.mjd ≤ _
          have : 0 ≤ extra / 86400 := by positivity
          linarith

theorem loop_atRest (hK : Parks M mount) (hM : Starts M) {cfg : Sim.Cfg} (ha : 0 < cfg.appendSize) {extra : ℚ} (he : 0 ≤ extra)
    (hD : cfg.useOverhead = true → ∀ u v, (D.overhead u v).2 ≤ extra) (n : ℕ) {done : List (Obs.Visit O)} {s : Sim.St (World U K) (Obs.Visit O)}
    (hr : RowsOf done s) (h : AtRest S M s.w) :
    (Sim.loopSnap sim cfg n s).2 = Sim.loop sim cfg n s ∨ ∃ v, LongVisit S extra v ∧ some v ∈ (Sim.loop sim cfg n s).st.result := by
  induction n generalizing done s with
  | zero => exact .inl rfl
  | succ n ih =>
    have hs : { s with w := ((sim).conds s.w).1 } = s := by
      obtain ⟨⟨o, u, r⟩, _, _, _, _, _, _⟩ := s
      have h : Obs.idle S M o = o := h
      show Sim.St.mk (World.mk (Obs.idle S M o) u r) _ _ _ _ _ _ = _
      rw [h]
    unfold Sim.loopSnap Sim.loop
    by_cases hm : s.mjd < s.endMjd
    · rw [if_pos hm, if_pos hm, hs]
      obtain ⟨new, hp⟩ := pass_filled sim ha hr
      rcases pass_atRest S M fuel conds mount D hK hM ha he hD hr h with hq | ⟨v, hv, hq⟩
      · generalize Sim.pass sim cfg s = p at hp hq
        cases p with
        | again s' => exact ih hp hq
        | brk s' => exact .inl rfl
        | gaveUp s' => exact .inl rfl
        | indexError s' => exact .inl rfl
      · generalize Sim.pass sim cfg s = p at hp hq
        cases p with
        | again s' =>
          right
          refine ⟨v, hv, ?_⟩
          obtain ⟨more, hm⟩ := loop_filled sim ha n hq
          have hm : RowsOf (done ++ [v] ++ more) (Sim.loop sim cfg n s').st := hm
          dsimp only
          rw [hm.result]
          simp
        | brk s' => exact .inl rfl
        | gaveUp s' => exact .inl rfl
        | indexError s' => exact .inl rfl
    · rw [if_neg hm, if_neg hm]
      exact .inl rfl

/-- C232 (the part that holds): a simulation that saves snapshots is, in everything but the files, the simulation without them, if no visit of the latter takes
longer, with the slew before it and the overhead after it, than the time after which the telescope is parked.

`extra` is a bound for the overheads in seconds. -/
theorem C232_snapshots_partial (hK : Parks M mount) (hM : Starts M) (cfg : Sim.Cfg) (h1 : 0 < cfg.startSize) (h2 : 0 < cfg.appendSize) (extra : ℚ) (he : 0 ≤ extra)
    (hD : cfg.useOverhead = true → ∀ u v, (D.overhead u v).2 ≤ extra) (n : ℕ) (w : World U K)
    (hv : ∀ v, some v ∈ (Sim.run (V := Obs.Visit O) sim cfg n w).st.result → v.slewtime / 24 / 3600 + v.visittime / 24 / 3600 + extra / 86400 ≤ S.parkAfter) :
    (Sim.runSnap (V := Obs.Visit O) sim cfg n w).2 = Sim.run sim cfg n w := by
  have hr : RowsOf ([] : List (Obs.Visit O)) (Sim.start (V := Obs.Visit O) sim cfg w) := ⟨cfg.startSize, h1, by simp [Sim.start], rfl⟩
  have hw : AtRest S M (Sim.start (V := Obs.Visit O) sim cfg w).w := mountNow_atRest S M fuel conds mount D hK _
  rcases loop_atRest S M fuel conds mount D hK hM h2 he hD n hr hw with h | ⟨v, hl, hm⟩
  · exact h
  · exact absurd (hv v hm) (not_le.2 hl)

end

/-- The telescope is parked ten minutes after the last slew began. -/
def tenMinutes : Obs.Site := { toySite with parkAfter := 1 / 144 }

/-- A scheduler that asks first for a visit in g and then for visits in the band that the conditions say is in the light path. -/
def followSched (exptime : ℕ) : Sched (ℕ × String) Kinem.GoodReq String (List String) where
  hasConds _ := true
  check _ _ := false
  update u c := (u.1, c)
  request u _ := some (u, some ⟨{ toyReq 10 with band := if u.1 = 0 then "g" else u.2, exptime := exptime }, by norm_num [toyReq]⟩)
  add u _ := (u.1 + 1, u.2)
  bandAdd u _ := u
  flush u := u
  bands u _ := (u, ["u", "g", "r"])
  overhead u _ := (u, 0)

def followEnv (exptime : ℕ) : Sim.Env (World (ℕ × String) (Kinem.Tel ℚ)) (Obs.Visit Kinem.GoodReq) String (List String) :=
  env tenMinutes (Kinem.kin toyCfg true true) 20 (fun s => s.kin.band) mountTel (followSched exptime)

def followStart : World (ℕ × String) (Kinem.Tel ℚ) := ⟨⟨0, Kinem.new toyCfg "r" 0, 0⟩, (0, ""), false⟩

def followCfg : Sim.Cfg := { duration := 1 / 50, startSize := 2, appendSize := 2 }

/-- C232 is violated by visits of more than ten minutes: after the first visit the plain simulation goes on in g, as its conditions say; asking for the
conditions of the snapshot has parked the telescope, which puts the first band back, and the simulation with snapshots goes on in r. -/
theorem C232_long_violated :
    ((Sim.run (followEnv 700) followCfg 20 followStart).st.result.map fun v => v.map fun v => v.target.1.band) = [some "g", some "g", some "g"]
    ∧ ((Sim.runSnap (followEnv 700) followCfg 20 followStart).2.st.result.map fun v => v.map fun v => v.target.1.band) = [some "g", some "r", some "r"] := by
  decide +kernel

/-- With visits of 300 s the two are the same, by C232. -/
example : (Sim.runSnap (followEnv 300) followCfg 20 followStart).2 = Sim.run (followEnv 300) followCfg 20 followStart := by
  refine C232_snapshots_partial tenMinutes (Kinem.kin toyCfg true true) 20 (fun s => s.kin.band) mountTel (followSched 300) (parks_telescope _ _ _) (starts_telescope _ _ _)
    followCfg (by decide) (by decide) 0 le_rfl (fun h => by cases h) 20 followStart ?_
  have key : ∀ v ∈ (Sim.run (followEnv 300) followCfg 20 followStart).st.result,
      (v.elim true fun v => decide (v.slewtime / 24 / 3600 + v.visittime / 24 / 3600 + 0 / 86400 ≤ tenMinutes.parkAfter)) = true := by
    decide +kernel
  intro v hv
  exact of_decide_eq_true (key (some v) hv)

example : ((Sim.run (followEnv 300) followCfg 20 followStart).st.result.map fun v => v.map fun v => v.target.1.band) = List.replicate 6 (some "g") := by
  decide +kernel

/-! ### C233 -/

section
variable {W V C B : Type} {E : Sim.Env W V C B}
open Sim

theorem addOverhead_later (K : Contract E) (cfg : Cfg) (w : W) (v : V) : E.clock w ≤ E.clock (addOverhead E cfg w v) := by
  unfold addOverhead
  split_ifs
  · dsimp only
    rw [K.set, (K.overhead w v).1]
    have := (K.overhead w v).2
    have : 0 ≤ (E.overhead w v).2 / 86400 := by positivity
    linarith
  · exact le_rfl

theorem endOfPass_snap (K : Contract E) (cfg : Cfg) (nn : Bool) (s : St W V) :
    (endOfPass E cfg nn s).st.mjd = E.clock (endOfPass E cfg nn s).st.w ∧ E.clock (endOfPass E cfg nn s).st.w = E.clock s.w
    ∧ (endOfPass E cfg nn s).st.nskip = s.nskip ∧ (endOfPass E cfg nn s).st.counter = s.counter := by
  rw [endOfPass_st]
  refine ⟨rfl, ?_, rfl, rfl⟩
  dsimp only
  split_ifs
  · exact mountNow_clock K _
  · rfl

/-- What a pass that goes on does to time and counters. -/
theorem pass_snap (K : Contract E) (adv : Prop) (hadv : adv → ∀ w v x v' nn, E.observe w v = (x, some v', nn) → E.clock w < E.clock x) (cfg : Cfg) {s s' : St W V}
    (hp : pass E cfg s = .again s') :
    (s'.nskip = s.nskip + 1 ∧ s'.counter = s.counter)
    ∨ (s'.nskip = s.nskip ∧ s'.mjd = E.clock s'.w ∧ (s'.counter = s.counter ∨ s'.counter = s.counter + 1 ∧ (adv → E.clock s.w < E.clock s'.w))) := by
  have hf := refresh_clock K cfg s.w
  unfold pass at hp
  dsimp only at hp
  generalize refresh E cfg s.w = w at hf hp
  have hq := K.request w (E.clock w)
  generalize E.request w (E.clock w) = q at hq hp
  rcases q with ⟨u, _ | v⟩
  · left
    dsimp only at hp
    unfold skipPass at hp
    dsimp only at hp
    split_ifs at hp
    cases hp
    exact ⟨rfl, rfl⟩
  · right
    dsimp only at hp hq
    rcases ho : E.observe u v with ⟨x, _ | v', nn⟩
    · rw [ho] at hp
      dsimp only at hp
      unfold rejectedPass at hp
      dsimp only at hp
      split_ifs at hp
      have := endOfPass_snap K cfg nn { s with w := E.flush x, lastFlush := E.clock (E.flush x) }
      rw [hp] at this
      exact ⟨this.2.2.1, this.1, .inl this.2.2.2⟩
    · have hx : adv → E.clock u < E.clock x := fun a => hadv a u v x v' nn ho
      rw [ho] at hp
      dsimp only at hp
      unfold completedPass at hp
      dsimp only at hp
      cases hs : store cfg s.buf s.counter v' with
      | none => rw [hs] at hp; cases hp
      | some b =>
        rw [hs] at hp
        have := endOfPass_snap K cfg nn { s with w := E.bandAdd (E.add (addOverhead E cfg x v') v') v', buf := b, counter := s.counter + 1 }
        dsimp only at hp this
        rw [hp] at this
        refine ⟨this.2.2.1, this.1, .inr ⟨this.2.2.2, fun a => ?_⟩⟩
        have h1 : E.clock s'.w = _ := this.2.1
        rw [h1, K.bandAdd, K.add]
        have := addOverhead_later K cfg x v'
        have := hx a
        linarith

theorem pass_counts (cfg : Cfg) (s : St W V) : s.nskip ≤ (pass E cfg s).st.nskip ∧ (pass E cfg s).st.counter ≤ s.counter + 1 := by
  unfold pass
  dsimp only
  generalize E.request _ _ = q
  rcases q with ⟨u, _ | v⟩
  · dsimp only
    unfold skipPass
    dsimp only
    split_ifs <;> exact ⟨Nat.le_succ _, Nat.le_succ _⟩
  · dsimp only
    generalize E.observe u v = o
    rcases o with ⟨x, _ | v', nn⟩
    · dsimp only
      unfold rejectedPass
      dsimp only
      split_ifs
      · exact ⟨le_rfl, Nat.le_succ _⟩
      · rw [endOfPass_st]; exact ⟨le_rfl, Nat.le_succ _⟩
    · dsimp only
      unfold completedPass
      dsimp only
      cases store cfg s.buf s.counter v' with
      | none => exact ⟨le_rfl, Nat.le_succ _⟩
      | some b => dsimp only; rw [endOfPass_st]; exact ⟨le_rfl, le_rfl⟩

theorem loopSnap_counts (cfg : Cfg) (n : ℕ) (s : St W V) :
    s.nskip ≤ (loopSnap E cfg n s).2.st.nskip ∧ (loopSnap E cfg n s).2.st.counter ≤ s.counter + (loopSnap E cfg n s).1.length := by
  induction n generalizing s with
  | zero => unfold loopSnap; dsimp only; split_ifs <;> exact ⟨le_rfl, le_rfl⟩
  | succ n ih =>
    unfold loopSnap
    split_ifs
    · have hc := pass_counts (E := E) cfg { s with w := (E.conds s.w).1 }
      generalize pass E cfg _ = p at hc
      cases p with
      | again s' =>
        dsimp only
        obtain ⟨h1, h2⟩ := ih s'
        obtain ⟨h3, h4⟩ : s.nskip ≤ s'.nskip ∧ s'.counter ≤ s.counter + 1 := hc
        rw [List.length_cons]
        exact ⟨h3.trans h1, by omega⟩
      | brk s' => exact hc
      | gaveUp s' => exact hc
      | indexError s' => exact hc
    · exact ⟨le_rfl, le_rfl⟩

theorem loopSnap_named (K : Contract E) (cfg : Cfg) (n : ℕ) (s : St W V) (hs : s.mjd = E.clock s.w) (h : (loopSnap E cfg n s).2.st.nskip = s.nskip) :
    ∀ f ∈ (loopSnap E cfg n s).1, f.name = E.clock f.w := by
  induction n generalizing s with
  | zero => intro f hf; cases hf
  | succ n ih =>
    unfold loopSnap at h ⊢
    split_ifs at h ⊢ with hm
    · cases hp : pass E cfg { s with w := (E.conds s.w).1 } with
      | again s' =>
        rw [hp] at h
        dsimp only at h ⊢
        have hle := (loopSnap_counts (E := E) cfg n s').1
        rcases pass_snap K False (fun h => h.elim) cfg hp with ⟨h1, -⟩ | ⟨h1, h2, -⟩
        · dsimp only at h1; omega
        · intro f hf
          rcases List.mem_cons.1 hf with rfl | hf
          · exact hs
          · exact ih s' h2 (h.trans h1.symm) f hf
      | brk s' => intro f hf; rw [List.mem_singleton.1 hf]; exact hs
      | gaveUp s' => intro f hf; rw [List.mem_singleton.1 hf]; exact hs
      | indexError s' => intro f hf; rw [List.mem_singleton.1 hf]; exact hs
    · intro f hf; cases hf

theorem start_clock (K : Contract E) (cfg : Cfg) (w : W) : (start (V := V) E cfg w).mjd = E.clock (start (V := V) E cfg w).w := by
  unfold start
  dsimp only
  rw [mountNow_clock K]
  cases cfg.simStart with
  | none => rfl
  | some m => exact (K.set w m).symm

/-- C233 (the part that holds): in a simulation that always has something to observe, every snapshot has the time of the clock at the call in its name. -/
theorem C233_named_partial (K : Contract E) (cfg : Cfg) (n : ℕ) (w : W) (h : (runSnap (V := V) E cfg n w).2.st.nskip = 0) :
    ∀ f ∈ (runSnap (V := V) E cfg n w).1, f.name = E.clock f.w :=
  loopSnap_named K cfg n _ (start_clock K cfg w) h

theorem loopSnap_rising (K : Contract E) (hadv : ∀ w v x v' nn, E.observe w v = (x, some v', nn) → E.clock w < E.clock x) (cfg : Cfg) (n : ℕ) (s : St W V)
    (hs : s.mjd = E.clock s.w) (h : (loopSnap E cfg n s).2.st.counter = s.counter + (loopSnap E cfg n s).1.length) :
    ((loopSnap E cfg n s).1.map Snap.name).Pairwise (· < ·) ∧ ∀ f ∈ (loopSnap E cfg n s).1, s.mjd ≤ f.name := by
  induction n generalizing s with
  | zero => exact ⟨List.Pairwise.nil, fun f hf => by cases hf⟩
  | succ n ih =>
    unfold loopSnap at h ⊢
    split_ifs at h ⊢ with hm
    · cases hp : pass E cfg { s with w := (E.conds s.w).1 } with
      | again s' =>
        rw [hp] at h
        dsimp only at h ⊢
        rw [List.length_cons] at h
        have hle := (loopSnap_counts (E := E) cfg n s').2
        rcases pass_snap K True (fun _ => hadv) cfg hp with ⟨-, h1⟩ | ⟨-, h2, h1 | ⟨h1, h3⟩⟩
        · dsimp only at h1; omega
        · dsimp only at h1; omega
        · dsimp only at h1 h3
          obtain ⟨i1, i2⟩ := ih s' h2 (by omega)
          have h3 := h3 trivial
          rw [K.conds, ← hs, ← h2] at h3
          refine ⟨List.pairwise_cons.2 ⟨?_, i1⟩, ?_⟩
          · intro x hx
            obtain ⟨f, hf, rfl⟩ := List.mem_map.1 hx
            exact h3.trans_le (i2 f hf)
          · intro f hf
            rcases List.mem_cons.1 hf with rfl | hf
            · exact le_rfl
            · exact h3.le.trans (i2 f hf)
      | brk s' => exact ⟨List.pairwise_singleton _ _, fun f hf => by rw [List.mem_singleton.1 hf]; exact le_rfl⟩
      | gaveUp s' => exact ⟨List.pairwise_singleton _ _, fun f hf => by rw [List.mem_singleton.1 hf]; exact le_rfl⟩
      | indexError s' => exact ⟨List.pairwise_singleton _ _, fun f hf => by rw [List.mem_singleton.1 hf]; exact le_rfl⟩
    · exact ⟨List.Pairwise.nil, fun f hf => by cases hf⟩

theorem find_only {l : List (Snap W C)} (h : (l.map Snap.name).Nodup) {f : Snap W C} (hf : f ∈ l) : l.find? (fun g => decide (g.name = f.name)) = some f := by
  induction l with
  | nil => cases hf
  | cons a l ih =>
    rw [List.map_cons, List.nodup_cons] at h
    rcases List.mem_cons.1 hf with rfl | hf
    · simp
    · rw [List.find?_cons_of_neg, ih h.2 hf]
      intro hx
      exact h.1 (List.mem_map.2 ⟨f, hf, (of_decide_eq_true hx).symm⟩)

/-- C233 (the part that holds): if every call of the scheduler gave a visit that was then made, and visits take time, no snapshot is lost. -/
theorem C233_kept_partial (K : Contract E) (hadv : ∀ w v x v' nn, E.observe w v = (x, some v', nn) → E.clock w < E.clock x) (cfg : Cfg) (n : ℕ) (w : W)
    (h : (runSnap (V := V) E cfg n w).2.st.counter = (runSnap (V := V) E cfg n w).1.length) :
    ∀ f ∈ (runSnap (V := V) E cfg n w).1, onDisk (runSnap (V := V) E cfg n w).1 f.name = some f := by
  have := (loopSnap_rising K hadv cfg n _ (start_clock K cfg w) (h.trans (Nat.zero_add _).symm)).1
  intro f hf
  refine find_only ?_ (List.mem_reverse.2 hf)
  rw [List.map_reverse, List.nodup_reverse]
  exact this.imp fun h => h.ne

end

/-- The assumptions are met by the simulation of C232: six calls of the scheduler, six visits. -/
example : Sim.Contract (followEnv 300) ∧ (Sim.runSnap (followEnv 300) followCfg 20 followStart).2.st.counter = 6
    ∧ (Sim.runSnap (followEnv 300) followCfg 20 followStart).1.length = 6 ∧ (Sim.runSnap (followEnv 300) followCfg 20 followStart).2.st.nskip = 0 := by
  refine ⟨?_, by decide +kernel⟩
  exact whole_contract tenMinutes toySite_nights toySite_downs _ (C21_telescope_times _ ⟨fun _ h => h, fun _ h => h, by norm_num [toyCfg], by norm_num [toyCfg], by norm_num [toyCfg], by norm_num [toyCfg], by norm_num [toyCfg]⟩ _ _) 20 _ _ _ (fun _ _ => le_rfl)

/-- A scheduler with nothing to observe before 1/50. -/
def lateSched : Sched Unit Obs Unit Unit where
  hasConds _ := true
  check _ _ := true
  update u _ := u
  request u x := some (u, if x < 1 / 50 then none else some { targetId := 0 })
  add u _ := u
  bandAdd u _ := u
  flush u := u
  bands u _ := (u, ())
  overhead u _ := (u, 0)

def lateEnv : Sim.Env (World Unit ℚ) (Obs.Visit Obs) Unit Unit := env tenMinutes wholeKin 20 (fun _ => ()) (fun k _ => k) lateSched

/-- C233 is violated when there is nothing to observe: the loop goes on without taking the time, the next snapshots have the name of the first and replace it.
Here the scheduler is called at 0, at 1/96, at 1/48 and after the visit; of the first three only the last is found, under the time of the first. -/
theorem C233_lost_violated :
    let r := Sim.runSnap lateEnv { duration := 1 / 20, startSize := 2, appendSize := 2, visitLimit := some 2 } 20 ⟨⟨0, 0, 40⟩, (), false⟩
    (r.1.map fun f => (f.name, lateEnv.clock f.w)) = [(0, 0), (0, 1 / 96), (0, 1 / 48), (193 / 4320, 193 / 4320)]
    ∧ (Sim.onDisk r.1 0).map (fun f => lateEnv.clock f.w) = some (1 / 48)
    ∧ ∀ x ∈ [(0 : ℚ), 1 / 96, 1 / 48, 193 / 4320], ((Sim.onDisk r.1 x).any fun f => decide (lateEnv.clock f.w = 0)) = false := by
  decide +kernel

end Verif
