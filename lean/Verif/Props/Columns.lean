import Verif.Model.Columns
import Verif.Props.Parking

/-!
C237: the columns of a visit belong together.
-/

namespace Verif

open Kinem Col

/-- What can be said of the visits the observatory completes can be said of the visits of the result. -/
theorem result_from_observe {W V C B : Type} (E : Sim.Env W V C B) (cfg : Sim.Cfg) (Q : V → Prop)
    (h : ∀ w v0 w' v nn, E.observe w v0 = (w', some v, nn) → Q v) (n : ℕ) (w : W) : ∀ v, some v ∈ (Sim.run (V := V) E cfg n w).st.result → Q v := by
  have hend : ∀ nn (s : Sim.St W V), (∀ v, some v ∈ s.buf → Q v) → ∀ v, some v ∈ (Sim.endOfPass E cfg nn s).st.buf → Q v := by
    intro nn s hs
    rw [Sim.endOfPass_st]
    exact hs
  have hpass : ∀ s : Sim.St W V, (∀ v, some v ∈ s.buf → Q v) → ∀ v, some v ∈ (Sim.pass E cfg s).st.buf → Q v := by
    intro s hs
    unfold Sim.pass
    dsimp only
    generalize E.request _ _ = q
    rcases q with ⟨u, _ | v0⟩
    · dsimp only
      unfold Sim.skipPass
      dsimp only
      split_ifs <;> exact hs
    · dsimp only
      rcases ho : E.observe u v0 with ⟨x, _ | v', nn⟩
      · dsimp only
        unfold Sim.rejectedPass
        dsimp only
        split_ifs
        · exact hs
        · exact hend _ _ hs
      · dsimp only
        unfold Sim.completedPass
        dsimp only
        cases hb : Sim.store cfg s.buf s.counter v' with
        | none => exact hs
        | some b =>
          refine hend _ _ ?_
          intro v hv
          have hv : some v ∈ b := hv
          have key : some v ∈ s.buf.set s.counter (some v') := by
            unfold Sim.store at hb
            dsimp only at hb
            split_ifs at hb
            · cases hb
              rcases List.mem_append.1 hv with hv | hv
              · exact hv
              · cases List.eq_of_mem_replicate hv
            · cases hb
              exact hv
          rcases List.mem_or_eq_of_mem_set key with hv | hv
          · exact hs v hv
          · cases hv
            exact h _ _ _ _ _ ho
  have hloop : ∀ n (s : Sim.St W V), (∀ v, some v ∈ s.buf → Q v) → ∀ v, some v ∈ (Sim.loop E cfg n s).st.buf → Q v := by
    intro n
    induction n with
    | zero => intro s hs; unfold Sim.loop; split_ifs <;> exact hs
    | succ n ih =>
      intro s hs
      unfold Sim.loop
      split_ifs
      · have hp := hpass s hs
        generalize Sim.pass E cfg s = p at hp
        cases p with
        | again s' => exact ih s' hp
        | brk s' => exact hp
        | gaveUp s' => exact hp
        | indexError s' => exact hp
      · exact hs
  intro v hv
  refine hloop n (Sim.start E cfg w) ?_ v (List.mem_of_mem_take hv)
  intro v hv
  cases List.eq_of_mem_replicate (show some v ∈ List.replicate cfg.startSize none from hv)

/-- The columns of a row belong together: everything is as of the beginning of the exposure and computed from the other columns, except that the airmass
is that of the altitude `low`. -/
structure Agree (F : Sky) (C : Cfg ℚ) (S : Obs.Site) (low : ℚ) (r : Row) : Prop where
  night : r.night = ⌊r.mjd - S.mjdStart⌋
  clouds : r.clouds = S.cloud r.mjd
  place : (r.pseudoPa, r.alt, r.az) = F.accurate r.target.1.ra r.target.1.dec r.mjd
  sky : r.rotSkyPos = r.target.1.rotSky
  rot : r.rotTelPos = Ang.sky2tel C.T C.cam r.rotSkyPos r.pseudoPa
  pa : r.pa = F.altaz2pa r.alt r.az
  seeing : r.fwhm500 = F.fwhm500 r.mjd ∧ r.fwhmEff = F.fwhmEff r.fwhm500 r.airmass r.target.1.band ∧ r.fwhmGeom = F.fwhmGeom r.fwhm500 r.airmass r.target.1.band
  bright : r.skybrightness = F.sky r.mjd r.target.1.ra r.target.1.dec r.target.1.band
  clear : r.cloudExtinction = match F.extinction with | none => 0 | some e => e r.mjd r.target.1.ra r.target.1.dec
  depth : r.depth + r.cloudExtinction
    = F.m5 r.target.1.band r.skybrightness r.fwhmEff (r.target.1.exptime / r.target.1.nexp) r.airmass r.target.1.nexp
  lmst : r.lmst = F.lmst r.mjd
  sun : (r.sunRA, r.sunDec) = F.sun r.mjd ∧ r.solarElong = F.sep r.target.1.ra r.target.1.dec r.sunRA r.sunDec
  moon : (r.moonRA, r.moonDec) = F.moon r.mjd ∧ r.moonDist = F.sep r.target.1.ra r.target.1.dec r.moonRA r.moonDec
  air : r.airmass = F.air low

variable {U D : Type}

theorem observe_completed (C : Cfg ℚ) (S : Obs.Site) (resolve lax : Bool) (fuel : ℕ) {s s' : Obs.St (Tel ℚ)} {o : GoodReq} {v : Obs.Visit GoodReq} {nn : Bool}
    (h : Obs.observe S (kin C resolve lax) fuel s o = .ok (s', some v, nn)) :
    v.mjd = s.mjd + v.slewtime / 24 / 3600
    ∧ ∃ k', slew C (Obs.idle S (kin C resolve lax) s).kin { v.target.1 with rotTel := none } s.mjd lax false = some (v.slewtime, k')
      ∧ s'.kin.track = k'.track ∧ s'.kin.lastAlt = k'.lastAlt ∧ s'.kin.lastAz = k'.lastAz := by
  unfold Obs.observe at h
  cases hp : (kin C resolve lax).prepare s.kin s.mjd o with
  | none => rw [hp] at h; cases h
  | some o' =>
    rw [hp] at h
    dsimp only at h
    have ek : (if S.parkAfter < s.mjd - (kin C resolve lax).lastMjd s.kin then (kin C resolve lax).park s.kin else s.kin) = (Obs.idle S (kin C resolve lax) s).kin := rfl
    rw [ek] at h
    generalize (Obs.idle S (kin C resolve lax) s).kin = k at h
    have er : (kin C resolve lax).observe k o' s.mjd = Kinem.observe C k { o'.1 with rotTel := none } s.mjd lax false := rfl
    rw [er] at h
    unfold Kinem.observe at h
    cases hs : slew C k { o'.1 with rotTel := none } s.mjd lax false with
    | none => rw [hs] at h; cases h
    | some x =>
      obtain ⟨x, k'⟩ := x
      rw [hs] at h
      dsimp only at h
      generalize Obs.checkMjd S fuel _ = c at h
      rcases c with e | ⟨b, new⟩
      · cases h
      · cases b
        · cases h
        · cases h
          exact ⟨rfl, k', hs, rfl, rfl, rfl⟩

theorem observeRow_agree (F : Sky) (C : Cfg ℚ) (S : Obs.Site) (resolve lax : Bool) (fuel : ℕ) (w w' : Whole.World U (Tel ℚ)) (r0 r : Row) (nn : Bool)
    (h : observeRow F C S resolve lax fuel w r0 = (w', some r, nn)) :
    Agree F C S (C.altaz r.target.1.ra r.target.1.dec (r.mjd - r.slewtime / 24 / 3600)).1 (finish F C r) := by
  unfold observeRow Whole.observeOf at h
  cases ho : Obs.observe S (kin C resolve lax) fuel w.obs r0.visit.target with
  | error e => rw [ho] at h; cases h
  | ok x =>
    obtain ⟨s', v, nn'⟩ := x
    rw [ho] at h
    cases v with
    | none => cases h
    | some v =>
      cases h
      obtain ⟨hm, k', hs, e1, e2, -⟩ := observe_completed C S resolve lax fuel ho
      obtain ⟨-, d, rotSky, rotTel, hrot, -, -, -, -, hk⟩ := slew_some hs
      have hr : rotSky = v.target.1.rotSky := (congrArg Prod.fst hrot).symm
      subst hk
      dsimp only at e1 e2
      refine ⟨rfl, rfl, rfl, ?_, rfl, rfl, ⟨rfl, rfl, rfl⟩, rfl, rfl, ?_, rfl, ⟨rfl, rfl⟩, ⟨rfl, rfl⟩, ?_⟩
      · show (match s'.kin.track with | none => 0 | some x => x.2.2) = v.target.1.rotSky
        rw [e1]
        exact hr
      · exact sub_add_cancel _ _
      · show F.air s'.kin.lastAlt = F.air (C.altaz v.target.1.ra v.target.1.dec (v.mjd - v.slewtime / 24 / 3600)).1
        have : v.mjd - v.slewtime / 24 / 3600 = w.obs.mjd := by rw [hm]; ring
        rw [e2, this]

/-- C237 (the part that holds): in the table a simulation returns the columns of every visit belong together and to the time of the visit; but the airmass, and with it seeing and depth,
is that of the altitude at the beginning of the slew, as the telescope model has it. -/
theorem C237_columns_partial (F : Sky) (C : Cfg ℚ) (S : Obs.Site) (resolve lax : Bool) (fuel : ℕ) (conds : Obs.St (Tel ℚ) → D) (X : Whole.Sched U GoodReq D (List String))
    (cfg : Sim.Cfg) (n : ℕ) (w : Whole.World U (Tel ℚ)) (r : Row) (h : some r ∈ table F C (Sim.run (Col.env F C S resolve lax fuel conds X) cfg n w).st) :
    Agree F C S (C.altaz r.target.1.ra r.target.1.dec (r.mjd - r.slewtime / 24 / 3600)).1 r := by
  unfold table at h
  obtain ⟨x, hx, e⟩ := List.mem_map.1 h
  cases x with
  | none => cases e
  | some x =>
    cases e
    exact result_from_observe (Col.env F C S resolve lax fuel conds X) cfg
      (fun r => Agree F C S (C.altaz r.target.1.ra r.target.1.dec (r.mjd - r.slewtime / 24 / 3600)).1 (finish F C r))
      (fun w v0 w' v nn ho => observeRow_agree F C S resolve lax fuel w w' v0 v nn ho) n w x hx

/-- Targets rise by 360 degrees a day. -/
def risingCfg : Cfg ℚ := { toyCfg with altaz := fun ra dec mjd => (10 * dec + 360 * mjd, Ang.md 360 ra, 0) }

/-- Simple formulas; the conversion of coordinates is the one of the telescope, and the airmass is 90 over the altitude. -/
def plainSky : Sky where
  fwhm500 _ := 1
  fwhmEff f a _ := f * a
  fwhmGeom f a _ := f * a
  air x := 90 / x
  sky _ _ _ _ := 20
  m5 _ s f t a n := s + t * n / 100 - f - a
  extinction := some fun _ _ _ => 1 / 10
  lmst t := t
  sun _ := (0, 0)
  moon _ := (180, 0)
  sep a b c d := |a - c| + |b - d|
  accurate ra dec t := ((risingCfg.altaz ra dec t).2.2, (risingCfg.altaz ra dec t).1, (risingCfg.altaz ra dec t).2.1)
  altaz2pa _ _ := 0

/-- The table of a simulation with two visits: altitude, airmass, slew time. -/
def colTable : List (Option Row) :=
  table plainSky risingCfg (Sim.run (Col.env plainSky risingCfg tenMinutes true true 20 (fun _ => ()) listSched)
    { duration := 1 / 100, startSize := 2, appendSize := 2, visitLimit := some 2 } 20
    ⟨⟨0, Kinem.new risingCfg "r" 0, 0⟩, [⟨toyReq 10, by norm_num [toyReq]⟩, ⟨toyReq 12, by norm_num [toyReq]⟩], false⟩).st

/-- C237 is violated although the conversions agree: the airmass of a visit is not the one of its altitude, which has changed during the slew. -/
theorem C237_airmass_violated :
    (colTable.map fun r => r.map fun r => (r.alt, r.airmass)) = [some (4023 / 80, 9 / 5), some (1009 / 20, 21600 / 12103)]
    ∧ ∀ r ∈ colTable, (r.any fun r => decide (r.airmass = plainSky.air r.alt)) = false := by
  decide +kernel

/-- So the theorem above speaks of two visits with depths of their own. -/
example : (colTable.map fun r => r.map fun r => (r.slewtime, r.mjd, r.depth)) = [some (69, 23 / 28800, 83 / 5), some (5, 1 / 800, 1006403 / 60515)] := by
  decide +kernel

end Verif
