import Verif.Model.Parking
import Verif.Props.SimSnap

/-!
C234: the conditions tell the state of the telescope.  C235: the telescope is parked when it has not been used for a while.
C236: the slew times of the conditions are those of the visits.
-/

namespace Verif

open Kinem Prk Ang

/-! ### C234 -/

section
variable (C : Cfg ℚ)

/-- Where the telescope was when it was last sent somewhere. -/
def Points (s : Tel ℚ) : Prop :=
  match s.track with
  | none => s.lastAlt = C.parkAlt ∧ s.lastAz = C.parkAz
  | some (ra, dec, _) => s.lastAlt = (C.altaz ra dec s.lastMjd).1 ∧ s.lastAz = (C.altaz ra dec s.lastMjd).2.1

theorem points_step (s : Tel ℚ) (h : Points C s) (o : Kinem.Op ℚ) : Points C (step C s o) := by
  cases o with
  | park => exact ⟨rfl, rfl⟩
  | mount b =>
    show Points C ((mount s b).getD s)
    unfold mount
    cases b.getLast? with
    | none => exact h
    | some l => exact h
  | setupCamera => exact h
  | observe r mjd lax sw =>
    show Points C (Kinem.observe C s r mjd lax sw).1
    unfold Kinem.observe
    cases hs : slew C s r mjd lax sw with
    | none => exact h
    | some p =>
      obtain ⟨t, s'⟩ := p
      obtain ⟨-, _, _, _, -, -, -, -, -, he⟩ := slew_some hs
      subst he
      exact ⟨rfl, rfl⟩

theorem points_run (band : String) (mjd0 : ℚ) (ops : List (Kinem.Op ℚ)) : Points C (ops.foldl (step C) (new C band mjd0)) := by
  have : ∀ (ops : List (Kinem.Op ℚ)) (s : Tel ℚ), Points C s → Points C (ops.foldl (step C) s) := by
    intro ops
    induction ops with
    | nil => exact fun _ h => h
    | cons o l ih => exact fun s h => ih _ (points_step C s h o)
  exact this ops _ ⟨rfl, rfl⟩

variable (S : Obs.Site) (altMin : ℚ) (resolve lax : Bool)

/-- C234 (the part that holds), the position: whatever was done with the telescope before, the altitude and azimuth in the conditions are those of the target it tracks, at
the time it was sent there; with a telescope that is parked, or was sent to its target just now, they are those it has. -/
theorem C234_where_partial (band : String) (mjd0 : ℚ) (ops : List (Kinem.Op ℚ)) (mjd : ℚ) (id : ℕ) :
    let r := telConds C S altMin resolve lax ⟨mjd, ops.foldl (step C) (new C band mjd0), id⟩
    (∀ ra dec rot, r.1.kin.track = some (ra, dec, rot) →
      r.2.telAlt = (C.altaz ra dec r.1.kin.lastMjd).1 ∧ r.2.telAz = (C.altaz ra dec r.1.kin.lastMjd).2.1)
    ∧ (r.1.kin.track = none ∨ r.1.kin.lastMjd = mjd → r.2.telAlt = (position C r.1.kin mjd).1 ∧ r.2.telAz = (position C r.1.kin mjd).2.1) := by
  intro r
  have hp : Points C r.1.kin := by
    show Points C (if _ then Kinem.park C _ else _)
    split_ifs
    · exact ⟨rfl, rfl⟩
    · exact points_run C band mjd0 ops
  have e1 : r.2.telAlt = r.1.kin.lastAlt := rfl
  have e2 : r.2.telAz = r.1.kin.lastAz := rfl
  rw [e1, e2]
  unfold Points at hp
  unfold position
  rcases ht : r.1.kin.track with _ | ⟨ra, dec, rot⟩
  · rw [ht] at hp
    exact ⟨fun _ _ _ h => (by cases h), fun _ => hp⟩
  · rw [ht] at hp
    refine ⟨fun ra' dec' rot' h => ?_, fun h => ?_⟩
    · simp only [Option.some.injEq, Prod.mk.injEq] at h
      obtain ⟨rfl, rfl, rfl⟩ := h
      exact hp
    · rcases h with h | h
      · cases h
      · rw [← h]; exact hp

/-- C234 (the part that holds), the band: it is the band in the light path if the last slew did not begin too long ago, and always if conditions are asked for a second time. -/
theorem C234_band_partial (s : Obs.St (Tel ℚ)) :
    (s.mjd - s.kin.lastMjd ≤ S.parkAfter → (telConds C S altMin resolve lax s).2.band = (telConds C S altMin resolve lax s).1.kin.band)
    ∧ (let s' := (telConds C S altMin resolve lax s).1
       (telConds C S altMin resolve lax s').2.band = (telConds C S altMin resolve lax s').1.kin.band) := by
  refine ⟨fun h => ?_, ?_⟩
  · show s.kin.band = (if S.parkAfter < s.mjd - s.kin.lastMjd then Kinem.park C s.kin else s.kin).band
    rw [if_neg (not_lt.2 h)]
  · show (Obs.idle S (kin C resolve lax) s).kin.band = (Obs.idle S (kin C resolve lax) (Obs.idle S (kin C resolve lax) s)).kin.band
    rw [(parks_telescope C resolve lax).idle_idle S s]

/-- The bands that a call mounts, if it mounts any. -/
def mountedBy : Kinem.Op ℚ → Option (List String)
  | .mount [] => none
  | .mount b => some b
  | .setupCamera => some ["u", "g", "r", "i", "y"]
  | _ => none

/-- C234, the bands that may be chosen: the conditions have those mounted last, which are all but z for a telescope that had no bands mounted. -/
theorem C234_mounted (band : String) (mjd0 : ℚ) (ops : List (Kinem.Op ℚ)) (mjd : ℚ) (id : ℕ) :
    (telConds C S altMin resolve lax ⟨mjd, ops.foldl (step C) (new C band mjd0), id⟩).2.mounted = (ops.filterMap mountedBy).getLast?.getD ["u", "g", "r", "i", "y"] := by
  show (ops.foldl (step C) (new C band mjd0)).mounted = _
  induction ops using List.reverseRecOn with
  | nil => rfl
  | append_singleton ops op ih =>
    rw [List.foldl_append, List.filterMap_append, List.foldl_cons, List.foldl_nil]
    rcases op with _ | b | _ | ⟨r, mjd, lx, sw⟩
    · simpa [mountedBy, step, Kinem.park] using ih
    · rcases b with _ | ⟨x, b⟩
      · simpa [mountedBy, step, mount] using ih
      · have hl : (x :: b).getLast? = some ((x :: b).getLast (by simp)) := List.getLast?_eq_getLast_of_ne_nil (by simp)
        unfold step mount
        dsimp only
        rw [hl]
        simp [mountedBy]
    · simp [mountedBy, step, setupCamera, defaultBands]
    · have : (step C (ops.foldl (step C) (new C band mjd0)) (.observe r mjd lx sw)).mounted = (ops.foldl (step C) (new C band mjd0)).mounted := by
        show (observe C _ r mjd lx sw).1.mounted = _
        unfold observe
        rcases h : slew C (ops.foldl (step C) (new C band mjd0)) r mjd lx sw with _ | ⟨t, s'⟩
        · rfl
        · unfold slew at h
          dsimp only at h ⊢
          split_ifs at h
          all_goals
            split at h
            · cases h
            · repeat' split at h
              all_goals cases h
              all_goals rfl
      rw [this, ih]
      simp [mountedBy]

end

/-- A telescope that was sent to a visit in g at the time 0. -/
def gTel : Tel ℚ := step toyCfg (new toyCfg "r" 0) (.observe { toyReq 10 with band := "g" } 0 true false)

/-- C234 is violated: the conditions made twenty minutes after a visit in g say that g is in the light path; but the telescope has just been parked, which puts r there,
and the slew times are for r. -/
theorem C234_band_violated :
    let r := telConds toyCfg tenMinutes 20 true true ⟨1 / 72, gTel, 0⟩
    r.2.band = "g" ∧ r.1.kin.band = "r" := by
  decide +kernel

/-- C234 is violated: five minutes after the slew to a visit the conditions have the azimuth the target had then; the telescope has followed it. -/
theorem C234_where_violated :
    let r := telConds toyCfg tenMinutes 20 true true ⟨1 / 288, gTel, 0⟩
    r.2.telAz = 10 ∧ (position toyCfg r.1.kin r.1.mjd).2.1 = 10 + 5 / 72 := by
  decide +kernel

/-! ### C235 -/

/-- C235 (the part that holds): after a visit, a telescope that is not used for longer than `parkAfter` is parked when something is asked of the observatory; and it is left as it is
as long as the time of the slew and the visit and the time since then together are not longer than that. -/
theorem C235_parked_partial (C : Cfg ℚ) (hC : Sane C) (S : Obs.Site) (resolve lax : Bool) (fuel : ℕ) (s s' : Obs.St (Tel ℚ)) (o : GoodReq) (v : Obs.Visit GoodReq) (nn : Bool)
    (h : Obs.observe S (kin C resolve lax) fuel s o = .ok (s', some v, nn)) (t : ℚ) :
    let unused := t - (v.mjd + v.visittime / 24 / 3600)
    (S.parkAfter < unused → (Obs.idle S (kin C resolve lax) { s' with mjd := t }).kin = Kinem.park C s'.kin)
    ∧ (v.slewtime / 24 / 3600 + v.visittime / 24 / 3600 + unused ≤ S.parkAfter → (Obs.idle S (kin C resolve lax) { s' with mjd := t }).kin = s'.kin) := by
  intro unused
  have hn := C21_telescope_times C hC resolve lax
  have hb := starts_telescope C resolve lax
  unfold Obs.observe at h
  have key : s'.kin.lastMjd = s.mjd ∧ v.mjd = s.mjd + v.slewtime / 24 / 3600 ∧ 0 ≤ v.slewtime ∧ 0 ≤ v.visittime := by
    cases hp : (kin C resolve lax).prepare s.kin s.mjd o with
    | none => rw [hp] at h; cases h
    | some o' =>
      rw [hp] at h
      dsimp only at h
      generalize (if S.parkAfter < s.mjd - (kin C resolve lax).lastMjd s.kin then (kin C resolve lax).park s.kin else s.kin) = k at h
      cases hs : ((kin C resolve lax).observe k o' s.mjd).2.1 with
      | none => rw [hs] at h; cases h
      | some x =>
        rw [hs] at h
        dsimp only at h
        generalize Obs.checkMjd S fuel (s.mjd + (x + ((kin C resolve lax).observe k o' s.mjd).2.2) / 24 / 3600) = c at h
        rcases c with e | ⟨b, new⟩
        · cases h
        · cases b
          · cases h
          · cases h
            exact ⟨hb.begun _ _ _ _ hs, rfl, (hn k o' s.mjd).1 x hs, (hn k o' s.mjd).2⟩
  obtain ⟨h1, h2, h3, h4⟩ := key
  have h5 : 0 ≤ v.slewtime / 24 / 3600 := by positivity
  have h6 : 0 ≤ v.visittime / 24 / 3600 := by positivity
  refine ⟨fun hu => ?_, fun hu => ?_⟩
  · show (if S.parkAfter < t - s'.kin.lastMjd then Kinem.park C s'.kin else s'.kin) = _
    rw [if_pos]
    rw [h1]
    show S.parkAfter < t - s.mjd
    have : S.parkAfter < t - (v.mjd + v.visittime / 24 / 3600) := hu
    linarith
  · show (if S.parkAfter < t - s'.kin.lastMjd then Kinem.park C s'.kin else s'.kin) = _
    rw [if_neg]
    rw [h1, not_lt]
    have : v.slewtime / 24 / 3600 + v.visittime / 24 / 3600 + (t - (v.mjd + v.visittime / 24 / 3600)) ≤ S.parkAfter := hu
    linarith

/-- Two visits of the same field, one right after the other: the times of the slews. -/
def twoSlews (exptime : ℕ) : List ℚ :=
  (Obs.run tenMinutes (kin toyCfg true true) 20 ⟨0, new toyCfg "r" 0, 0⟩
    [.observe ⟨{ toyReq 10 with exptime := exptime }, by norm_num [toyReq]⟩, .observe ⟨{ toyReq 10 with exptime := exptime }, by norm_num [toyReq]⟩]).2.map fun v => v.slewtime

/-- C235 is violated by visits longer than `parkAfter`, because the time is counted from the beginning of the slew: with visits of 700 s and no time between them the telescope is
parked before the second, and comes back all the way; with visits of 300 s there is only the readout. -/
theorem C235_long_violated : twoSlews 700 = [69, 69] ∧ twoSlews 300 = [69, 2] := by
  decide +kernel

/-! ### C236 -/

theorem prepare_same (C : Cfg ℚ) (resolve lax : Bool) {k : Tel ℚ} {t : ℚ} {o o' : GoodReq} (h : (kin C resolve lax).prepare k t o = some o') :
    o'.1.ra = o.1.ra ∧ o'.1.dec = o.1.dec ∧ o'.1.band = o.1.band := by
  have h : (updateRot C resolve k t o.1).map (fun q => (⟨{ o.1 with rotSky := q.rotSky, rotTel := q.rotTel }, o.2⟩ : GoodReq)) = some o' := h
  cases hu : updateRot C resolve k t o.1 with
  | none => rw [hu] at h; cases h
  | some q => rw [hu] at h; cases h; exact ⟨rfl, rfl, rfl⟩

/-- Slews to the place of a visit, by the conditions and by the telescope. -/
theorem slewTo_slew (C : Cfg ℚ) (hC : Sane C) (k k' : Tel ℚ) (hb : k.band ∈ k.mounted) (r : Req ℚ) (mjd t : ℚ) (lax : Bool) (h : slew C k r mjd lax false = some (t, k')) :
    ∃ t0, slewTo C k (C.altaz r.ra r.dec mjd).1 (C.altaz r.ra r.dec mjd).2.1 mjd lax = some t0 ∧ t0 ≤ t
      ∧ (r.band ≠ k.band → t = t0 + if k.track.isSome then C.bandChange else 0)
      ∧ (r.band = k.band → C.rotTime |smallestSigned C.T (position C k mjd).2.2 (rotTarget C r (C.altaz r.ra r.dec mjd).2.2).2| = 0 → t = t0) := by
  obtain ⟨-, d, rotSky, rotTel, hrot, hd, -, halt, ht, -⟩ := slew_some h
  set p := C.altaz r.ra r.dec mjd with hp
  set q := position C k mjd with hq
  have hbase : (0 : ℚ) ≤ max (max k.overhead (telTime C |p.1 - q.1| d)) (domeTime C lax |p.1 - q.1| |smallestSigned C.T q.2.1 p.2.1|) :=
    le_max_of_le_left (le_max_of_le_right ((hC.altTime _ (abs_nonneg _)).trans (telTime_ge hC (abs_nonneg _)).1))
  set base := max (max k.overhead (telTime C |p.1 - q.1| d)) (domeTime C lax |p.1 - q.1| |smallestSigned C.T q.2.1 p.2.1|) with hbd
  refine ⟨addChanges C k k.band false |p.1 - q.1| base, ?_, ?_, ?_, ?_⟩
  · unfold slewTo
    rw [if_neg (not_not.2 hb)]
    dsimp only
    rw [← hq, hd]
    dsimp only
    rw [if_neg]
    intro hx
    rcases hx with hx | hx
    · exact absurd hx (not_lt.2 halt.2)
    · exact absurd hx (not_lt.2 halt.1)
  · rw [ht]
    have hm : base ≤ max base (rotatorTime C k r.band q.2.2 rotTel) := le_max_left _ _
    unfold addChanges
    have hbc := hC.band
    by_cases hB : r.band = k.band
    · simp only [hB, ne_eq, not_true, decide_false, Bool.and_false, Bool.false_eq_true, if_false]
      rw [hB] at hm
      split_ifs <;> linarith
    · simp only [ne_eq, not_true, decide_false, Bool.and_false, Bool.false_eq_true, if_false]
      split_ifs <;> linarith
  · intro hB
    have hz : rotatorTime C k r.band q.2.2 rotTel = 0 := by unfold rotatorTime; rw [if_pos hB]
    rw [ht, hz, max_eq_left hbase]
    unfold addChanges
    simp only [ne_eq, not_true, decide_false, Bool.and_false, Bool.false_eq_true, if_false, hB, not_false_eq_true, decide_true, Bool.and_true]
    split_ifs <;> ring
  · intro hB hz
    have hz : rotatorTime C k r.band q.2.2 rotTel = 0 := by
      unfold rotatorTime
      rw [if_neg (by simp [hB])]
      rw [hrot] at hz
      exact hz
    rw [ht, hz, max_eq_left hbase, hB]

/-- C236: a visit made right after conditions were asked for takes at least the slew time the conditions give for its place. In another band it takes the time of the change
of bands more (nothing more if the telescope is parked); in the band in the light path it takes the same if the rotator has no way to go. -/
theorem C236_slewtimes (C : Cfg ℚ) (hC : Sane C) (S : Obs.Site) (altMin : ℚ) (resolve lax : Bool) (fuel : ℕ) (s s' : Obs.St (Tel ℚ)) (o : GoodReq) (v : Obs.Visit GoodReq) (nn : Bool)
    (hb : (telConds C S altMin resolve lax s).1.kin.band ∈ (telConds C S altMin resolve lax s).1.kin.mounted)
    (h : Obs.observe S (kin C resolve lax) fuel (telConds C S altMin resolve lax s).1 o = .ok (s', some v, nn)) (ha : altMin < (C.altaz o.1.ra o.1.dec s.mjd).1) :
    let k := (telConds C S altMin resolve lax s).1.kin
    let p := C.altaz o.1.ra o.1.dec s.mjd
    ∃ t, (telConds C S altMin resolve lax s).2.slewtime p.1 p.2.1 = some t ∧ t ≤ v.slewtime
      ∧ (o.1.band ≠ k.band → v.slewtime = t + if k.track.isSome then C.bandChange else 0)
      ∧ (o.1.band = k.band → C.rotTime |smallestSigned C.T (position C k s.mjd).2.2 (sky2tel C.T C.cam v.target.1.rotSky p.2.2)| = 0 → v.slewtime = t) := by
  intro k p
  have hi : Obs.idle S (kin C resolve lax) (telConds C S altMin resolve lax s).1 = (telConds C S altMin resolve lax s).1 := (parks_telescope C resolve lax).idle_idle S s
  have hk : (if S.parkAfter < (telConds C S altMin resolve lax s).1.mjd - (kin C resolve lax).lastMjd (telConds C S altMin resolve lax s).1.kin
      then (kin C resolve lax).park (telConds C S altMin resolve lax s).1.kin else (telConds C S altMin resolve lax s).1.kin) = k := congrArg Obs.St.kin hi
  have em : (telConds C S altMin resolve lax s).1.mjd = s.mjd := rfl
  have key : ∃ o', (kin C resolve lax).prepare k s.mjd o = some o' ∧ v.target = o' ∧ ∃ k', slew C k { o'.1 with rotTel := none } s.mjd lax false = some (v.slewtime, k') := by
    unfold Obs.observe at h
    cases hp : (kin C resolve lax).prepare (telConds C S altMin resolve lax s).1.kin (telConds C S altMin resolve lax s).1.mjd o with
    | none => rw [hp] at h; cases h
    | some o' =>
      rw [hp] at h
      dsimp only at h
      rw [hk, em] at h
      have er : (kin C resolve lax).observe k o' s.mjd = Kinem.observe C k { o'.1 with rotTel := none } s.mjd lax false := rfl
      cases hs : slew C k { o'.1 with rotTel := none } s.mjd lax false with
      | none =>
        rw [er] at h
        unfold Kinem.observe at h
        rw [hs] at h
        cases h
      | some x =>
        obtain ⟨x, k'⟩ := x
        rw [er] at h
        unfold Kinem.observe at h
        rw [hs] at h
        dsimp only at h
        generalize Obs.checkMjd S fuel _ = c at h
        rcases c with e | ⟨b, new⟩
        · cases h
        · cases b
          · cases h
          · cases h
            exact ⟨o', hp, rfl, k', hs⟩
  obtain ⟨o', hp, ht, k', hs⟩ := key
  obtain ⟨e1, e2, e3⟩ := prepare_same C resolve lax hp
  obtain ⟨t0, g1, g2, g3, g4⟩ := slewTo_slew C hC k k' hb _ s.mjd v.slewtime lax hs
  dsimp only at g1 g3 g4
  rw [e1, e2] at g1 g4
  rw [e3] at g3 g4
  refine ⟨t0, ?_, g2, g3, ?_⟩
  · show (if altMin < p.1 then slewTo C k p.1 p.2.1 s.mjd lax else none) = some t0
    rw [if_pos ha, g1]
  · rw [ht]
    exact g4

/-- The assumptions are met, and the times are these: 2 s for a second visit of a field as the conditions say, and 122 s in another band. -/
example :
    let s : Obs.St (Tel ℚ) := ⟨1 / 288, step toyCfg (new toyCfg "r" 0) (.observe (toyReq 10) 0 true false), 0⟩
    let r := telConds toyCfg tenMinutes 20 true true s
    r.1.kin.band ∈ r.1.kin.mounted ∧ 20 < (toyCfg.altaz 10 5 s.mjd).1 ∧ r.2.slewtime (toyCfg.altaz 10 5 s.mjd).1 (toyCfg.altaz 10 5 s.mjd).2.1 = some 2
    ∧ ((Obs.observe tenMinutes (kin toyCfg true true) 20 r.1 ⟨toyReq 10, by norm_num [toyReq]⟩).toOption.bind fun x => x.2.1.map fun v => v.slewtime) = some 2
    ∧ ((Obs.observe tenMinutes (kin toyCfg true true) 20 r.1 ⟨{ toyReq 10 with band := "g" }, by norm_num [toyReq]⟩).toOption.bind fun x => x.2.1.map fun v => v.slewtime) = some 122 := by
  decide +kernel

end Verif
