import Verif.Lemmas.Kinem
import Verif.Spec.Kinem
import Verif.Spec.Observatory
import Mathlib.Tactic.NormNum

/-!
Properties C27-C29 and C66-C67: the telescope.
-/

namespace Verif

open Kinem Ang

section
variable {α : Type} [Field α] [LinearOrder α] [IsStrictOrderedRing α] [FloorRing α]

/-! A small telescope for examples: degrees, limits of ±250 in azimuth, the altitude is 10 times
the declination and the azimuth the right ascension plus 20 degrees per day. -/

/-- Limits as in the defaults; all motions take one second per degree. -/
def toyCfg : Cfg ℚ where
  T := 360
  altaz ra dec mjd := (10 * dec, md 360 (ra + 20 * mjd), 0)
  cam := .comcam
  parkAlt := 80
  parkAz := 0
  readtime := 2
  shuttertime := 1
  bandChange := 120
  fov := 3
  rotMin := -90
  rotMax := 90
  shutter2 := 15
  altMin := 20
  altMax := 85
  azMin := -250
  azMax := 250
  settle := 3
  olSlope := 10
  clDelay := 36
  clLimit := 9
  domAltSpeed := 2
  domAzSpeed := 2
  domSettle := 1
  altTime d := d
  azTime d := d
  rotTime d := d
  domAltTime d := d
  domAzTime d := d

/-- A 30 s exposure in `r` at this right ascension, 50 degrees up. -/
def toyReq (ra : ℚ) : Req ℚ := ⟨ra, 5, 0, none, "r", 30, 2⟩

/-! ### C27 -/

theorem fullCircle_of {C : Cfg α} (h : C.T ≤ C.azMax - C.azMin) : fullCircle C = true := by
  simp only [fullCircle, decide_eq_true_eq]
  exact h.trans (le_abs_self _)

theorem step_cum {C : Cfg α} (hT : 0 < C.T) (hr : C.T ≤ C.azMax - C.azMin) (h1 : C.azMin ≤ 0) (h2 : 0 ≤ C.azMax)
    {s : Tel α} (hs : C.azMin ≤ s.cum ∧ s.cum ≤ C.azMax) (op : Op α) :
    C.azMin ≤ (step C s op).cum ∧ (step C s op).cum ≤ C.azMax := by
  cases op with
  | park => exact ⟨h1, h2⟩
  | mount b =>
    simp only [step, mount]
    cases b.getLast? <;> exact hs
  | setupCamera => exact hs
  | observe r mjd lax sw =>
    simp only [step, observe]
    cases h : slew C s r mjd lax sw with
    | none => exact hs
    | some p =>
      obtain ⟨t, s'⟩ := p
      obtain ⟨-, d, _, _, -, hd, -, -, -, he⟩ := slew_some h
      rw [fullCircle_of hr] at hd he
      obtain ⟨-, h3, h4, -⟩ := azFull_spec hT hd
      simp only [he, if_true]
      exact ⟨h3, h4⟩

/-- C27: with a full-circle azimuth range around the park position, after any sequence of
calls the recorded accumulated azimuth is within the configured limits. -/
theorem C27_recorded_within_limits (C : Cfg α) (hT : 0 < C.T) (hr : C.T ≤ C.azMax - C.azMin) (h1 : C.azMin ≤ 0)
    (h2 : 0 ≤ C.azMax) (band : String) (mjd0 : α) (ops : List (Op α)) :
    C.azMin ≤ (ops.foldl (step C) (new C band mjd0)).cum ∧ (ops.foldl (step C) (new C band mjd0)).cum ≤ C.azMax := by
  have : ∀ (ops : List (Op α)) (s : Tel α), C.azMin ≤ s.cum ∧ s.cum ≤ C.azMax →
      C.azMin ≤ (ops.foldl (step C) s).cum ∧ (ops.foldl (step C) s).cum ≤ C.azMax := by
    intro ops
    induction ops with
    | nil => intro s hs; exact hs
    | cons op ops ih => intro s hs; exact ih _ (step_cum hT hr h1 h2 hs op)
  exact this ops _ ⟨h1, h2⟩

/-- C27: every accepted slew turns the telescope from where it points to the azimuth of the
target, up to whole turns, and no way to do this within the limits of the accumulated azimuth
is shorter. -/
theorem C27_lands_on_target (C : Cfg α) (hT : 0 < C.T) (hr : C.T ≤ C.azMax - C.azMin) (s s' : Tel α) (r : Req α)
    (mjd t : α) (lax sw : Bool) (h : slew C s r mjd lax sw = some (t, s')) :
    let d := s'.cum - s.cum
    SameAngle C.T ((position C s mjd).2.1 + d) (C.altaz r.ra r.dec mjd).2.1 ∧
    (position C s' mjd).2.1 = (C.altaz r.ra r.dec mjd).2.1 ∧
    ∀ d', SameAngle C.T ((position C s mjd).2.1 + d') (C.altaz r.ra r.dec mjd).2.1 →
      C.azMin ≤ s.cum + d' → s.cum + d' ≤ C.azMax → |d| ≤ |d'| := by
  obtain ⟨-, d, rs, rt, -, hd, -, -, -, he⟩ := slew_some h
  rw [fullCircle_of hr] at hd he
  obtain ⟨k1, -, -, k4⟩ := azFull_spec hT hd
  have : s'.cum - s.cum = d := by rw [he]; simp
  rw [this]
  exact ⟨k1, by rw [he]; rfl, k4⟩

/-- With a range of less than a full circle, targets of accepted slews are inside the arc that
starts at the lower limit. -/
theorem C27_restricted_range (C : Cfg α) (hT : 0 < C.T) (hr : |C.azMax - C.azMin| < C.T) (s s' : Tel α) (r : Req α)
    (mjd t : α) (lax sw : Bool) (h : slew C s r mjd lax sw = some (t, s')) :
    ∃ x, 0 ≤ x ∧ x ≤ md C.T (C.azMax - C.azMin) ∧ SameAngle C.T (C.azMin + x) (C.altaz r.ra r.dec mjd).2.1 ∧
      s'.cum = (C.altaz r.ra r.dec mjd).2.1 := by
  obtain ⟨-, d, rs, rt, -, hd, -, -, -, he⟩ := slew_some h
  have hf : fullCircle C = false := by simp [fullCircle, hr]
  rw [hf] at hd he
  simp only [Bool.false_eq_true, if_false, azRestricted] at hd
  split at hd
  · cases hd
  · rename_i hle
    refine ⟨_, md_nonneg hT _, not_lt.1 hle, ?_, by rw [he]; simp⟩
    have := (SameAngle.refl C.T C.azMin).add (md_same C.T ((C.altaz r.ra r.dec mjd).2.1 - C.azMin))
    rwa [show C.azMin + ((C.altaz r.ra r.dec mjd).2.1 - C.azMin) = (C.altaz r.ra r.dec mjd).2.1 by ring] at this

/-- C27 for the azimuth really turned through, without motion of the sky: it equals the
recorded one, and so is within the limits. Missing: tracking, see `C27_violated`. -/
theorem C27_turned_within_limits_partial (C : Cfg α) (hT : 0 < C.T) (hr : C.T ≤ C.azMax - C.azMin) (h1 : C.azMin ≤ 0)
    (h2 : 0 ≤ C.azMax) (hsky : ∀ ra dec m m', C.altaz ra dec m = C.altaz ra dec m')
    (band : String) (mjd0 : α) (ops : List (Op α)) :
    C.azMin ≤ (runTurned C (new C band mjd0) 0 ops).2 ∧ (runTurned C (new C band mjd0) 0 ops).2 ≤ C.azMax := by
  have hzero : ∀ x : α, smallestSigned C.T x x = 0 := by
    intro x
    have : md C.T 0 = 0 := md_of_mem hT le_rfl hT
    simp [smallestSigned, this]
  have key : ∀ (ops : List (Op α)) (s : Tel α) (w : α), (C.azMin ≤ s.cum ∧ s.cum ≤ C.azMax) → w = s.cum →
      (∀ ra dec rs, s.track = some (ra, dec, rs) → ∀ m, s.lastAz = (C.altaz ra dec m).2.1) →
      C.azMin ≤ (runTurned C s w ops).2 ∧ (runTurned C s w ops).2 ≤ C.azMax := by
    intro ops
    induction ops with
    | nil => rintro s w hs rfl -; exact hs
    | cons op ops ih =>
      rintro s w hs rfl htr
      have hs' := step_cum hT hr h1 h2 hs op
      refine ih _ _ hs' ?_ ?_
      · cases op with
        | park => rfl
        | mount b => simp only [turnedStep, step, mount]; cases b.getLast? <;> rfl
        | setupCamera => rfl
        | observe r mjd lax sw =>
          simp only [turnedStep]
          split
          · have : (if s.track.isSome then smallestSigned C.T s.lastAz (position C s mjd).2.1 else 0) = 0 := by
              split
              · rename_i hsome
                obtain ⟨⟨ra, dec, rs⟩, he⟩ := Option.isSome_iff_exists.1 hsome
                rw [htr ra dec rs he mjd]
                simp only [position, he]
                exact hzero _
              · rfl
            rw [this]; ring
          · rename_i hn
            simp only [step]
            cases h : slew C s r mjd lax sw with
            | none => simp only [observe, h]
            | some p => simp [observe, h] at hn
      · cases op with
        | park => intro _ _ _ h; simp [step, park] at h
        | mount b => simp only [step, mount]; cases b.getLast? <;> exact htr
        | setupCamera => exact htr
        | observe r mjd lax sw =>
          simp only [step, observe]
          cases h : slew C s r mjd lax sw with
          | none => exact htr
          | some p =>
            obtain ⟨t, s'⟩ := p
            obtain ⟨-, d, _, _, -, -, -, -, -, he⟩ := slew_some h
            intro ra dec rs htrack m
            simp only [he, Option.some.injEq, Prod.mk.injEq] at htrack ⊢
            rw [← htrack.1, ← htrack.2.1, hsky r.ra r.dec mjd m]
  exact key ops _ 0 ⟨h1, h2⟩ rfl (by intro _ _ _ h; simp [new, park] at h)

/-- C27 fails for the code when tracking is counted: the recorded azimuth leaves out the
motion of the sky. Slewing to 170 and on to 240 degrees, tracking for a day (20 degrees) and
slewing 5 degrees further ends at 265 degrees, beyond the limit of 250, while the record says 245. -/
theorem C27_violated :
    let ops := [Op.observe (toyReq 170) 0 true false, .observe (toyReq 240) 0 true false,
      .observe (toyReq 245) 1 true false]
    (runTurned toyCfg (new toyCfg "r" 0) 0 ops).2 = 265 ∧ (ops.foldl (step toyCfg) (new toyCfg "r" 0)).cum = 245 ∧
    toyCfg.azMax = 250 := by
  decide +kernel

/-- The hypotheses hold for the small telescope, and slews do wrap: from 170 degrees the target at
350 degrees is reached through 170 - 180, not beyond 250. -/
example : toyCfg.T ≤ toyCfg.azMax - toyCfg.azMin ∧
    ([Op.observe (toyReq 170) 0 true false, .observe (toyReq 350) 0 true false].foldl (step toyCfg)
      (new toyCfg "r" 0)).cum = -10 := by
  decide +kernel

/-! ### C28 -/

/-- C28: an observation that is not possible leaves the whole telescope as it was. -/
theorem C28_unchanged (C : Cfg α) (s : Tel α) (r : Req α) (mjd : α) (lax sw : Bool)
    (h : (observe C s r mjd lax sw).2.1 = none) : (observe C s r mjd lax sw).1 = s := by
  unfold observe at h ⊢
  cases hs : slew C s r mjd lax sw with
  | none => rfl
  | some p => rw [hs] at h; simp at h

/-- C28: with a full-circle azimuth range, an observation is possible exactly if its band is
mounted and altitude and rotator angle are within their limits. -/
theorem C28_possible_iff (C : Cfg α) (hT : 0 < C.T) (hr : C.T ≤ C.azMax - C.azMin) (s : Tel α)
    (hs : C.azMin ≤ s.cum ∧ s.cum ≤ C.azMax) (r : Req α) (mjd : α) (lax sw : Bool) :
    (observe C s r mjd lax sw).2.1 ≠ none ↔
      r.band ∈ s.mounted ∧
      (C.altMin ≤ (C.altaz r.ra r.dec mjd).1 ∧ (C.altaz r.ra r.dec mjd).1 ≤ C.altMax) ∧
      (C.rotMin ≤ (rotTarget C r (C.altaz r.ra r.dec mjd).2.2).2 ∧
        (rotTarget C r (C.altaz r.ra r.dec mjd).2.2).2 ≤ C.rotMax) := by
  constructor
  · intro h
    unfold observe at h
    cases hsl : slew C s r mjd lax sw with
    | none => rw [hsl] at h; simp at h
    | some p =>
      obtain ⟨t, s'⟩ := p
      obtain ⟨hb, d, rs, rt, he, -, h2, h3, -⟩ := slew_some hsl
      rw [he]
      exact ⟨hb, h3, h2⟩
  · rintro ⟨hb, ⟨a1, a2⟩, b1, b2⟩
    obtain ⟨d, hd⟩ := azFull_some hT hr hs.1 hs.2 (position C s mjd).2.1 (C.altaz r.ra r.dec mjd).2.1
    have : ∃ p, slew C s r mjd lax sw = some p := by
      unfold slew
      dsimp only
      rw [if_neg (not_not.2 hb), fullCircle_of hr]
      simp only [if_true, hd]
      rw [if_neg (not_or.2 ⟨not_lt.2 b1, not_lt.2 b2⟩), if_neg (not_or.2 ⟨not_lt.2 a2, not_lt.2 a1⟩)]
      exact ⟨_, rfl⟩
    obtain ⟨p, hp⟩ := this
    unfold observe
    rw [hp]
    simp

/-- Below the horizon limit nothing changes; otherwise the observation is made. -/
example : (observe toyCfg (new toyCfg "r" 0) ⟨10, 1, 0, none, "r", 30, 2⟩ 0 true false).2.1 = none ∧
    (observe toyCfg (new toyCfg "r" 0) (toyReq 10) 0 true false).2.1 = some (30 + 3 + 36) := by
  decide +kernel

/-! ### C29 -/

/-- The band in the camera and the start band are among the mounted ones. -/
def BandsMounted (s : Tel α) : Prop := s.band ∈ s.mounted ∧ s.startBand ∈ s.mounted

theorem mount_mounted {s s' : Tel α} {b : List String} (h : mount s b = some s') : BandsMounted s' ∧ s'.mounted = b := by
  unfold mount at h
  cases hl : b.getLast? with
  | none => rw [hl] at h; cases h
  | some l =>
    rw [hl] at h
    have hmem : l ∈ b := List.mem_of_getLast? hl
    simp only [Option.some.injEq] at h
    subst h
    refine ⟨⟨?_, ?_⟩, rfl⟩ <;> dsimp only <;> split <;> assumption

theorem step_mounted {C : Cfg α} {s : Tel α} (hs : BandsMounted s) (op : Op α) (hop : op ≠ .setupCamera) :
    BandsMounted (step C s op) := by
  cases op with
  | park => exact ⟨hs.2, hs.2⟩
  | mount b =>
    simp only [step]
    cases h : mount s b with
    | none => exact hs
    | some s' => exact (mount_mounted h).1
  | setupCamera => exact absurd rfl hop
  | observe r mjd lax sw =>
    simp only [step, observe]
    cases h : slew C s r mjd lax sw with
    | none => exact hs
    | some p =>
      obtain ⟨t, s'⟩ := p
      obtain ⟨hb, d, _, _, -, -, -, -, -, he⟩ := slew_some h
      exact ⟨by simp only [he]; exact hb, by simp only [he]; exact hs.2⟩

/-- C29, for a telescope made with one of the default bands as start band: after any sequence
of mounting, parking and observing, the band in the camera is mounted. Missing: start band
`z`, and setting up the camera again (`C29_violated`). -/
theorem C29_band_mounted_partial (C : Cfg α) (band : String) (hb : band ∈ defaultBands) (mjd0 : α) (ops : List (Op α))
    (hops : ∀ op ∈ ops, op ≠ .setupCamera) :
    let s := ops.foldl (step C) (new C band mjd0)
    s.band ∈ s.mounted := by
  have : ∀ (ops : List (Op α)) (s : Tel α), (∀ op ∈ ops, op ≠ .setupCamera) → BandsMounted s →
      BandsMounted (ops.foldl (step C) s) := by
    intro ops
    induction ops with
    | nil => intro s _ hs; exact hs
    | cons op ops ih =>
      intro s h hs
      exact ih _ (fun o ho => h o (by simp [ho])) (step_mounted hs op (h op (by simp)))
  exact (this ops _ hops ⟨hb, hb⟩).1

/-- Once bands have been mounted by hand, the start band no longer matters: mounting any
non-empty list from any state restores the property. -/
theorem C29_mount_restores (C : Cfg α) (s : Tel α) (b : List String) (hb : b ≠ []) (ops : List (Op α))
    (hops : ∀ op ∈ ops, op ≠ .setupCamera) :
    let s' := ops.foldl (step C) (step C s (.mount b))
    s'.band ∈ s'.mounted := by
  have h0 : BandsMounted (step C s (.mount b)) := by
    simp only [step]
    cases h : mount s b with
    | none =>
      unfold mount at h
      cases hl : b.getLast? with
      | none => exact absurd (List.getLast?_eq_none_iff.1 hl) hb
      | some l => rw [hl] at h; cases h
    | some s' => exact (mount_mounted h).1
  have : ∀ (ops : List (Op α)) (s : Tel α), (∀ op ∈ ops, op ≠ .setupCamera) → BandsMounted s →
      BandsMounted (ops.foldl (step C) s) := by
    intro ops
    induction ops with
    | nil => intro s _ hs; exact hs
    | cons op ops ih =>
      intro s h hs
      exact ih _ (fun o ho => h o (by simp [ho])) (step_mounted hs op (h op (by simp)))
  exact (this ops _ hops h0).1

end

/-- C29 fails for the code: a telescope made with start band `z` has `z` in the camera, but not
mounted; the same after `setup_camera` when `z` is in use. -/
theorem C29_violated :
    (let s := new toyCfg "z" 0; s.band = "z" ∧ "z" ∉ s.mounted) ∧
    (let s := [Op.mount ["g", "r", "z"], .observe { toyReq 10 with band := "z" } 0 true false, .setupCamera].foldl
        (step toyCfg) (new toyCfg "r" 0)
     s.band = "z" ∧ "z" ∉ s.mounted) := by
  decide +kernel

example : "r" ∈ defaultBands ∧
    ([Op.mount ["g", "z"], .observe { toyReq 10 with band := "z" } 0 true false, .mount ["g", "r"]].foldl (step toyCfg)
      (new toyCfg "r" 0)).band = "r" := by
  decide +kernel


section
variable {α : Type} [Field α] [LinearOrder α] [IsStrictOrderedRing α] [FloorRing α]

/-! ### C66 -/

/-- Sensible settings: motions, delays and speeds are not negative. -/
structure Sane (C : Cfg α) : Prop where
  altTime : ∀ d, 0 ≤ d → 0 ≤ C.altTime d
  azTime : ∀ d, 0 ≤ d → 0 ≤ C.azTime d
  ol : 0 < C.olSlope
  band : 0 ≤ C.bandChange
  cl : 0 ≤ C.clDelay
  read : 0 ≤ C.readtime
  shutter : 0 ≤ C.shuttertime

theorem telTime_ge {C : Cfg α} (hC : Sane C) {dAlt d : α} (h0 : 0 ≤ dAlt) :
    C.altTime dAlt ≤ telTime C dAlt d ∧ C.azTime |d| ≤ telTime C dAlt d ∧
    (0 < C.altTime dAlt ∨ 0 < C.azTime |d| → C.settle ≤ telTime C dAlt d) := by
  have h1 := hC.altTime dAlt h0
  have h2 := hC.azTime |d| (abs_nonneg d)
  have h3 : 0 ≤ olTime C dAlt := div_nonneg h0 hC.ol.le
  have h4 := le_max_left (C.altTime dAlt) (C.azTime |d|)
  have h5 := le_max_right (C.altTime dAlt) (C.azTime |d|)
  unfold telTime
  dsimp only
  split
  · have h6 := le_max_left 0 (C.settle - olTime C dAlt)
    have h7 := le_max_right 0 (C.settle - olTime C dAlt)
    exact ⟨by linarith, by linarith, fun _ => by linarith⟩
  · rename_i hn
    refine ⟨by linarith, by linarith, fun h => absurd ?_ hn⟩
    rcases h with h | h <;> linarith

theorem addChanges_ge {C : Cfg α} (hC : Sane C) (s : Tel α) (band : String) (sw : Bool) {dAlt t : α} (ht : 0 ≤ t) :
    t ≤ addChanges C s band sw dAlt t ∧
    (s.track.isSome = true → band ≠ s.band → C.bandChange ≤ addChanges C s band sw dAlt t ∧
      (sw = false → t + C.bandChange ≤ addChanges C s band sw dAlt t)) ∧
    (C.clLimit ≤ dAlt → t + C.clDelay ≤ addChanges C s band sw dAlt t) := by
  have h1 := hC.band
  have h2 := hC.cl
  have h3 := le_max_left t C.bandChange
  have h4 := le_max_right t C.bandChange
  unfold addChanges
  dsimp only
  by_cases hb : (s.track.isSome && decide (band ≠ s.band)) = true
  · rw [if_pos hb]
    cases sw <;> simp only [Bool.false_eq_true, if_false, if_true] <;> split <;> rename_i hcl
    · exact ⟨by linarith, fun _ _ => ⟨by linarith, fun _ => by linarith⟩, fun _ => by linarith⟩
    · exact ⟨by linarith, fun _ _ => ⟨by linarith, fun _ => by linarith⟩, fun h => absurd h hcl⟩
    · exact ⟨by linarith, fun _ _ => ⟨by linarith, by simp⟩, fun _ => by linarith⟩
    · exact ⟨by linarith, fun _ _ => ⟨by linarith, by simp⟩, fun h => absurd h hcl⟩
  · rw [if_neg hb]
    have hb' : ¬ (s.track.isSome = true ∧ band ≠ s.band) := by simpa using hb
    split <;> rename_i hcl
    · exact ⟨by linarith, fun k1 k2 => absurd ⟨k1, k2⟩ hb', fun _ => le_rfl⟩
    · exact ⟨le_rfl, fun k1 k2 => absurd ⟨k1, k2⟩ hb', fun h => absurd h hcl⟩

/-- C66: the slew time of an accepted observation is at least the time left over from the last
visit (readout, shutter), the time of the mount in altitude and in azimuth, the settle time if
the mount moves, the dome time, the rotator time if the band stays, the band change time if it
does not (in addition to all motions unless filters are changed while slewing), and the closed
loop delay on top of everything if the altitude changes by the limit or more. -/
theorem C66_slew_covers_all (C : Cfg α) (hC : Sane C) (s s' : Tel α) (r : Req α) (mjd t : α) (lax sw : Bool)
    (h : slew C s r mjd lax sw = some (t, s')) :
    ∃ d, (fullCircle C = true → d = s'.cum - s.cum) ∧
    let dAlt := |(C.altaz r.ra r.dec mjd).1 - (position C s mjd).1|
    ∃ motion, 0 ≤ motion ∧ s.overhead ≤ motion ∧ C.altTime dAlt ≤ motion ∧ C.azTime |d| ≤ motion ∧
      (0 < C.altTime dAlt ∨ 0 < C.azTime |d| → C.settle ≤ motion) ∧
      domeTime C lax dAlt |smallestSigned C.T (position C s mjd).2.1 (C.altaz r.ra r.dec mjd).2.1| ≤ motion ∧
      (r.band = s.band → C.rotTime |smallestSigned C.T (position C s mjd).2.2 s'.lastRot| ≤ motion) ∧
      motion ≤ t ∧
      (s.track.isSome = true → r.band ≠ s.band → C.bandChange ≤ t ∧ (sw = false → motion + C.bandChange ≤ t)) ∧
      (C.clLimit ≤ dAlt → motion + C.clDelay ≤ t) := by
  obtain ⟨-, d, rs, rt, -, hd, -, -, ht, he⟩ := slew_some h
  refine ⟨d, fun hf => by rw [he, hf]; simp, ?_⟩
  intro dAlt
  have h0 : 0 ≤ dAlt := abs_nonneg _
  obtain ⟨a1, a2, a3⟩ := telTime_ge (d := d) hC h0
  set m := max (max (max s.overhead (telTime C dAlt d))
          (domeTime C lax dAlt |smallestSigned C.T (position C s mjd).2.1 (C.altaz r.ra r.dec mjd).2.1|))
          (rotatorTime C s r.band (position C s mjd).2.2 rt) with hm
  have b1 : max (max s.overhead (telTime C dAlt d))
          (domeTime C lax dAlt |smallestSigned C.T (position C s mjd).2.1 (C.altaz r.ra r.dec mjd).2.1|) ≤ m := le_max_left _ _
  have b2 : max s.overhead (telTime C dAlt d) ≤ m := (le_max_left _ _).trans b1
  have b3 : telTime C dAlt d ≤ m := (le_max_right _ _).trans b2
  have hm0 : 0 ≤ m := (hC.altTime dAlt h0).trans (a1.trans b3)
  obtain ⟨c1, c2, c3⟩ := addChanges_ge hC s r.band sw (dAlt := dAlt) hm0
  have ht' : t = addChanges C s r.band sw dAlt m := ht
  rw [ht']
  refine ⟨m, hm0, (le_max_left _ _).trans b2, a1.trans b3, a2.trans b3, fun hh => (a3 hh).trans b3,
    (le_max_right _ _).trans b1, fun hb => ?_, c1, c2, c3⟩
  have : s'.lastRot = rt := by rw [he]
  rw [this]
  refine le_trans (le_of_eq ?_) (le_max_right _ _)
  unfold rotatorTime
  rw [if_neg (by simpa using hb)]

/-- A repeated visit to where the telescope already points costs exactly the time left over
from the last visit. -/
theorem C66_repeat_costs_overhead (C : Cfg α) (hT : 0 < C.T) (hr : C.T ≤ C.azMax - C.azMin)
    (h0 : C.altTime 0 = 0 ∧ C.azTime 0 = 0 ∧ C.rotTime 0 = 0) (hcl : 0 < C.clLimit)
    (hfov : 0 < C.fov) (s s' : Tel α) (r : Req α) (mjd t : α) (sw : Bool) (hover : 0 ≤ s.overhead)
    (hcum : C.azMin ≤ s.cum ∧ s.cum ≤ C.azMax)
    (hpos : position C s mjd = ((C.altaz r.ra r.dec mjd).1, (C.altaz r.ra r.dec mjd).2.1,
      (rotTarget C r (C.altaz r.ra r.dec mjd).2.2).2)) (hband : r.band = s.band)
    (h : slew C s r mjd true sw = some (t, s')) : t = s.overhead ∧ s'.cum = s.cum := by
  obtain ⟨-, d, rs, rt, hrt, hd, -, -, ht, he⟩ := slew_some h
  have hzero : ∀ x : α, smallestSigned C.T x x = 0 := by
    intro x
    have : md C.T 0 = 0 := md_of_mem hT le_rfl hT
    simp [smallestSigned, this]
  rw [fullCircle_of hr] at hd he
  simp only [if_true] at hd
  have hd0 : d = 0 := by
    have h1 := (azFull_spec hT hd).2.2.2 0 (by rw [hpos]; simpa using SameAngle.refl _ _) (by simpa using hcum.1)
      (by simpa using hcum.2)
    simpa using h1
  refine ⟨?_, by rw [he, hd0]; simp⟩
  rw [hrt] at hpos
  rw [ht, hpos, hd0]
  simp only [sub_self, abs_zero, hzero, rotatorTime, hband]
  have ht0 : telTime C 0 0 = 0 := by simp [telTime, olTime, h0.1, h0.2.1]
  have hd0 : domeTime C true 0 0 = 0 := by
    have : (0 : α) < C.fov ^ 2 := by positivity
    simp [domeTime, this]
  rw [ht0, hd0]
  simp only [ne_eq, not_true, if_false, h0.2.2, max_eq_left hover]
  simp [addChanges, not_le.2 hcl]

example : Sane toyCfg ∧ (slew toyCfg (new toyCfg "r" 0) (toyReq 10) 0 true false).isSome = true := by
  refine ⟨⟨fun _ h => h, fun _ h => h, ?_, ?_, ?_, ?_, ?_⟩, by decide +kernel⟩ <;> norm_num [toyCfg]

/-- Twice the same pointing: the second slew takes the overhead of the first visit, the readout time. -/
example : (let s := step toyCfg (new toyCfg "r" 0) (.observe (toyReq 10) 0 true false)
    (slew toyCfg s (toyReq 10) 0 true false).map (·.1)) = some 2 := by
  decide +kernel

/-! ### The telescope as part of the observatory -/

theorem visitTime_nonneg {C : Cfg α} (hC : Sane C) {r : Req α} (hr : 0 ≤ r.exptime) : 0 ≤ visitTime C r := by
  have h1 : 0 ≤ (r.nexp : α) * C.shuttertime := mul_nonneg (Nat.cast_nonneg _) hC.shutter
  have h2 : 0 ≤ max ((r.nexp : α) - 1) 0 * C.readtime := mul_nonneg (le_max_right _ _) hC.read
  unfold visitTime; linarith

/-- The telescope model meets the assumption made about it in C21 to C24: slew and visit times
are not negative. -/
theorem C21_telescope_times (C : Cfg ℚ) (hC : Sane C) (resolve lax : Bool) : Obs.NonNeg (kin C resolve lax) := by
  intro s r mjd
  refine ⟨fun x hx => ?_, ?_⟩
  · simp only [kin, observe] at hx
    cases h : slew C s { r.1 with rotTel := none } mjd lax false with
    | none => rw [h] at hx; simp at hx
    | some p =>
      obtain ⟨t, s'⟩ := p
      rw [h] at hx
      simp only [Option.mem_def, Option.some.injEq] at hx
      obtain ⟨d, -, m, h1, -, -, -, -, -, -, h2, -⟩ := C66_slew_covers_all C hC _ _ _ _ _ _ _ h
      linarith
  · have : (kin C resolve lax).observe s r mjd = observe C s { r.1 with rotTel := none } mjd lax false := rfl
    rw [this]
    have h1 : 0 ≤ visitTime C { r.1 with rotTel := none } := visitTime_nonneg hC r.2
    unfold observe
    split <;> exact h1

/-! ### C67 -/

theorem candidates_ne {C : Cfg α} (hT : 0 < C.T) (h1 : C.rotMin < 0) (h2 : 0 < C.rotMax) (h3 : C.T / 4 < C.rotMax - C.rotMin)
    {x : α} (hx1 : -C.T / 2 < x) (hx2 : x ≤ C.T / 2) (hx : x < C.rotMin ∨ C.rotMax < x) : ∃ y, y ∈ candidates C x := by
  simp only [candidates, tryShifts, List.mem_filter, List.map_cons, List.map_nil, Bool.and_eq_true, decide_eq_true_eq,
    List.mem_cons, List.not_mem_nil, or_false]
  rcases hx with hx | hx
  · by_cases hy : x + C.T / 4 ≤ C.rotMin
    · exact ⟨x + C.T / 2, .inr (.inr (.inr rfl)), by linarith, by linarith⟩
    · exact ⟨x + C.T / 4, .inr (.inl rfl), not_le.1 hy, by linarith⟩
  · by_cases hy : C.rotMax ≤ x + -C.T / 4
    · exact ⟨x + -C.T / 2, .inr (.inr (.inl rfl)), by linarith, by linarith⟩
    · exact ⟨x + -C.T / 4, .inl rfl, by linarith, not_le.1 hy⟩

theorem candidates_spec {C : Cfg α} {x y : α} (h : y ∈ candidates C x) :
    C.rotMin < y ∧ y < C.rotMax ∧ ∃ k : ℤ, y = x + k * (C.T / 4) := by
  simp only [candidates, tryShifts, List.mem_filter, List.map_cons, List.map_nil, Bool.and_eq_true, decide_eq_true_eq,
    List.mem_cons, List.not_mem_nil, or_false] at h
  obtain ⟨h, h1, h2⟩ := h
  refine ⟨h1, h2, ?_⟩
  rcases h with h | h | h | h
  · exact ⟨-1, by rw [h]; push_cast; ring⟩
  · exact ⟨1, by rw [h]; push_cast; ring⟩
  · exact ⟨-2, by rw [h]; push_cast; ring⟩
  · exact ⟨2, by rw [h]; push_cast; ring⟩

theorem nearest_spec {C : Cfg α} {cur : α} {ys zs : List α} (h : nearest C cur ys = some zs) :
    zs ≠ [] ∧ ∀ z ∈ zs, z ∈ ys ∧ ∀ y ∈ ys, |smallestSigned C.T cur z| ≤ |smallestSigned C.T cur y| := by
  unfold nearest at h
  split at h
  · cases h
  · rename_i m hm
    simp only [Option.some.injEq] at h
    subst h
    rw [List.min?_eq_some_iff] at hm
    obtain ⟨hm1, hm2⟩ := hm
    obtain ⟨y0, hy0, e0⟩ := List.mem_map.1 hm1
    constructor
    · intro hnil
      have : y0 ∈ ys.filter (fun y => |smallestSigned C.T cur y| == m) := by
        rw [List.mem_filter]; exact ⟨hy0, by simp [e0]⟩
      rw [hnil] at this; simp at this
    · intro z hz
      rw [List.mem_filter] at hz
      refine ⟨hz.1, fun y hy => ?_⟩
      have : |smallestSigned C.T cur z| = m := by simpa using hz.2
      rw [this]
      exact hm2 _ (List.mem_map_of_mem hy)

/-- C67, when the observatory is to resolve rotations and does not raise: the rotator angle is
within its limits (limits between half a turn each way), differs from the requested one by
whole quarter turns, not at all if the requested one is within the limits, and belongs to the sky angle written
to the observation. Missing: it raises on ties (`C67_raises`), and does not always choose the
shortest rotation (`C67_not_nearest`). -/
theorem C67_resolved_partial (C : Cfg α) (hT : 0 < C.T) (hl1 : -C.T / 2 ≤ C.rotMin) (hl2 : C.rotMax ≤ C.T / 2)
    (s : Tel α) (mjd : α) (r r' : Req α) (h : updateRot C true s mjd r = some r') :
    let pa := (C.altaz r.ra r.dec mjd).2.2
    let asked := sky2tel C.T C.cam r.rotSky pa
    ∃ x, r'.rotTel = some x ∧ C.rotMin ≤ x ∧ x ≤ C.rotMax ∧ (∃ k : ℤ, x = asked + k * (C.T / 4)) ∧
      (C.rotMin ≤ asked → asked ≤ C.rotMax → x = asked ∧ SameAngle C.T r'.rotSky r.rotSky) ∧
      sky2tel C.T C.cam r'.rotSky pa = x ∧ (r'.ra = r.ra ∧ r'.dec = r.dec ∧ r'.band = r.band) := by
  intro pa asked
  have hrange := sky2tel_range hT C.cam r.rotSky pa
  unfold updateRot at h
  simp only [if_true] at h
  rw [Option.map_eq_some_iff] at h
  obtain ⟨sky, hsky, rfl⟩ := h
  by_cases hout : asked < C.rotMin ∨ C.rotMax < asked
  · rw [if_pos hout] at hsky
    split at hsky
    · rename_i y hy
      simp only [Option.some.injEq] at hsky
      obtain ⟨-, hy2⟩ := nearest_spec hy
      obtain ⟨hy3, hy4, k, hk⟩ := candidates_spec (hy2 y (by simp)).1
      have e : sky2tel C.T C.cam sky pa = y := by
        rw [← hsky]
        exact same_eq_half hT (tel_sky_tel hT C.cam y pa) (sky2tel_range hT _ _ _).1 (sky2tel_range hT _ _ _).2
          (by linarith) (by linarith)
      refine ⟨y, by simp only; rw [e], hy3.le, hy4.le, ⟨k, hk⟩, fun h1 h2 => ?_, e, rfl, rfl, rfl⟩
      rcases hout with h | h <;> linarith
    · cases hsky
  · rw [if_neg hout] at hsky
    simp only [Option.some.injEq] at hsky
    rw [not_or, not_lt, not_lt] at hout
    have e : sky2tel C.T C.cam sky pa = asked := by
      rw [← hsky]
      exact same_eq_half hT (tel_sky_tel hT C.cam _ pa) (sky2tel_range hT _ _ _).1 (sky2tel_range hT _ _ _).2
        hrange.1 hrange.2
    refine ⟨asked, by simp only; rw [e], hout.1, hout.2, ⟨0, by simp⟩, fun _ _ => ⟨rfl, ?_⟩, e, rfl, rfl, rfl⟩
    simp only
    rw [← hsky]
    exact sky_tel_sky hT C.cam r.rotSky pa

/-- C67, which rotation is chosen: if the requested angle is outside the limits, then of all angles a quarter or half a turn from it and inside the limits the chosen one is
nearest to the rotator angle that would keep the sky angle tracked now at the new position (0 for the parked telescope). -/
theorem C67_chosen_partial (C : Cfg α) (hT : 0 < C.T) (hl1 : -C.T / 2 ≤ C.rotMin) (hl2 : C.rotMax ≤ C.T / 2)
    (s : Tel α) (mjd : α) (r r' : Req α) (h : updateRot C true s mjd r = some r') :
    let pa := (C.altaz r.ra r.dec mjd).2.2
    let asked := sky2tel C.T C.cam r.rotSky pa
    asked < C.rotMin ∨ C.rotMax < asked → ∃ x kept, r'.rotTel = some x ∧ (s.track = none → kept = 0)
      ∧ (∀ ra dec sky, s.track = some (ra, dec, sky) → kept = sky2tel C.T C.cam sky pa)
      ∧ ∀ turn ∈ [-C.T / 2, -C.T / 4, C.T / 4, C.T / 2], C.rotMin < asked + turn → asked + turn < C.rotMax →
        |smallestSigned C.T kept x| ≤ |smallestSigned C.T kept (asked + turn)| := by
  intro pa asked hout
  unfold updateRot at h
  simp only [if_true] at h
  rw [Option.map_eq_some_iff] at h
  obtain ⟨sky, hsky, rfl⟩ := h
  rw [if_pos hout] at hsky
  split at hsky
  · rename_i y hy
    simp only [Option.some.injEq] at hsky
    obtain ⟨-, hy2⟩ := nearest_spec hy
    obtain ⟨hy3, hy4, k, hk⟩ := candidates_spec (hy2 y (by simp)).1
    have e : sky2tel C.T C.cam sky pa = y := by
      rw [← hsky]
      exact same_eq_half hT (tel_sky_tel hT C.cam y pa) (sky2tel_range hT _ _ _).1 (sky2tel_range hT _ _ _).2
        (by linarith) (by linarith)
    refine ⟨y, curRot C s pa, by simp only; rw [e], ?_, ?_, ?_⟩
    · intro h0
      unfold curRot
      rw [h0]
    · intro ra dec q h0
      unfold curRot
      rw [h0]
    · intro turn ht h1 h2
      apply (hy2 y (by simp)).2
      unfold candidates tryShifts
      rw [List.mem_filter]
      refine ⟨List.mem_map_of_mem ?_, by simp only [Bool.and_eq_true, decide_eq_true_eq]; exact ⟨h1, h2⟩⟩
      simp only [List.mem_cons, List.not_mem_nil, or_false] at ht ⊢
      tauto
  · cases hsky

/-- C67: with limits on both sides of zero that are more than a quarter turn apart there is
always a rotation to choose: the only way to raise is a tie between nearest ones. -/
theorem C67_raises_only_on_ties (C : Cfg α) (hT : 0 < C.T) (h1 : C.rotMin < 0) (h2 : 0 < C.rotMax)
    (h3 : C.T / 4 < C.rotMax - C.rotMin) (s : Tel α) (mjd : α) (r : Req α) (h : updateRot C true s mjd r = none) :
    ∃ cur y z, y ≠ z ∧ C.rotMin < y ∧ y < C.rotMax ∧ C.rotMin < z ∧ z < C.rotMax ∧
      |smallestSigned C.T cur y| = |smallestSigned C.T cur z| := by
  have hrange := sky2tel_range hT C.cam r.rotSky (C.altaz r.ra r.dec mjd).2.2
  unfold updateRot at h
  simp only [if_true, Option.map_eq_none_iff] at h
  split at h
  · rename_i hout
    obtain ⟨y, hy⟩ := candidates_ne hT h1 h2 h3 hrange.1 hrange.2 hout
    set cur := curRot C s (C.altaz r.ra r.dec mjd).2.2 with hcur
    set ys := candidates C (sky2tel C.T C.cam r.rotSky (C.altaz r.ra r.dec mjd).2.2) with hys
    have hnd : ys.Nodup := by
      rw [hys]
      unfold candidates tryShifts
      apply List.Nodup.filter
      have : 0 < C.T / 4 := by linarith
      simp only [List.map_cons, List.map_nil, List.nodup_cons, List.mem_cons, List.not_mem_nil, or_false, not_or,
        not_false_eq_true, List.nodup_nil, and_true]
      refine ⟨⟨?_, ?_, ?_⟩, ⟨?_, ?_⟩, ?_⟩ <;> intro e <;> linarith
    cases hn : nearest C cur ys with
    | none =>
      unfold nearest at hn
      split at hn
      · rename_i hmin
        rw [List.min?_eq_none_iff, List.map_eq_nil_iff] at hmin
        rw [hmin] at hy; simp at hy
      · cases hn
    | some zs =>
      obtain ⟨hz1, hz2⟩ := nearest_spec hn
      rw [hn] at h
      have hznd : zs.Nodup := by
        unfold nearest at hn
        split at hn
        · cases hn
        · simp only [Option.some.injEq] at hn
          rw [← hn]; exact hnd.filter _
      match zs, hz1, hz2, h, hznd with
      | [], hz1, _, _, _ => exact absurd rfl hz1
      | [y], _, _, h, _ => simp at h
      | y :: z :: _, _, hz2, _, hnd =>
        have ey := hz2 y (by simp)
        have ez := hz2 z (by simp)
        obtain ⟨a1, a2, -⟩ := candidates_spec ey.1
        obtain ⟨b1, b2, -⟩ := candidates_spec ez.1
        refine ⟨cur, y, z, ?_, a1, a2, b1, b2, le_antisymm (ey.2 z ez.1) (ez.2 y ey.1)⟩
        rintro rfl
        simp at hnd
  · simp at h

end

/-- C67 fails for the code on ties: from the parked telescope, a sky angle that needs the
rotator at 135 degrees could be served by 45 or -45 degrees; the call raises. -/
theorem C67_raises : updateRot toyCfg true (new toyCfg "r" 0) 0 ⟨10, 5, 225, none, "r", 30, 2⟩ = none := by
  decide +kernel

/-- The small telescope with a parallactic angle equal to the right ascension. -/
def toyCfgPa : Cfg ℚ := { toyCfg with altaz := fun ra dec mjd => (10 * dec, md 360 (ra + 20 * mjd), ra) }

/-- C67 fails for the code: the angles are compared with the current rotator angle as it would
be at the new position. With the rotator at 60 degrees, the choice for an angle of 120 degrees
falls on -60 degrees, 120 degrees away, and not on 30 degrees, 30 degrees away. -/
theorem C67_not_nearest :
    let s := step toyCfgPa (new toyCfgPa "r" 0) (.observe ⟨10, 5, 310, none, "r", 30, 2⟩ 0 true false)
    (position toyCfgPa s 0).2.2 = 60 ∧
    sky2tel (360 : ℚ) .comcam 130 250 = 120 ∧ (toyCfgPa.altaz 250 5 0).2.2 = 250 ∧
    ((updateRot toyCfgPa true s 0 ⟨250, 5, 130, none, "r", 30, 2⟩).bind (·.rotTel)) = some (-60) ∧
    30 ∈ candidates toyCfgPa 120 := by
  decide +kernel

example : (updateRot toyCfg true (new toyCfg "r" 0) 0 ⟨10, 5, 240, none, "r", 30, 2⟩).bind (·.rotTel) = some 30 ∧
    -toyCfg.T / 2 ≤ toyCfg.rotMin ∧ toyCfg.T / 4 < toyCfg.rotMax - toyCfg.rotMin := by
  decide +kernel

/-! ### C68 -/

/-- C68, what holds: a slew that changes the altitude by the limit or more waits for the closed
loop delay in addition to all its motions. Missing: the open loop delay (`C68_violated`). -/
theorem C68_closed_loop_partial {α : Type} [Field α] [LinearOrder α] [IsStrictOrderedRing α] [FloorRing α]
    (C : Cfg α) (hC : Sane C) (s s' : Tel α) (r : Req α) (mjd t : α) (lax sw : Bool)
    (h : slew C s r mjd lax sw = some (t, s'))
    (hcl : C.clLimit ≤ |(C.altaz r.ra r.dec mjd).1 - (position C s mjd).1|) :
    C.altTime |(C.altaz r.ra r.dec mjd).1 - (position C s mjd).1| + C.clDelay ≤ t := by
  obtain ⟨d, -, m, -, -, h1, -, -, -, -, -, -, h2⟩ := C66_slew_covers_all C hC _ _ _ _ _ _ _ h
  linarith [h2 hcl]

/-- The documented open loop delay for a change of altitude in degrees: the slope is in seconds
per degree. -/
def documentedOl (slope deg : ℚ) : ℚ := slope * deg

/-- C68 fails for the code: the altitude change is divided by the slope instead of multiplied
with it (both after conversion to radians). Whatever the value of a degree in radians (here
anything up to 0.018), 35 degrees at the default slope of 1/3.5 s per degree take less than 0.04 s
instead of 10 s. -/
theorem C68_violated (deg : ℚ) (h0 : 0 < deg) (h1 : deg ≤ 18 / 1000) (C : Cfg ℚ) (hC : C.olSlope = (1 / 3.5) / deg) :
    olTime C (35 * deg) < 4 / 100 ∧ documentedOl (1 / 3.5) 35 = 10 := by
  constructor
  · unfold olTime
    rw [hC]
    have e : 35 * deg / (1 / 3.5 / deg) = 122.5 * deg ^ 2 := by field_simp; norm_num
    rw [e]
    have : deg ^ 2 ≤ (18 / 1000) ^ 2 := pow_le_pow_left₀ h0.le h1 2
    norm_num at this ⊢
    linarith
  · norm_num [documentedOl]

example : ∃ C : Cfg ℚ, C.olSlope = (1 / 3.5) / (17 / 1000) := ⟨{ toyCfg with olSlope := (1 / 3.5) / (17 / 1000) }, rfl⟩

end Verif
