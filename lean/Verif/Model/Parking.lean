import Verif.Model.Kinem

/-!
Model of what `ModelObservatory.return_conditions` tells about the telescope
(`/repo/rubin_scheduler/scheduler/model_observatory/model_observatory.py` 387-440, 458-464).

The altitudes and azimuths of the pixels of the sky are those of the conversion in `Kinem.Cfg`; the code uses the same conversion with the same site
(conditions.py 449-456, kinem_model.py 91-103).  Pixels are given by their altitude and azimuth.
-/

namespace Verif.Prk

open Kinem Ang

variable {α : Type} [Field α] [LinearOrder α] [IsStrictOrderedRing α] [FloorRing α]

/-- `slew_times` (kinem_model.py 397-762) as called for the conditions (model_observatory.py 428-437): to an altitude and azimuth, in the band in the light path,
without a rotation and without moving the telescope. -/
def slewTo (C : Cfg α) (s : Tel α) (alt az mjd : α) (lax : Bool) : Option α :=
  if s.band ∉ s.mounted then none
  else
    let (alt0, az0, _) := position C s mjd
    let dAlt := |alt - alt0|
    match (if fullCircle C then azFull C s.cum az0 az else azRestricted C az0 az) with
    | none => none
    | some dAzTel =>
      if C.altMax < alt ∨ alt < C.altMin then none
      else
        let t := max s.overhead (telTime C dAlt dAzTel)
        let t := max t (domeTime C lax dAlt |smallestSigned C.T az0 az|)
        some (addChanges C s s.band false dAlt t)

/-- The conditions that tell about the telescope (415-440, 458-464). -/
structure TelConds (α : Type) where
  band : String
  mounted : List String
  /-- `slewtime` of a pixel by its altitude and azimuth; `none` is nan -/
  slewtime : α → α → Option α
  telAlt : α
  telAz : α
  rotTel : α
  cum : α

/-- `return_conditions` (372-505), the telescope alone: the band is taken (415-419) before the telescope is parked after a gap (424-427), slew times (428-438) and
position (458-464) after it. Slew times are given above the altitude `altMin` (393, 437). -/
def telConds (C : Cfg ℚ) (S : Obs.Site) (altMin : ℚ) (resolve lax : Bool) (s : Obs.St (Tel ℚ)) : Obs.St (Tel ℚ) × TelConds ℚ :=
  let s' := Obs.idle S (kin C resolve lax) s
  (s', { band := s.kin.band, mounted := s.kin.mounted,
         slewtime := fun alt az => if altMin < alt then slewTo C s'.kin alt az s.mjd lax else none,
         telAlt := s'.kin.lastAlt, telAz := s'.kin.lastAz, rotTel := s'.kin.lastRot, cum := s'.kin.cum })

end Verif.Prk
