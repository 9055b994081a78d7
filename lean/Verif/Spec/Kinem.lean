import Verif.Model.Kinem

/-!
Specification vocabulary for the telescope: the azimuth it has really turned through.
-/

namespace Verif.Kinem

open Ang

variable {α : Type} [Field α] [LinearOrder α] [IsStrictOrderedRing α] [FloorRing α]

/-- The azimuth the telescope has turned through since it was last parked, after one more
call: while it tracks, the azimuth of the tracked field changes from its value at the last
slew to its value now (the short way), and an accepted slew then adds its own distance.
`turned` is the value before the call, `s` the telescope before the call. -/
def turnedStep (C : Cfg α) (turned : α) (s : Tel α) : Op α → α
  | .park => 0
  | .observe r mjd lax sw =>
    if (observe C s r mjd lax sw).2.1.isSome then
      turned + (if s.track.isSome then smallestSigned C.T s.lastAz (position C s mjd).2.1 else 0) +
        ((step C s (.observe r mjd lax sw)).cum - s.cum)
    else turned
  | _ => turned

/-- Telescope and azimuth really turned through, after a sequence of calls. -/
def runTurned (C : Cfg α) : Tel α → α → List (Op α) → Tel α × α
  | s, w, [] => (s, w)
  | s, w, op :: ops => runTurned C (step C s op) (turnedStep C w s op) ops

end Verif.Kinem
