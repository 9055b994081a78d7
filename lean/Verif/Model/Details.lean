import Verif.Model.Features
import Verif.Model.Scripted
import Mathlib.Analysis.SpecialFunctions.Pow.Real

/-!
Model of further detailers: `BandToFilterDetailer`, `StartFieldSequenceDetailer`, `BandNexp`, `TagRadialDetailer`
(`/repo/rubin_scheduler/scheduler/detailers/detailer.py` 438-454, 766-812, 898-909, 1027-1045), `BandPickToODetailer` (`event_detailers.py`) and the depth aimed at by
`VaryExptDetailer` (`vary_exptime.py` 93-129).
-/

namespace Verif.Dtl

open Feat (Vis)

/-- The columns of a visit used here. -/
structure O where
  /-- all other columns -/
  id : ℕ
  band : String
  filter : String
  nexp : ℕ
  exptime : ℚ
  note : String
  target : String
  program : String
  ra : ℚ
  dec : ℚ
  deriving DecidableEq

/-- The first value of a key in a table. -/
def lookup (table : List (String × String)) (k : String) : Option String := (table.find? fun x => x.1 == k).map Prod.snd

/-- The table of `BandToFilterDetailer` (439-444). -/
def bandTable : Option (List (String × String)) → List (String × String)
  | none => ["u", "g", "r", "i", "z", "y"].map fun b => (b, b)
  | some t => t

/-- `BandToFilterDetailer.__call__` (446-454); the column has ten characters. -/
def bandToFilter (table : Option (List (String × String))) (os : List O) : List O :=
  os.map fun o => { o with filter := String.ofList (((lookup (bandTable table) o.band).getD o.band).toList.take 10) }

/-- `BandNexp.__call__` (903-909). -/
def bandNexp (band : String) (nexp : ℕ) (exptime : Option ℚ) (os : List O) : List O :=
  os.map fun o => if o.band = band then { o with nexp := nexp, exptime := exptime.getD o.exptime } else o

/-- `TagRadialDetailer.__call__` (1036-1045); `dist` is the distance from the given place. -/
def tagRadial (dist : ℚ → ℚ → ℚ) (radius : ℚ) (target append : String) (os : List O) : List O :=
  os.map fun o => if dist o.ra o.dec ≤ radius then { o with target := Script.cut target, note := Script.cut (o.note ++ append) } else o

/-- An alert with the distance of its source, when it is known. -/
structure Alert where
  distance : Option ℚ

/-- `BandPickToODetailer.__call__` (event_detailers.py 39-57). -/
def bandPick (first last : String) (limit : ℚ) (checkMounted dark : Bool) (moon : ℚ) (mounted : List String) (alert : Option Alert) (os : List O) : List O :=
  match alert.bind Alert.distance with
  | none => os
  | some d =>
    if dark && decide (50 < moon) then os
    else if d < limit then
      if !checkMounted || decide (last ∈ mounted) then os.map fun o => if o.band = first then { o with band := last } else o else os
    else os

/-! ### StartFieldSequenceDetailer -/

/-- Settings (756-765): `dist` is the distance from the given place. -/
structure Start where
  seq : List O
  angle : ℚ
  hours : ℚ
  program : Option String
  note : Option String
  dist : ℚ → ℚ → ℚ

/-- The feature kept (767-773): its radius is always 3.5. -/
def Start.cfg (c : Start) : Feat.Matching.Cfg := ⟨c.program, c.note, some (c.dist, 7 / 2)⟩

/-- The visits put in front (786-787). -/
def Start.visits (c : Start) : List O :=
  c.seq.map fun o => { o with program := Script.cut (c.program.getD "None"), note := Script.cut (c.note.getD "None") }

/-- `StartFieldSequenceDetailer.__call__` (807-812); the time of no visit is 0. -/
def Start.call (c : Start) (last : Option Vis) (now : ℚ) (os : List O) : List O :=
  if c.hours / 24 ≤ now - (match last with | none => 0 | some v => v.mjd) then c.visits ++ os else os

/-! ### VaryExptDetailer -/

/-- The depth at a pixel around: one that does not exist has the number -1, which is the last pixel of the map (117-120). -/
noncomputable def valueAt (depth : List (Option ℝ)) (q : Option ℕ) : Option ℝ := (match q with | some q => depth[q]? | none => depth.getLast?).join

/-- The depth at a place, from the pixels around when it is masked there (109-123). -/
noncomputable def depthAt (depth : List (Option ℝ)) (p : ℕ) (around : List (Option ℕ)) : Option ℝ :=
  match (depth[p]?).join with
  | some d => some d
  | none =>
    let vals := around.filterMap (valueAt depth)
    if vals = [] then none else some (vals.sum / vals.length)

/-- The time that is aimed at (125). -/
noncomputable def wanted (target base : ℝ) (depth : ℝ) : ℝ := base * (10 : ℝ) ^ ((target - depth) / 1.25)

end Verif.Dtl
