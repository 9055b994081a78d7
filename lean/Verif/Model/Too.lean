import Verif.Model.Scripted

/-!
Model of targets of opportunity: the alerts and their server
(`/repo/rubin_scheduler/scheduler/utils/too_objects.py`) and the survey that follows them
(`/repo/rubin_scheduler/scheduler/surveys/too_scripted_surveys.py`). `none` stands for an exception.
-/

namespace Verif.Too

open Verif.Script (Entry St setScript clear)
open Verif.Feat (isIn)

/-- `TargetoO` (too_objects.py 44-66). The footprint is that on the pixels of the scheduler; `none` is not-a-number. Angles are in
one unit throughout, and the position on the sky is a pair. -/
structure Alert where
  id : Int
  kind : Option String
  start : ℚ
  duration : Option ℚ
  center : Option (ℚ × ℚ)
  interrupt : Bool
  altLimit : ℚ
  footprint : List (Option ℚ)

/-! ### The server -/

/-- The end of the window (too_objects.py 108-113). -/
def Alert.stop (a : Alert) : ℚ := a.start + (match a.duration with | none => 3 | some d => d)

/-- The result of a selection: `None` when it is empty (117-120). -/
def orNone : List Alert → Option (List Alert)
  | [] => none
  | l => some l

/-- `SimTargetooServer.__call__` (115-120). Here `none` is the result `None`. -/
def serve (as : List Alert) (mjd : ℚ) : Option (List Alert) :=
  orNone (as.filter (fun a => decide (a.start < mjd) && decide (mjd < a.stop)))

/-! ### Interrupting the queue -/

/-- The values of the footprint where the sky is high enough (89-92). -/
def highPixels (a : Alert) (alts : List ℚ) : List ℚ :=
  ((a.footprint.zip alts).filter (fun p => decide (a.altLimit ≤ p.2))).map (fun p => p.1.getD 0)

/-- `queue_should_flush` (68-97). `altOf` gives the altitude of a position now, `alts` that of
each pixel. The largest of no values raises (93). -/
def shouldFlush (a : Alert) (altOf : ℚ × ℚ → ℚ) (alts : List ℚ) : Option Bool :=
  if a.interrupt = false then some false
  else match a.center with
    | some p => some (!decide (altOf p < a.altLimit))
    | none => match highPixels a alts with
      | [] => none
      | v :: vs => some (decide (vs.foldl max v ≠ 0))

/-! ### The survey -/

/-- Settings (too_scripted_surveys.py 82-171). `fields` are the pointings that cover the part of an alert's footprint
inside the survey's own footprint (323-339, 359-372), empty when there is none: `fields a none` the first
tiling and `fields a (some (k, i))` that of visit `i` of time `k`. They depend on random rotations, so any function is allowed.
`inside` says whether a position is in the survey's footprint (377-378). -/
structure Cfg where
  kinds : List String
  times : List ℚ
  bands : List (List String)
  nvis : List ℕ
  exptimes : List ℚ
  name : String
  flushtime : ℚ
  tol : ℚ
  altMin : ℚ
  altMax : ℚ
  haMin : ℚ
  haMax : ℚ
  ditherPerVisit : Bool
  updateMjd0 : Bool
  fields : Alert → Option (ℕ × ℕ) → List (ℚ × ℚ)
  inside : ℚ × ℚ → Bool

/-- A planned visit (413-434). The sun and moon limits have their defaults (observation_array.py 286-289: zeros here). -/
def visit (cfg : Cfg) (a : Alert) (mjd0 : ℚ) (k : ℕ) (time exptime : ℚ) (band : String) (p : ℚ × ℚ) : Entry where
  note := Script.cut (cfg.name ++ ", " ++ band ++ ", " ++ toString a.id ++ ", i" ++ toString k)
  band := band
  exptime := exptime
  mjd := mjd0 + time
  tol := cfg.tol
  flush := mjd0 + time + cfg.flushtime
  ra := p.1
  dec := p.2
  altMin := cfg.altMin
  altMax := cfg.altMax
  haMax := cfg.haMax
  haMin := cfg.haMin
  sunMax := 0
  moonMin := 0
  observed := false

/-- Where to point (359-384): `none` raises (no centre is known, 377), `some none` means not in the
survey's footprint. -/
def pointings (cfg : Cfg) (a : Alert) : Option (Option (ℕ → ℕ → List (ℚ × ℚ))) :=
  if cfg.fields a none = [] then
    match a.center with
    | none => none
    | some p => some (if cfg.inside p then some (fun _ _ => [p]) else none)
  else some (some (fun k i => if cfg.ditherPerVisit then cfg.fields a (some (k, i)) else cfg.fields a none))

/-- The start of the plan (386-392): unassigned when the time has not passed the alert's. -/
def mjd0 (cfg : Cfg) (a : Alert) (now : ℚ) : Option ℚ :=
  if cfg.updateMjd0 then (if a.start < now then some now else none) else some a.start

/-- All planned visits (394-435). The lists have equal lengths (130-133). -/
def plan (cfg : Cfg) (a : Alert) (t0 : ℚ) (pts : ℕ → ℕ → List (ℚ × ℚ)) : List Entry :=
  ((cfg.times.zip (cfg.bands.zip (cfg.nvis.zip cfg.exptimes))).zipIdx).flatMap fun q =>
    (List.range q.1.2.2.1).flatMap fun i =>
      q.1.2.1.flatMap fun band =>
        (pts q.2 i).map (visit cfg a t0 q.2 q.1.1 q.1.2.2.2 band)

/-- The survey: the script and the alerts seen. -/
structure S where
  base : St
  seen : List Int

/-- A visit of the script is still wanted (254-259). -/
def wanted (now : ℚ) (e : Entry) : Bool := !e.observed && decide (now < e.flush)

/-- `flush_script` (251-266). -/
def flushScript (idOf : String → Option ℕ) (s : St) (now : ℚ) : Option St :=
  if s.script.filter (wanted now) = [] then some (clear s) else setScript idOf s (s.script.filter (wanted now)) false false

/-- The type is one to follow (346-350). -/
def follows (cfg : Cfg) (a : Alert) : Option Bool :=
  match a.kind with
  | none => if cfg.kinds = [] then some false else none
  | some k => some (cfg.kinds.any (fun t => isIn t k))

/-- The number of visits for the plan, before positions: nothing to concatenate raises (437). -/
def slots (cfg : Cfg) : ℕ :=
  ((cfg.times.zip (cfg.bands.zip (cfg.nvis.zip cfg.exptimes))).map (fun q => q.2.2.1 * q.2.1.length)).sum

/-- Add the plan for a new alert (357-440). Detailers (438-439) are left out here, see `Model/TooBand`. -/
def follow (cfg : Cfg) (idOf : String → Option ℕ) (s : S) (a : Alert) (now : ℚ) : Option S :=
  match pointings cfg a with
  | none => none
  | some none => some { s with seen := s.seen ++ [a.id] }
  | some (some pts) => match mjd0 cfg a now with
    | none => none
    | some t0 =>
      if slots cfg = 0 then none
      else (setScript idOf s.base (plan cfg a t0 pts) true true).map (fun b => ⟨b, s.seen ++ [a.id]⟩)

/-- `_new_event` (341-440). -/
def newEvent (cfg : Cfg) (idOf : String → Option ℕ) (now : ℚ) (s : S) (a : Alert) : Option S :=
  match flushScript idOf s.base now with
  | none => none
  | some b => match follows cfg a with
    | none => none
    | some f => if f && !s.seen.contains a.id then follow cfg idOf ⟨b, s.seen⟩ a now else some ⟨b, s.seen⟩

/-- `update_conditions` (442-445), with the alerts of the conditions. -/
def update (cfg : Cfg) (idOf : String → Option ℕ) (now : ℚ) (s : S) : Option (List Alert) → Option S
  | none => some s
  | some as => as.foldlM (newEvent cfg idOf now) s

/-- What can happen to the survey: new conditions, or anything that can happen to a scripted survey but the setting of
the script by others. -/
inductive Op where
  | update (now : ℚ) (as : Option (List Alert))
  | one (note : String)
  | array (notes : List String)
  | gen (c : Script.Cond)
  | rough (c : Script.Cond)

/-- One step. -/
def step (cfg : Cfg) (base : Script.Cfg) (idOf : String → Option ℕ) (s : S) : Op → Option S
  | .update now as => update cfg idOf now s as
  | .one n => some { s with base := Script.addOne base s.base n }
  | .array ns => some { s with base := Script.addArray s.base ns }
  | .gen c => some { s with base := (Script.gen base s.base c).1 }
  | .rough c => some { s with base := (Script.genRough base s.base c).1 }

/-- A history. -/
def run (cfg : Cfg) (base : Script.Cfg) (idOf : String → Option ℕ) (s : S) (ops : List Op) : Option S :=
  ops.foldlM (step cfg base idOf) s

end Verif.Too
