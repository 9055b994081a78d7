import Verif.Model.Too

/-!
Model of the detailers that a survey of alerts applies to the visits planned for a new alert
(`/repo/rubin_scheduler/scheduler/surveys/too_scripted_surveys.py` 394-440), of `BandPickToODetailer`
(`/repo/rubin_scheduler/scheduler/detailers/event_detailers.py` 32-58) and of its use for mergers of black holes
(`/repo/rubin_scheduler/scheduler/example/too_surveys.py` 160-210).
-/

namespace Verif.Too

open Verif.Script (Entry St setScript)

/-- A planned visit with its number of exposures. -/
structure Planned where
  e : Entry
  nexp : ℕ
  deriving DecidableEq

/-- The number of exposures for a band (too_scripted_surveys.py 408-411). -/
def snaps (n nU : ℕ) (band : String) : ℕ := if band = "u" then nU else n

/-- All planned visits with their numbers of exposures (394-435). -/
def planned (cfg : Cfg) (n nU : ℕ) (a : Alert) (t0 : ℚ) (pts : ℕ → ℕ → List (ℚ × ℚ)) : List Planned :=
  (plan cfg a t0 pts).map fun e => ⟨e, snaps n nU e.band⟩

/-- `BandPickToODetailer` (event_detailers.py 32-37). -/
structure Pick where
  start : String := "i"
  stop : String := "z"
  limit : ℚ := 10
  check : Bool := true
  dark : Bool := false

/-- What is known when the alert comes in: the phase of the moon in percent, the bands mounted, and the distance of the source (`none` when it is missing). -/
structure Known where
  moon : ℚ
  mounted : List String
  distance : Option ℚ

/-- `BandPickToODetailer.__call__` (event_detailers.py 39-58). -/
def Pick.apply (P : Pick) (K : Known) (l : List Planned) : List Planned :=
  match K.distance with
  | none => l
  | some d =>
    if P.dark ∧ 50 < K.moon then l
    else if d < P.limit then
      let mounted := if P.check then K.mounted.contains P.stop else true
      if mounted then l.map fun p => if p.e.band = P.start then { p with e := { p.e with band := P.stop } } else p else l
    else l

/-- The detailers one after the other (too_scripted_surveys.py 438-439). -/
def applyAll (Ps : List Pick) (K : Known) (l : List Planned) : List Planned := Ps.foldl (fun l P => P.apply K l) l

/-- The visits for a new alert, detailers included (394-440). -/
def plannedWith (cfg : Cfg) (n nU : ℕ) (Ps : List Pick) (K : Known) (a : Alert) (t0 : ℚ) (pts : ℕ → ℕ → List (ℚ × ℚ)) : List Planned :=
  applyAll Ps K (planned cfg n nU a t0 pts)

/-- Add the plan for a new alert (357-440), detailers included. -/
def followWith (cfg : Cfg) (Ps : List Pick) (K : Known) (idOf : String → Option ℕ) (s : S) (a : Alert) (now : ℚ) : Option S :=
  match pointings cfg a with
  | none => none
  | some none => some { s with seen := s.seen ++ [a.id] }
  | some (some pts) => match mjd0 cfg a now with
    | none => none
    | some t0 =>
      if slots cfg = 0 then none
      else (setScript idOf s.base ((plannedWith cfg 1 1 Ps K a t0 pts).map Planned.e) true true).map (fun b => ⟨b, s.seen ++ [a.id]⟩)

/-- `_new_event` (341-440), detailers included. The script does not hold numbers of exposures in this model. -/
def newEventWith (cfg : Cfg) (Ps : List Pick) (K : Known) (idOf : String → Option ℕ) (now : ℚ) (s : S) (a : Alert) : Option S :=
  match flushScript idOf s.base now with
  | none => none
  | some b => match follows cfg a with
    | none => none
    | some f => if f && !s.seen.contains a.id then followWith cfg Ps K idOf ⟨b, s.seen⟩ a now else some ⟨b, s.seen⟩

/-- The detailers for mergers of black holes (example/too_surveys.py 169-184); distances in kpc. -/
def bbhPicks : List Pick := [⟨"z", "g", 300000000000, true, true⟩, ⟨"r", "u", 2200000, true, true⟩]

/-- The bands at each of the five times (example/too_surveys.py 186). -/
def bbhBands : List (List String) := List.replicate 5 ["r", "z", "i"]

/-- The times, in days (example/too_surveys.py 185): hours there, turned into days by the survey (too_scripted_surveys.py 148). -/
def bbhTimes : List ℚ := [0, 2, 7, 9, 39]

end Verif.Too
