import Verif.Model.Presched
import Verif.Model.Features

/-!
# Scheduled visits of the deep drilling fields

`generate_ddf_scheduled_obs` (scheduler/example/lsst_ddf_presched.py 468-742). Angles are in degrees, where the code
turns them into radians. The cut of strings to sixty characters is not modelled. The table of fields (`ddf_locations`)
and the grid of times are arguments.
-/

namespace Verif.Pre

/-- A row of the table of sequences (584-602, 605, 629-638). -/
structure Want where
  name : String
  seasonLength : ℚ
  seq : ℚ
  flush : ℚ
  visits : String → ℕ
  evenOdd : String
  depth : ℚ
  season : ℤ

/-- The other arguments (468-488). -/
structure Opts where
  mjdTol : ℚ := 15
  expt : String → ℚ
  altMin : ℚ := 25
  altMax : ℚ := 85
  haMin : ℚ := 21
  haMax : ℚ := 3
  sunAltMax : ℚ := -18
  moonDist : ℚ := 25
  distTol : ℚ := 3
  snaps : String → ℕ
  start : ℚ
  length : ℚ := 10
  overhead : ℚ := 2
  illum : ℚ := 40
  program : Option String := none

/-- A scheduled visit: the columns that are filled. -/
structure Sv where
  ra : ℚ
  dec : ℚ
  mjd : ℚ
  flushBy : ℚ
  exptime : ℚ
  band : String
  nexp : ℕ
  note : String
  target : String
  program : String
  reason : String
  mjdTol : ℚ
  distTol : ℚ
  haMin : ℚ
  haMax : ℚ
  altMin : ℚ
  altMax : ℚ
  sunAltMax : ℚ
  moonDist : ℚ
deriving DecidableEq, Repr

/-- The bands in the order of the loop (600). -/
def sixBands : List String := ["u", "g", "r", "i", "z", "y"]

/-- Length of a sequence in seconds (588, 600-602). -/
def seqSeconds (o : Opts) (w : Want) : ℚ := (sixBands.map (fun b => (o.expt b + o.overhead * o.snaps b) * w.visits b)).sum

/-- Number of visits of a sequence (594). -/
def allVisits (w : Want) : ℕ := (sixBands.map w.visits).sum

/-- The mask of nights (604-608, 618-622). `strip` is not modelled. -/
def nightMaskOf (w : Want) : Option Bool :=
  if Feat.isIn "early" w.evenOdd then
    if Feat.isIn "p_0" w.evenOdd then some true else if Feat.isIn "p_2" w.evenOdd then some false else none
  else if w.evenOdd = "even" then some true else if w.evenOdd = "odd" then some false else none

/-- The limits of the moon's illumination (592-598, 610-615): at most and at least. -/
def moonLimits (o : Opts) (w : Want) : Option ℚ × Option ℚ :=
  if allVisits w = w.visits "u" then (some o.illum, none)
  else if allVisits w = w.visits "y" then (none, some o.illum)
  else (none, none)

/-- The arguments of `optimize_ddf_times` (585, 623-664). -/
def cfgOf (o : Opts) (ra : ℚ) (w : Want) : Cfg :=
  { ra := ra, sunLimit := -18, sequenceTime := seqSeconds o w / 60, airmassLimit := 2.5, skyLimit := none,
    depthLimit := some w.depth, offLength := (365 - w.seasonLength) / 2,
    lowFrac := if Feat.isIn "early" w.evenOdd then 80 / 200 else 0,
    lowRate := if Feat.isIn "early" w.evenOdd then 1 else 0.3,
    start := o.start, seq := w.seq, boost := none, onlySeason := some w.season, evenOdd := nightMaskOf w,
    moonLt := (moonLimits o w).1, moonGt := (moonLimits o w).2, earlyLate := Feat.isIn "early" w.evenOdd }

/-- The grid in the range of the survey (569-577). -/
def inSurvey (o : Opts) (rows : List Row) : List Row := rows.filter (fun r => o.start ≤ r.mjd && r.mjd ≤ o.start + o.length * 365.25)

/-- `ddf_name.replace("_a", "_b")` (693). -/
def toB : List Char → List Char
  | [] => []
  | '_' :: 'a' :: s => '_' :: 'b' :: toB s
  | c :: s => c :: toB s

/-- The name of the second field of a pair (693). -/
def other (name : String) : String := String.ofList (toB name.toList)

/-- One visit of a field (670-689, 693-713, 718-738); `None` written into a column of strings is "None". -/
def sv (o : Opts) (w : Want) (t : ℚ) (b : String) (field : String) (at_ : ℚ × ℚ) (moon : ℚ) : Sv :=
  { ra := at_.1, dec := at_.2, mjd := t, flushBy := t + w.flush, exptime := o.expt b, band := b, nexp := o.snaps b,
    note := "DD:" ++ field, target := "ddf_" ++ field.toLower, program := o.program.getD "None", reason := "ddf_" ++ w.name.toLower,
    mjdTol := o.mjdTol / 60 / 24, distTol := o.distTol, haMin := o.haMin, haMax := o.haMax, altMin := o.altMin, altMax := o.altMax,
    sunAltMax := o.sunAltMax, moonDist := moon }

/-- The visits of one band at one time (668-739). A name that is not in the table raises. -/
def bandVisits (o : Opts) (locs : String → Option (ℚ × ℚ)) (w : Want) (t : ℚ) (b : String) : Option (List Sv) :=
  match locs w.name with
  | none => none
  | some p =>
    if Feat.isIn "EDFS" w.name then
      match locs (other w.name) with
      | none => none
      | some q => some (List.replicate ((w.visits b + 1) / 2) (sv o w t b w.name p 0) ++
          List.replicate ((w.visits b + 1) / 2) (sv o w t b (other w.name) q o.moonDist))
    else some (List.replicate (w.visits b) (sv o w t b w.name p o.moonDist))

/-- The times of the sequences of a row (623-664). -/
def rowTimes (o : Opts) (locs : String → Option (ℚ × ℚ)) (grid : String → List Row) (w : Want) : Option (List ℚ) :=
  match locs w.name with
  | none => none
  | some p => (optimize (cfgOf o p.1 w) (inSurvey o (grid w.name))).map (·.mjds)

/-- The arrays of a row, one for each time and band (666-739). -/
def rowArrays (o : Opts) (locs : String → Option (ℚ × ℚ)) (grid : String → List Row) (w : Want) : Option (List (List Sv)) :=
  match rowTimes o locs grid w with
  | none => none
  | some ts => collect (ts.flatMap (fun t => sixBands.map (bandVisits o locs w t)))

/-- `generate_ddf_scheduled_obs` (579-742). Nothing to concatenate raises. -/
def generate (o : Opts) (locs : String → Option (ℚ × ℚ)) (grid : String → List Row) (ws : List Want) : Option (List Sv) :=
  match collect (ws.map (rowArrays o locs grid)) with
  | none => none
  | some as => if as.flatten = [] then none else some as.flatten.flatten

end Verif.Pre
