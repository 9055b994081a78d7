import Mathlib.Data.Rat.Floor
import Mathlib.Data.List.Basic

/-!
Model of `ObservationArray` (`/repo/rubin_scheduler/scheduler/utils/observation_array.py` 118-172) and
`SchemaConverter` (`/repo/rubin_scheduler/scheduler/utils/utils.py` 439-633).

Simplifications.  A table is a list of named columns, a column a list of values.  Floating point
numbers are rationals or nan; `np.degrees` is multiplication with `180 / p`, `p` being the
floating point number called pi.  Storing in the database turns nan into NULL and reading turns it
back; everything else is stored as it is.  `none` stands for an exception.
-/

namespace Verif.Sch

/-- A value in a column. -/
inductive Val where
  | num (x : ℚ)
  | nan
  | str (s : String)
deriving DecidableEq, Repr

/-- A table (data frame, structured array). -/
structure Frame where
  rows : ℕ
  cols : List (String × List Val)
deriving DecidableEq, Repr

/-- The names of the columns. -/
def Frame.names (f : Frame) : List String := f.cols.map Prod.fst

/-- A column. -/
def look (k : String) : List (String × List Val) → Option (List Val)
  | [] => none
  | (k', v) :: r => if k' = k then some v else look k r

/-- `df[key]`. -/
def Frame.col (f : Frame) (k : String) : Option (List Val) := look k f.cols

/-- Replace the first column of this name, or add one. -/
def place (k : String) (v : List Val) : List (String × List Val) → List (String × List Val)
  | [] => [(k, v)]
  | (k', v') :: r => if k' = k then (k, v) :: r else (k', v') :: place k v r

/-- `df[key] = values`. -/
def Frame.set (f : Frame) (k : String) (v : List Val) : Frame := { f with cols := place k v f.cols }

/-- Value of a key in a dictionary, the key itself if it is not there. -/
def trans : List (String × String) → String → String
  | [], k => k
  | (a, b) :: r, k => if a = k then b else trans r k

/-- `df.rename(columns=dictionary)`. -/
def Frame.rename (f : Frame) (d : List (String × String)) : Frame := { f with cols := f.cols.map (fun p => (trans d p.1, p.2)) }

/-- `df.drop(key, axis=1)`. -/
def Frame.drop (f : Frame) (k : String) : Option Frame :=
  if k ∈ f.names then some { f with cols := f.cols.filter (fun p => p.1 ≠ k) } else none

/-- Kind of a column of an observation array. -/
inductive Kind where
  | int
  | float
  | text (n : ℕ)
deriving DecidableEq, Repr

/-- The columns of `ObservationArray` (observation_array.py 119-170). -/
def dtype : List (String × Kind) := [("ID", .int), ("RA", .float), ("dec", .float), ("mjd", .float), ("flush_by_mjd", .float), ("exptime", .float),
  ("band", .text 10), ("filter", .text 10), ("rotSkyPos", .float), ("rotSkyPos_desired", .float), ("nexp", .int), ("airmass", .float),
  ("FWHM_500", .float), ("FWHMeff", .float), ("FWHM_geometric", .float), ("skybrightness", .float), ("night", .int), ("slewtime", .float),
  ("visittime", .float), ("slewdist", .float), ("fivesigmadepth", .float), ("alt", .float), ("az", .float), ("pa", .float), ("pseudo_pa", .float),
  ("clouds", .float), ("moonAlt", .float), ("sunAlt", .float), ("scheduler_note", .text 60), ("target_name", .text 60), ("target_id", .int),
  ("lmst", .float), ("rotTelPos", .float), ("rotTelPos_backup", .float), ("moonAz", .float), ("sunAz", .float), ("sunRA", .float), ("sunDec", .float),
  ("moonRA", .float), ("moonDec", .float), ("moonDist", .float), ("solarElong", .float), ("moonPhase", .float), ("cummTelAz", .float),
  ("observation_reason", .text 60), ("science_program", .text 60), ("cloud_extinction", .float), ("note", .text 60)]

/-- `convert_dict` (utils.py 448-493). -/
def convertDict : List (String × String) := [("observationId", "ID"), ("night", "night"), ("observationStartMJD", "mjd"), ("observationStartLST", "lmst"),
  ("numExposures", "nexp"), ("visitTime", "visittime"), ("visitExposureTime", "exptime"), ("proposalId", "survey_id"), ("fieldId", "field_id"),
  ("fieldRA", "RA"), ("fieldDec", "dec"), ("altitude", "alt"), ("azimuth", "az"), ("band", "band"), ("filter", "filter"), ("airmass", "airmass"),
  ("skyBrightness", "skybrightness"), ("cloud", "clouds"), ("seeingFwhm500", "FWHM_500"), ("seeingFwhmGeom", "FWHM_geometric"),
  ("seeingFwhmEff", "FWHMeff"), ("fiveSigmaDepth", "fivesigmadepth"), ("slewTime", "slewtime"), ("slewDistance", "slewdist"), ("paraAngle", "pa"),
  ("pseudoParaAngle", "pseudo_pa"), ("rotTelPos", "rotTelPos"), ("rotTelPos_backup", "rotTelPos_backup"), ("rotSkyPos", "rotSkyPos"),
  ("rotSkyPos_desired", "rotSkyPos_desired"), ("moonRA", "moonRA"), ("moonDec", "moonDec"), ("moonAlt", "moonAlt"), ("moonAz", "moonAz"),
  ("moonDistance", "moonDist"), ("moonPhase", "moonPhase"), ("sunAlt", "sunAlt"), ("sunAz", "sunAz"), ("solarElong", "solarElong"), ("note", "note"),
  ("scheduler_note", "scheduler_note"), ("target_name", "target_name"), ("science_program", "science_program"),
  ("observation_reason", "observation_reason")]

/-- `backwards` (495). -/
def backwards : List (String × String) := [("target", "target_name")]

/-- `inv_map` (498). -/
def invMap : List (String × String) := convertDict.map (fun p => (p.2, p.1))

/-- `angles_rad2deg` (500-523). -/
def angles : List String := ["fieldRA", "fieldDec", "altitude", "azimuth", "slewDistance", "paraAngle", "pseudoParaAngle", "rotTelPos", "rotSkyPos",
  "rotSkyPos_desired", "rotTelPos_backup", "moonRA", "moonDec", "moonAlt", "moonAz", "moonDistance", "sunAlt", "sunAz", "sunRA", "sunDec",
  "solarElong", "cummTelAz"]

/-- `angles_hours2deg` (525). -/
def hours : List String := ["observationStartLST"]

/-- Arithmetic on one value; text raises. -/
def scale (c : ℚ) : Val → Option Val
  | .num x => some (.num (x * c))
  | .nan => some .nan
  | .str _ => none

/-- Arithmetic on a column. -/
def scaleCol (c : ℚ) : List Val → Option (List Val)
  | [] => some []
  | v :: r => match scale c v, scaleCol c r with
    | some v', some r' => some (v' :: r')
    | _, _ => none

/-- Multiply a column (561-564): a missing one raises. -/
def scaleAt (c : ℚ) (k : String) (f : Frame) : Option Frame := ((f.col k).bind (scaleCol c)).map (f.set k)

/-- All of the columns. -/
def scaleAll (c : ℚ) : List String → Frame → Option Frame
  | [], f => some f
  | k :: ks, f => (scaleAt c k f).bind (scaleAll c ks)

/-- `obs2opsim` (527-573), the data frame. -/
def obs2opsim (p : ℚ) (o : Frame) : Option Frame :=
  (((o.drop "note").map (fun f => f.rename invMap)).bind (scaleAll (180 / p) angles)).bind (scaleAll (360 / 24) hours)

/-- The names that have changed (594-596). -/
def backward (f : Frame) : List (String × String) → Frame
  | [] => f
  | (a, b) :: r => backward (if a ∈ f.names then f.rename [(a, b)] else f) r

/-- Multiply a column (598-607): nan where it is missing or not numeric. -/
def scaleOr (c : ℚ) (k : String) (f : Frame) : Frame :=
  match (f.col k).bind (scaleCol c) with
  | some v => f.set k v
  | none => f.set k (List.replicate f.rows .nan)

/-- All of the columns. -/
def scaleOrAll (c : ℚ) : List String → Frame → Frame
  | [], f => f
  | k :: ks, f => scaleOrAll c ks (scaleOr c k f)

/-- Assignment to an element of the array: integers are truncated, text is cut. `shown` is the text of a
number; text in a column of numbers raises (numbers written as text are left out). -/
def cast (shown : Val → String) : Kind → Val → Option Val
  | .int, .num x => some (.num (if 0 ≤ x then (⌊x⌋ : ℤ) else (⌈x⌉ : ℤ)))
  | .int, .nan => some (.num (-2 ^ 63))
  | .int, .str _ => none
  | .float, .num x => some (.num x)
  | .float, .nan => some .nan
  | .float, .str _ => none
  | .text n, .str s => some (.str (String.ofList (s.toList.take n)))
  | .text n, v => some (.str (String.ofList ((shown v).toList.take n)))

/-- Assignment of a column. -/
def castCol (shown : Val → String) (t : Kind) : List Val → Option (List Val)
  | [] => some []
  | v :: r => match cast shown t v, castCol shown t r with
    | some v', some r' => some (v' :: r')
    | _, _ => none

/-- Number of columns of a name. -/
def Frame.count (f : Frame) (k : String) : ℕ := (f.names.filter (fun x => x = k)).length

/-- One column of the result (612-618): without a source it stays what the memory was; two
columns of this name raise. -/
def fillCol (shown : Val → String) (memory : String → List Val) (f : Frame) (kt : String × Kind) : Option (String × List Val) :=
  if kt.1 ∈ f.names then
    if 1 < f.count kt.1 then none
    else ((f.col kt.1).bind (castCol shown kt.2)).map (fun v => (kt.1, v))
  else some (kt.1, memory kt.1)

/-- All columns. -/
def fillAll (shown : Val → String) (memory : String → List Val) (f : Frame) : List (String × Kind) → Option (List (String × List Val))
  | [] => some []
  | kt :: r => match fillCol shown memory f kt, fillAll shown memory f r with
    | some c, some cs => some (c :: cs)
    | _, _ => none

/-- `opsimdf2obs` (575-620). `memory` is the content of the array of `np.empty`. -/
def opsimdf2obs (p : ℚ) (shown : Val → String) (memory : String → List Val) (df : Frame) : Option Frame :=
  let f := (scaleOrAll (24 / 360) hours (scaleOrAll (p / 180) angles (backward df backwards))).rename convertDict
  (fillAll shown memory f dtype).map (fun cs => { rows := df.rows, cols := cs })

/-- A cell of the database. -/
inductive Cell where
  | null
  | real (x : ℚ)
  | text (s : String)
deriving DecidableEq, Repr

def toCell : Val → Cell
  | .num x => .real x
  | .nan => .null
  | .str s => .text s

def ofCell : Cell → Val
  | .real x => .num x
  | .null => .nan
  | .text s => .str s

/-- A table of the database. -/
structure Table where
  rows : ℕ
  cols : List (String × List Cell)
deriving DecidableEq, Repr

/-- `if_exists`. -/
inductive IfExists where
  | fail
  | replace
  | append
deriving DecidableEq, Repr

/-- The table of a data frame. -/
def toTable (f : Frame) : Table := { rows := f.rows, cols := f.cols.map (fun p => (p.1, p.2.map toCell)) }

/-- The cells of a column to add; empty when the new rows have no such column. -/
def cells (f : Frame) (k : String) : List Cell :=
  match f.col k with
  | some v => v.map toCell
  | none => List.replicate f.rows .null

/-- Rows added to a table: a column that the table does not have raises. -/
def addRows (t : Table) (f : Frame) : Option Table :=
  if ∀ k ∈ f.names, k ∈ t.cols.map Prod.fst then
    some { rows := t.rows + f.rows, cols := t.cols.map (fun p => (p.1, p.2 ++ cells f p.1)) }
  else none

/-- `to_sql` (568). -/
def toSql (file : Option Table) (f : Frame) : IfExists → Option Table
  | .fail => match file with
    | none => some (toTable f)
    | some _ => none
  | .replace => some (toTable f)
  | .append => match file with
    | none => some (toTable f)
    | some t => addRows t f

/-- `obs2opsim` with a file name (550-568): the table in the file before and after. -/
def write (p : ℚ) (deletePast : Bool) (m : IfExists) (file : Option Table) (o : Frame) : Option Table :=
  (obs2opsim p o).bind (fun f => toSql (if deletePast then none else file) f m)

/-- `opsim2obs` (622-633). -/
def read (p : ℚ) (shown : Val → String) (memory : String → List Val) (file : Option Table) : Option Frame :=
  file.bind (fun t => opsimdf2obs p shown memory { rows := t.rows, cols := t.cols.map (fun q => (q.1, q.2.map ofCell)) })

end Verif.Sch
