import Verif.Model.IntRounded
import Mathlib.Data.List.Infix
import Mathlib.Data.List.Sort
import Mathlib.Logic.Function.Basic

/-!
Model of the survey features
(`/repo/rubin_scheduler/scheduler/features/features.py` 116-913).

A feature is a value and two ways to update it: one visit at a time (`add_observation`) and
with a batch (`add_observations_array`).  Maps of the sky are functions of the pixel number.
Columns and settings not used by the feature are left out.
-/

namespace Verif.Feat

/-- The columns of a visit that features look at, and the pixels it covers. -/
structure Vis where
  ID : ℕ
  mjd : ℚ
  night : ℤ
  band : String
  note : String
  program : String
  /-- `FWHMeff`; `none` when not finite -/
  seeing : Option ℚ
  depth : ℚ
  ra : ℚ
  dec : ℚ
  pix : List ℕ

/-- `observations_hpid`: a row for each visit and pixel it covers
(core_scheduler.py 178-200), in the order of the visits. -/
def rows (h : List Vis) : List (ℕ × Vis) := h.flatMap (fun v => v.pix.map (fun p => (p, v)))

/-- Python's `a in b` for strings. -/
def isIn (a b : String) : Bool := decide (a.toList <:+: b.toList)

/-- The number of rows of each pixel (`binned_statistic` with `np.sum` of ones). -/
def binCount (rs : List (ℕ × Vis)) (p : ℕ) : ℕ := rs.countP (fun r => r.1 == p)

/-! ### NoteInNight (116-155) -/

structure NoteInNight where
  night : ℤ
  count : ℕ
  deriving DecidableEq

namespace NoteInNight

/-- `__init__` (133-136). -/
def init : NoteInNight := ⟨-100, 0⟩

/-- The test at 147 and 154; `none` is the list `[None]`. -/
def wanted (notes : Option (List String)) (v : Vis) : Bool :=
  match notes with
  | none => true
  | some l => l.contains v.note

/-- `add_observation` (150-155). -/
def one (notes : Option (List String)) (s : NoteInNight) (v : Vis) : NoteInNight :=
  let s := if s.night ≠ v.night then ⟨v.night, 0⟩ else s
  if wanted notes v then { s with count := s.count + 1 } else s

/-- `add_observations_array` (138-148); raises (no change here) for an empty batch. -/
def bulk (notes : Option (List String)) (s : NoteInNight) (h : List Vis) : NoteInNight :=
  match h.getLast? with
  | none => s
  | some l =>
    let s := if s.night ≠ l.night then ⟨l.night, 0⟩ else s
    { s with count := s.count + (h.filter (fun v => v.night == l.night)).countP (wanted notes) }

end NoteInNight

/-! ### NObsCount (158-230) -/

structure NObsCount where
  night : ℤ
  count : ℕ
  deriving DecidableEq

namespace NObsCount

structure Cfg where
  note : Option String
  band : Option String
  perNight : Bool

/-- `__init__` (177-190). -/
def init : NObsCount := ⟨-1, 0⟩

/-- The band test of `add_observation` (221, 227): `in`. -/
def bandOne (c : Cfg) (v : Vis) : Bool :=
  match c.band with
  | none => true
  | some b => isIn v.band b

/-- The band test of `add_observations_array` (201, 208): `==`. -/
def bandBulk (c : Cfg) (v : Vis) : Bool :=
  match c.band with
  | none => true
  | some b => v.band == b

/-- The note test (204, 209, 224, 227-229). -/
def noteOk (c : Cfg) (v : Vis) : Bool :=
  match c.note with
  | none => true
  | some n => isIn n v.note

/-- `add_observation` (212-230). -/
def one (c : Cfg) (s : NObsCount) (v : Vis) : NObsCount :=
  let s := if c.perNight && decide (v.night ≠ s.night) then ⟨v.night, 0⟩ else s
  if bandOne c v && noteOk c v then { s with count := s.count + 1 } else s

/-- The largest night of a batch. -/
def maxNight (h : List Vis) : Option ℤ := (h.map Vis.night).max?

/-- `add_observations_array` (192-210); for an empty batch it raises with `per_night`, and
does nothing without. -/
def bulk (c : Cfg) (s : NObsCount) (h : List Vis) : NObsCount :=
  match maxNight h with
  | none => s
  | some m =>
    let s1 := if c.perNight then { s with night := m } else s
    let h1 := if c.perNight then h.filter (fun v => v.night == m) else h
    { s1 with count := s1.count + h1.countP (fun v => bandBulk c v && noteOk c v) }

end NObsCount

/-! ### LastObservation (233-272), LastObservationMjd (755-795) -/

namespace LastObs

structure Cfg where
  note : Option String
  band : Option String

/-- Both tests (261-265, 270-271). -/
def wanted (c : Cfg) (v : Vis) : Bool :=
  (match c.band with | none => true | some b => v.band == b) &&
  (match c.note with | none => true | some n => isIn n v.note)

/-- `add_observation` (269-272). -/
def one (c : Cfg) (s : Option Vis) (v : Vis) : Option Vis := if wanted c v then some v else s

/-- `add_observations_array` (259-267). -/
def bulk (c : Cfg) (s : Option Vis) (h : List Vis) : Option Vis :=
  match (h.filter (wanted c)).getLast? with
  | some v => some v
  | none => s

/-- `LastObservationMjd.add_observation` (792-795). -/
def oneMjd (c : Cfg) (s : Option ℚ) (v : Vis) : Option ℚ := if wanted c v then some v.mjd else s

/-- `LastObservationMjd.add_observations_array` (782-790). -/
def bulkMjd (c : Cfg) (s : Option ℚ) (h : List Vis) : Option ℚ :=
  match (h.filter (wanted c)).getLast? with
  | some v => some v.mjd
  | none => s

end LastObs

/-! ### NObservations (275-374) -/

namespace NObservations

/-- Limit on the seeing: one number, or one per pixel. -/
inductive Limit where
  | scalar (x : ℚ)
  | map (f : ℕ → ℚ)

structure Cfg where
  band : Option String
  note : Option String
  limit : Option Limit
  /-- `seeing_fill_value` -/
  fill : ℚ

/-- The seeing, or the fill value (332-333, 361-363). -/
def see (c : Cfg) (v : Vis) : ℚ := v.seeing.getD c.fill

/-- The note test (349, 373): the visit's note is part of the wanted note. -/
def noteOk (c : Cfg) (v : Vis) : Bool :=
  match c.note with
  | none => true
  | some n => isIn v.note n

/-- Rows that are too bad (335-342): the comparison is made for the whole array. -/
def bad (c : Cfg) (rs : List (ℕ × Vis)) : List Bool :=
  match c.limit with
  | none => rs.map (fun _ => false)
  | some (.scalar x) => geA Tol.default (rs.map (fun r => (see c r.2, x)))
  | some (.map f) => geA Tol.default (rs.map (fun r => (see c r.2, f r.1)))

/-- The band test of the bulk path (347). -/
def bandBulk (c : Cfg) (v : Vis) : Bool :=
  match c.band with
  | none => true
  | some b => v.band == b

/-- The band test of the single path (371). -/
def bandOne (c : Cfg) (v : Vis) : Bool :=
  match c.band with
  | none => true
  | some b => isIn v.band b

/-- `add_observations_array` (329-356). -/
def bulk (c : Cfg) (s : ℕ → ℕ) (h : List Vis) : ℕ → ℕ :=
  let rs := rows h
  let good := (List.zip rs (bad c rs)).filter (fun x => !x.2 && bandBulk c x.1.2 && noteOk c x.1.2)
  fun p => s p + binCount (good.map Prod.fst) p

/-- The seeing test of the single path (360-369): with a map, one good pixel is enough for all
pixels (`np.any`, and indexing with one boolean keeps all of them). -/
def seeOne (c : Cfg) (v : Vis) : Bool :=
  match c.limit with
  | none => true
  | some (.scalar x) => leS Tol.default (see c v) x
  | some (.map f) => (leA Tol.default (v.pix.map (fun p => (see c v, f p)))).any id

/-- `add_observation` (358-374). -/
def one (c : Cfg) (s : ℕ → ℕ) (v : Vis) : ℕ → ℕ :=
  if bandOne c v && seeOne c v && noteOk c v then fun p => if p ∈ v.pix then s p + 1 else s p else s

end NObservations

/-! ### LastNObsTimes (390-428) -/

namespace LastNObs

structure Cfg where
  band : Option String
  n : ℕ

/-- `__init__` (403-408): for each pixel a column with the newest time last. -/
def init (c : Cfg) : ℕ → List ℚ := fun _ => List.replicate (max 1 c.n) 0

def bandBulk (c : Cfg) (v : Vis) : Bool :=
  match c.band with
  | none => true
  | some b => v.band == b

def bandOne (c : Cfg) (v : Vis) : Bool :=
  match c.band with
  | none => true
  | some b => isIn v.band b

/-- `LargestN` (377-387): the i-th from the end, 0 when there are fewer. -/
def largest (i : ℕ) (ts : List ℚ) : ℚ := if ts.length < i then 0 else ts.getD (ts.length - i) 0

/-- `feature[-i] = x` for one column. -/
def setFromEnd (col : List ℚ) (i : ℕ) (x : ℚ) : List ℚ := col.set (col.length - i) x

/-- `add_observations_array` (410-423). -/
def bulk (c : Cfg) (s : ℕ → List ℚ) (h : List Vis) : ℕ → List ℚ :=
  let data := (rows h).filter (fun r => bandBulk c r.2)
  if data = [] then s
  else fun p =>
    let ts := (data.filter (fun r => r.1 == p)).map (fun r => r.2.mjd)
    (List.range' 1 c.n).foldl (fun col i => setFromEnd col i (largest i ts)) (s p)

/-- `add_observation` (425-428). -/
def one (c : Cfg) (s : ℕ → List ℚ) (v : Vis) : ℕ → List ℚ :=
  if bandOne c v then fun p => if p ∈ v.pix then (s p).tail ++ [v.mjd] else s p else s

end LastNObs

/-! ### LastObservedMatching (663-712) -/

namespace Matching

structure Cfg where
  program : Option String
  note : Option String
  /-- the distance to the wanted position (`_angular_separation`), and the radius -/
  near : Option ((ℚ → ℚ → ℚ) × ℚ)

def progOk (c : Cfg) (v : Vis) : Bool := match c.program with | none => true | some x => v.program == x

def noteOk (c : Cfg) (v : Vis) : Bool := match c.note with | none => true | some x => v.note == x

/-- `add_observations_array` (679-695). -/
def bulk (c : Cfg) (s : Option Vis) (h : List Vis) : Option Vis :=
  let near (v : Vis) : Bool := match c.near with | none => true | some (d, r) => decide (d v.ra v.dec ≤ r)
  match (((h.filter (progOk c)).filter (noteOk c)).filter near).getLast? with
  | some v => some v
  | none => s

/-- `add_observation` (697-712). -/
def one (c : Cfg) (s : Option Vis) (v : Vis) : Option Vis :=
  let far : Bool := match c.near with | none => false | some (d, r) => decide (r ≤ d v.ra v.dec)
  if !progOk c v then s else if !noteOk c v then s else if far then s else some v

end Matching

/-! ### LastObserved (715-752) -/

namespace LastObserved

def bandBulk (b : Option String) (v : Vis) : Bool := match b with | none => true | some b => v.band == b

def bandOne (b : Option String) (v : Vis) : Bool := match b with | none => true | some b => isIn v.band b

/-- `add_observations_array` (737-746): the largest time of each pixel, used where positive. -/
def bulk (b : Option String) (s : ℕ → Option ℚ) (h : List Vis) : ℕ → Option ℚ := fun p =>
  match ((((rows h).filter (fun r => bandBulk b r.2)).filter (fun r => r.1 == p)).map (fun r => r.2.mjd)).max? with
  | none => s p
  | some m => if 0 < m then some m else s p

/-- `add_observation` (748-752). -/
def one (b : Option String) (s : ℕ → Option ℚ) (v : Vis) : ℕ → Option ℚ :=
  if bandOne b v then fun p => if p ∈ v.pix then some v.mjd else s p else s

end LastObserved

/-! ### NObsNight (798-842) -/

structure NObsNight where
  night : Option ℤ
  count : ℕ → ℕ

namespace NObsNight

/-- `__init__` (811-815). -/
def init : NObsNight := ⟨none, fun _ => 0⟩

/-- `self.feature *= 0` on a new night (819-821, 836-838). -/
def turn (s : NObsNight) (n : ℤ) : NObsNight := if some n ≠ s.night then ⟨some n, fun _ => 0⟩ else s

def bandBulk (b : Option String) (v : Vis) : Bool := match b with | none => true | some b => v.band == b

/-- The band test of the single path (839-841): the empty name counts all. -/
def bandOne (b : Option String) (v : Vis) : Bool := match b with | none => true | some b => b == "" || isIn v.band b

/-- `add_observations_array` (817-833). -/
def bulk (b : Option String) (s : NObsNight) (h : List Vis) : NObsNight :=
  match (h.map Vis.night).max? with
  | none => s
  | some m =>
    let s := turn s m
    let data := (rows h).filter (fun r => bandBulk b r.2 && r.2.night == m)
    { s with count := fun p => s.count p + binCount data p }

/-- `add_observation` (835-842). -/
def one (b : Option String) (s : NObsNight) (v : Vis) : NObsNight :=
  let s := turn s v.night
  if bandOne b v then { s with count := fun p => if p ∈ v.pix then s.count p + 1 else s.count p } else s

end NObsNight

/-! ### PairInNight (845-913) -/

structure Pairs where
  night : ℤ
  count : ℕ → ℕ
  /-- `mjd_log` and `hpid_log` -/
  log : List (ℚ × ℕ)

namespace Pairs

/-- `gap_min`, `gap_max` in days. -/
structure Cfg where
  band : Option String
  gapMin : ℚ
  gapMax : ℚ

/-- `__init__` (857-868). -/
def init : Pairs := ⟨0, fun _ => 0, []⟩

/-- `in_range_indx` (899-902) as flags of the log entries: both comparisons are made for the
whole array. -/
def inRange (c : Cfg) (log : List (ℚ × ℕ)) (t : ℚ) : List Bool :=
  List.zipWith (· && ·) (gtA Tol.default (log.map (fun x => (t - x.1, c.gapMin))))
    (ltA Tol.default (log.map (fun x => (t - x.1, c.gapMax))))

/-- `self.hpid_log[left:right]` (905-909): from the first to the last entry in range. -/
def span (c : Cfg) (log : List (ℚ × ℕ)) (t : ℚ) : List ℕ :=
  (((((log.zip (inRange c log t)).dropWhile (fun x => !x.2)).reverse).dropWhile (fun x => !x.2)).reverse).map
    (fun x => x.1.2)

/-- The body for a visit in a wanted band (889-913). -/
def add (c : Cfg) (s : Pairs) (night : ℤ) (t : ℚ) (pix : List ℕ) : Pairs :=
  let s := if s.night ≠ night then ⟨night, fun _ => 0, []⟩ else s
  let m := span c s.log t
  { s with
    count := fun p => if p ∈ pix ∧ p ∈ m then s.count p + 1 else s.count p,
    log := s.log ++ pix.map (fun p => (t, p)) }

def bandOk (c : Cfg) (band : String) : Bool := match c.band with | none => true | some b => isIn band b

/-- `add_observation` (883-913). -/
def one (c : Cfg) (s : Pairs) (v : Vis) : Pairs :=
  if bandOk c v.band then add c s v.night v.mjd v.pix else s

/-- The rows of `all` at the given places. -/
def pick (all : List (ℕ × Vis)) (places : List ℕ) : List (ℕ × Vis) := places.filterMap (fun i => all[i]?)

/-- `add_observations_array` (870-881): the places of a visit are found among the rows of the
last night and used as places among all rows.  For one row `observation["band"][0]` is the
first letter. Raises for no rows (no change here). -/
def bulk (c : Cfg) (s : Pairs) (h : List Vis) : Pairs :=
  let all := rows h
  match (all.map (fun r => r.2.night)).max? with
  | none => s
  | some m =>
    let last := all.filter (fun r => r.2.night == m)
    let uid := ((last.map (fun r => r.2.ID)).dedup).insertionSort (· ≤ ·)
    uid.foldl (fun s i =>
      let good := (List.range last.length).filter (fun k => (last.map (fun r => r.2.ID))[k]? == some i)
      match pick all good with
      | [] => s
      | r :: rs =>
        if bandOk c (String.ofList (r.2.band.toList.take 1)) then
          add c s r.2.night r.2.mjd ((r :: rs).map Prod.fst)
        else s) s

end Pairs

/-! ### NObservationsCurrentSeason (431-660) -/

structure Season where
  mjd : ℚ
  season : ℕ → ℤ
  count : ℕ → ℕ

namespace Season

structure Cfg where
  band : Option String
  /-- `seeing_fwhm_max`, one number -/
  seeing : Option ℚ
  /-- `m5_penalty_max` and the dark sky map -/
  m5 : Option (ℚ × (ℕ → ℚ))
  mjdStart : ℚ
  /-- `calc_season` of each pixel at `mjd_start` -/
  map : ℕ → ℚ
  /-- `calc_season` at the right ascension and time of a visit -/
  ofVisit : Vis → ℚ

/-- The season of a pixel at a time (560, 633). -/
def at_ (c : Cfg) (p : ℕ) (t : ℚ) : ℤ := ⌊c.map p + (t - c.mjdStart) / 365.25⌋

/-- `__init__` (461-502). -/
def init (c : Cfg) : Season := ⟨c.mjdStart, fun p => ⌊c.map p⌋, fun _ => 0⟩

/-- `season_update` with an observation (504-565). -/
def update (c : Cfg) (s : Season) (t : ℚ) : Season :=
  if t < s.mjd then s
  else ⟨t, fun p => at_ c p t, fun p => if s.season p < at_ c p t then 0 else s.count p⟩

def bandOk (c : Cfg) (v : Vis) : Bool := match c.band with | none => true | some b => v.band == b

def deep (c : Cfg) (p : ℕ) (v : Vis) : Bool :=
  match c.m5 with
  | none => true
  | some (lim, dark) => !decide (lim < dark p - v.depth)

/-- The seeing test of the bulk path (574-586). The code raises for seeing that is not finite,
which is not modelled. -/
def bad (c : Cfg) (rs : List (ℕ × Vis)) : List Bool :=
  match c.seeing with
  | none => rs.map (fun _ => false)
  | some x => gtA Tol.default (rs.map (fun r => (r.2.seeing.getD 0, x)))

/-- `add_observations_array` (567-625); raises for an empty batch (no change here). The result
is only added when the sum of the pixel numbers is positive (615). -/
def bulk (c : Cfg) (s : Season) (h : List Vis) : Season :=
  match h.getLast? with
  | none => s
  | some l =>
    let s := update c s l.mjd
    let rs := rows h
    let good := ((List.zip rs (bad c rs)).filter (fun x =>
      !x.2 && bandOk c x.1.2 && decide (s.season x.1.1 = ⌊c.ofVisit x.1.2⌋) && deep c x.1.1 x.1.2)).map Prod.fst
    if 0 < (good.map Prod.fst).sum then { s with count := fun p => s.count p + binCount good p } else s

/-- The seeing test of the single path (637-647). -/
def seeOk (c : Cfg) (v : Vis) : Bool :=
  match c.seeing with
  | none => true
  | some x => leS Tol.default (v.seeing.getD 0) x

/-- `add_observation` (627-660); the depth limit needs a band (478-480, 650-657). -/
def one (c : Cfg) (s : Season) (v : Vis) : Season :=
  let s := update c s v.mjd
  let here := v.pix.filter (fun p => at_ c p v.mjd = s.season p)
  let check := seeOk c v && bandOk c v
  let here := here.filter (fun p => deep c p v)
  if check then { s with count := fun p => if p ∈ here then s.count p + 1 else s.count p } else s

end Season

end Verif.Feat
