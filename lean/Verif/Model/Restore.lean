import Verif.Model.Core

/-!
Model of `restore_scheduler` and `warm_start`
(`/repo/rubin_scheduler/scheduler/utils/utils.py` 270-346, 871-886): bringing a scheduler and
an observatory to where they were after a given visit of a simulation.
-/

namespace Verif.Restore

open Verif.Core

/-- A row of the table of visits: the columns the scheduler looks at, and those used for the
observatory.  Angles and the visit time (`visit_time(obs)`, seconds) are numbers. -/
structure Row where
  id : Int
  night : Int
  visitTime : ℚ
  rot : ℚ
  cummAz : ℚ
  o : Obs
deriving DecidableEq

/-- Ways in which the call raises. -/
inductive RErr where
  /-- an index past the end of the table -/
  | index
  /-- `np.max` of nothing -/
  | empty
  /-- an error of the scheduler -/
  | core (e : Verif.Err)
deriving DecidableEq

/-- `np.max` of a list of ids. -/
def npMax : List Int → Except RErr Int
  | [] => .error .empty
  | x :: xs => .ok (xs.foldl max x)

/-- `np.where(observations["ID"] <= observation_id)[0]` (utils.py 301). -/
def goodIdx (rows : List Row) (last : Int) : List ℕ :=
  (List.range rows.length).filter (fun i => (rows.map (fun r => decide (r.id ≤ last))).getD i false)

/-- Indexing an array by a list of places (utils.py 305, 307, 309). -/
def takeIdx (rows : List Row) : List ℕ → Except RErr (List Row)
  | [] => .ok []
  | i :: is =>
    match rows[i]? with
    | none => .error .index
    | some r =>
      match takeIdx rows is with
      | .error e => .error e
      | .ok rs => .ok (r :: rs)

/-- The places from which the ids for the target counter are taken, and what is added
(utils.py 304-307). -/
def counterFrom (rows : List Row) (good : List ℕ) : List ℕ × Int :=
  if good.length < rows.length then (good.map (· + 1), 0) else (good, 1)

/-- The target counter set (utils.py 304-307). -/
def counterOf (rows : List Row) (good : List ℕ) : Except RErr Int :=
  match takeIdx rows (counterFrom rows good).1 with
  | .error e => .error e
  | .ok rs =>
    match npMax (rs.map (fun r => r.o.targetId)) with
    | .error e => .error e
    | .ok m => .ok (m + (counterFrom rows good).2)

variable {C Sv A : Type}

/-- Handing the visits to the scheduler in one go or one by one (utils.py 311-316). -/
def feed (E : Env C Sv A) (s : Core C Sv A) (l : List Obs) (fast : Bool) : Except RErr (Core C Sv A) :=
  if fast then
    match s.addArr E l with
    | .error e => .error (.core e)
    | .ok (s', _) => .ok s'
  else .ok (l.foldl (fun s o => (s.addObs E o).1) s)

/-- What is set on the observatory (utils.py 334-342); the other fields stay. -/
structure Tel where
  mjd : ℚ
  idCounter : Int
  parked : Bool
  ra : ℚ
  dec : ℚ
  rot : ℚ
  cummAz : ℚ
  band : String
  mounted : List String
deriving DecidableEq

/-- Start of the night for the band scheduler (utils.py 326). -/
def nightStart (rows : List Row) (night : Int) : ℚ :=
  match (rows.filter (fun r => decide (r.night = night))).map (fun r => r.o.mjd) with
  | [] => 0
  | x :: xs => xs.foldl min x

/-- The bands to mount (utils.py 318-331): `sched` gives those wanted at a time. -/
def bandsFor (rows : List Row) (last : Row) : Option (ℚ → List String) → List String
  | none => ["u", "g", "r", "i", "y"]
  | some sched => sched (nightStart rows last.night)

/-- The observatory after the last visit (utils.py 334-342). -/
def telAfter (rows : List Row) (last : Row) (sched : Option (ℚ → List String)) : Tel :=
  { mjd := last.o.mjd + last.visitTime / 3600 / 24, idCounter := last.id + 1, parked := false, ra := last.o.ra,
    dec := last.o.dec, rot := last.rot, cummAz := last.cummAz, band := last.o.band, mounted := bandsFor rows last sched }

/-- `restore_scheduler` (utils.py 270-346), for a table given as an array.  The last visit is the last
row taken (313, or the loop variable of 315). -/
def restore (E : Env C Sv A) (s : Core C Sv A) (rows : List Row) (last : Int) (sched : Option (ℚ → List String))
    (fast : Bool) : Except RErr (Core C Sv A × Tel) :=
  match counterOf rows (goodIdx rows last) with
  | .error e => .error e
  | .ok n =>
    match takeIdx rows (goodIdx rows last) with
    | .error e => .error e
    | .ok rs =>
      match feed E { s with counter := n } (rs.map Row.o) fast with
      | .error e => .error e
      | .ok s' =>
        match rs.getLast? with
        | none => .error .index
        | some r => .ok (s', telAfter rs r sched)

/-- `warm_start` (utils.py 871-886): sort by time, then hand over one by one.  Ties, which numpy
breaks by the other columns, keep their order here. -/
def warm (E : Env C Sv A) (s : Core C Sv A) (l : List Obs) : Core C Sv A :=
  (l.insertionSort (fun a b => a.mjd ≤ b.mjd)).foldl (fun s o => (s.addObs E o).1) s

end Verif.Restore
