import Verif.Model.BandSched
import Verif.Model.Angles

/-!
Model of recorded weather (`/repo/rubin_scheduler/site_models/cloud_data.py` and `seeing_data.py`), of the store of cloud
maps (`cloud_maps.py`) and of the search for nights in the almanac (`almanac.py`). `none` stands for an exception.
-/

namespace Verif.Wx

open Verif.Bands (searchLeft)

/-! ### Recorded weather -/

/-- `a[i - 1]` for an array: index -1 is the last element. -/
def before {V : Type} (a : List V) (i : ℕ) : Option V := if i = 0 then a.getLast? else a[i - 1]?

/-- The value of the sample closest to the time (cloud_data.py 80-95, seeing_data.py 74-86), for one time. -/
def lookup {V : Type} (dates : List ℚ) (values : List V) (x : ℚ) : Option V :=
  let idx := searchLeft dates x
  match before dates idx, dates[idx]? with
  | some left, some right => if x - left < right - x then before values idx else values[idx]?
  | _, _ => none

/-- The samples in order of time (cloud_data.py 122-125, 135, seeing_data.py 114-118). -/
def sorted {V : Type} (table : List (ℚ × V)) : List (ℚ × V) := table.insertionSort (fun a b => a.1 ≤ b.1)

/-- First and last time (cloud_data.py 127-128, seeing_data.py 119-120). -/
def span {V : Type} (table : List (ℚ × V)) : Option (ℚ × ℚ) :=
  match (sorted table).head?, (sorted table).getLast? with
  | some a, some b => some (a.1, b.1)
  | _, _ => none

/-- `SeeingData.__call__` (53-86); `delta` is the time since the start of the year in seconds. The remainder of a division by zero is
not a number, which lies after all samples (`none`). -/
def seeing {V : Type} (table : List (ℚ × V)) (delta : ℚ) : Option V :=
  match span table with
  | none => none
  | some (lo, hi) =>
    if hi - lo = 0 then none
    else lookup ((sorted table).map Prod.fst) ((sorted table).map Prod.snd) (Ang.md (hi - lo) delta + lo)

/-- Seconds in a year (cloud_data.py 131). -/
def year : ℚ := 60 * 60 * 24 * (36525 / 100)

/-- The time in units of the scale (cloud_data.py 77-78, 133-134). -/
def scaled (scale : Option ℚ) (x : ℚ) : ℚ := match scale with | none => x | some s => (roundHalfEven (x * s) : ℚ)

/-- `CloudData.__call__` (58-95). A range of zero years, where the remainder is not a number, is
left out (`none`). -/
def cloud {V : Type} (scale : Option ℚ) (table : List (ℚ × V)) (delta : ℚ) : Option V :=
  match span table with
  | none => none
  | some (lo, hi) =>
    if ⌊(hi - lo) / year⌋ = 0 then none
    else lookup ((sorted table).map (fun p => scaled scale p.1)) ((sorted table).map Prod.snd)
      (scaled scale (Ang.md (⌊(hi - lo) / year⌋ * year) delta))

/-! ### Cloud maps -/

/-- The store of maps: times and maps, oldest addition first (cloud_maps.py 22-28). The maps of uncertainties are
treated as the maps and left out. -/
structure Maps (V : Type) where
  mjds : List ℚ
  maps : List V

/-- Comparison of lists `a <= b` in Python: the first difference decides (66). -/
def lexLe : List ℚ → List ℚ → Bool
  | [], _ => true
  | _ :: _, [] => false
  | a :: as, b :: bs => if a = b then lexLe as bs else decide (a < b)

/-- Trimming to the size limit (72-76). -/
def trim {V : Type} (n : ℕ) (s : Maps V) : Maps V := ⟨s.mjds.drop (s.mjds.length - n), s.maps.drop (s.mjds.length - n)⟩

/-- `add_frame` (30-76): the new state, and whether no exception is raised. Indexing a list by an array (68) raises,
after the addition. The change of resolution (48-60) is left out. -/
def add {V : Type} (n : ℕ) (s : Maps V) (mjd : ℚ) (v : V) : Maps V × Bool :=
  let s1 : Maps V := ⟨s.mjds ++ [mjd], s.maps ++ [v]⟩
  if lexLe s1.mjds.dropLast s1.mjds.tail then (trim n s1, true) else (s1, false)

/-- Additions one after another, exceptions being caught; with the number of exceptions. -/
def addAll {V : Type} (n : ℕ) (s : Maps V) : List (ℚ × V) → Maps V × ℕ
  | [] => (s, 0)
  | f :: fs =>
    let r := add n s f.1 f.2
    let q := addAll n r.1 fs
    (q.1, (if r.2 then 0 else 1) + q.2)

/-- `extinction_closest` (78-113) for all pixels: `some none` is the result 0. The smallest of no values
raises (98). -/
def closest {V : Type} (limit : ℚ) (s : Maps V) (mjd : ℚ) : Option (Option V) :=
  match s.mjds.map (fun m => |m - mjd|) with
  | [] => none
  | d :: ds =>
    let m := ds.foldl min d
    if limit < m then some none
    else (s.maps[(d :: ds).findIdx (fun x => x == m)]?).map some

/-! ### Almanac -/

/-- `np.searchsorted(a, x, side="right")` for sorted `a`. -/
def searchRight (a : List ℚ) (x : ℚ) : ℕ := (a.takeWhile (fun b => decide (b ≤ x))).length

/-- `mjd_indx` (almanac.py 132-134): an index into the nights, -1 being the last. -/
def nightIndex (sunsets : List ℚ) (mjd : ℚ) : ℤ := (searchRight sunsets mjd : ℤ) - 1

/-- `get_sunset_info(mjd)` (123-130): the night. -/
def nightAt {V : Type} (sunsets : List ℚ) (nights : List V) (mjd : ℚ) : Option V := before nights (searchRight sunsets mjd)

/-- Renumbering of nights on construction (24-27). -/
def renumber (sunsets : List ℚ) (nights : List ℤ) (start : ℚ) : Option (List ℤ) :=
  (before nights (searchLeft sunsets start)).map (fun n => nights.map (· - n))

/-- The day of an evening date in `index_for_local_evening` (157-161); `day` is the MJD of the date
and `zone` how many days the clock of the computer is ahead of UTC. -/
def eveningMjd (zone : ℚ) (day : ℤ) : ℤ := ⌊(day : ℚ) - zone⌋

/-- `index_for_local_evening` (136-175): the night whose sunset, moved to local time, is on the day. `longitude` is in turns, east
positive. Several such nights raise (173), and so do none (170-171). -/
def eveningIndex (sunsets : List ℚ) (longitude zone : ℚ) (day : ℤ) : Option ℕ :=
  match (List.range sunsets.length).filter (fun i => decide ((sunsets[i]?).map (fun s => ⌊s + longitude⌋) = some (eveningMjd zone day))) with
  | [i] => some i
  | _ => none

end Verif.Wx
