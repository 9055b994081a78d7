import Verif.Model.Angles

/-!
Model of the dynamic footprints (`/repo/rubin_scheduler/scheduler/utils/footprints.py`). Times are in days.
`none` stands for an exception.
-/

namespace Verif.Fp

variable {K : Type} [Field K] [LinearOrder K] [IsStrictOrderedRing K] [FloorRing K]

/-! ### Evolution of one pixel -/

/-- `StepLine.__call__` (364-373) for one pixel. -/
def stepLine (period rise start mjd phase : K) : K :=
  let t := mjd + phase - start
  let result := ⌊t / period⌋ * rise
  let tphased := Ang.md period t
  if t < 0 then 0
  else if period / 2 < tphased then result + (tphased - period / 2) * rise / (1 / 2 * period) else result

/-- Indexing of an array: negative indices count from the end. -/
def pyAt {V : Type} (l : List V) (i : ℤ) : Option V :=
  if 0 ≤ i then l[i.toNat]? else if -(l.length : ℤ) ≤ i then l[(l.length + i).toNat]? else none

/-- `np.cumsum(steps) - steps[0]` (382). -/
def plateaus (steps : List K) : List K :=
  (List.range steps.length).map (fun k => (steps.take (k + 1)).sum - steps.headD 0)

/-- Storing a number in an array of whole numbers cuts its fraction (386). -/
def store (ints : Bool) (x : K) : K := if ints then (if x < 0 then (⌈x⌉ : K) else (⌊x⌋ : K)) else x

/-- `StepSlopes.__call__` (376-391) for one pixel. An index out of range raises (383, 387), for any pixel.
`ints` says that the rises were given as whole numbers: the array of plateaus then holds whole numbers. -/
def stepSlopes (ints : Bool) (period start : K) (steps : List K) (mjd phase : K) : Option K :=
  let t := mjd + phase - start
  let season := ⌊t / period⌋
  let tphased := Ang.md period t
  match pyAt (plateaus steps) season, pyAt steps (season + 1) with
  | some result, some step =>
    some (if t < 0 then 0
      else if period / 2 < tphased then store ints (result + (tphased - period / 2) * step / (1 / 2 * period)) else result)
  | _, _ => none

/-- Preparation of `PerFilterStep` for one band (676-679): the nights on which it is loaded, if given. Dividing by no
nights raises (679). -/
def loadedOk (loaded : Option (List K)) : Bool := loaded != some []

/-- `PerFilterStep.__call__` (681-701) for one band. -/
def perFilter (surveyLength : K) (loaded : Option (List K)) (t : K) : K :=
  match loaded with
  | none => t / surveyLength
  | some nights => ((nights.filter (fun n => decide (n ≤ t))).length : K) * (1 / (nights.length : K))

/-- The phase of a pixel (449-450); `T` is a full turn. -/
def phase (T period sunRa ra : K) : K := Ang.md T (-ra + sunRa + T / 4) * (period / T)

/-! ### Slopes of rolling -/

/-- `np.roll`. -/
def roll {V : Type} (l : List V) (k : ℤ) : List V := l.rotate ((-k) % (l.length : ℤ)).toNat

/-- The rises of one cycle of slice 0 (136-144). -/
def rolling (nslice : ℕ) (scale : K) (order : ℤ) : List K :=
  let d := 1 - scale
  let u := (nslice : K) - d * ((nslice : K) - 1)
  roll (u :: List.replicate (nslice - 1) d) order

/-- The extra season without rolling (147-150). -/
def extra (uniform : Bool) : List K := if uniform then [1] else []

/-- The rises of one cycle of slice `i` (153, 156). -/
def cycle (nslice : ℕ) (scale : K) (order : ℤ) (uniform : Bool) (i : ℕ) : List K :=
  roll (rolling nslice scale order) i ++ extra uniform

/-- First and last rise exchanged (157). -/
def exchange (l : List K) : List K := [l.getLastD 0] ++ l.tail.dropLast ++ [l.headD 0]

/-- The rises of a slice (139-141, 154, 158): `delayed` for the second half of the list. -/
def slopes (nslice : ℕ) (scale : K) (order : ℤ) (uniform : Bool) (nCycles nStart nEnd : ℕ) (delayed : Bool) (i : ℕ) : List K :=
  let c := cycle nslice scale order uniform i
  List.replicate nStart 1 ++ (List.replicate nCycles (if delayed then exchange c else c)).flatten ++ List.replicate nEnd 1

/-! ### Slices of the sky -/

/-- `slice_wfd_area_quad` (301-330) for an area of `count` pixels. -/
def splits (nslice count : ℕ) : List ℕ := 0 :: (List.range (nslice * 2)).map (fun k => count * (k + 1) / (nslice * 2))

/-- `a[lo:hi]`. -/
def sub {V : Type} (l : List V) (lo hi : ℕ) : List V := (l.take hi).drop lo

/-- Part `i` (counted from 1) of an area (289-290). -/
def part (nslice : ℕ) (area : List ℕ) (i : ℕ) : List ℕ :=
  sub area ((splits nslice area.length).getD (i - 1) 0) ((splits nslice area.length).getD i 0)

/-- `_is_in_ra_range` (247-253). -/
def inRange (T ra low high : K) : Bool :=
  if Ang.md T low ≤ Ang.md T high then decide (Ang.md T low ≤ ra) && decide (ra ≤ Ang.md T high)
  else decide (Ang.md T low ≤ ra) || decide (ra ≤ Ang.md T high)

/-- `np.intersect1d` of the pixels with a property and a set of pixels (279-280). -/
def area (npix : ℕ) (p : ℕ → Bool) (wfd : List ℕ) : List ℕ := (List.range npix).filter (fun i => p i && wfd.contains i)

/-- `slice_quad_galactic_cut` (279-291): slice `j`, before the restriction in right ascension. `north` says which pixels
have positive galactic latitude. -/
def slice (npix : ℕ) (north : ℕ → Bool) (nslice : ℕ) (wfd : List ℕ) (j : ℕ) : List ℕ :=
  let n := area npix north wfd
  let s := area npix (fun i => !north i) wfd
  part nslice n (j + 1) ++ part nslice s (j + 1) ++ part nslice n (j + 1 + nslice) ++ part nslice s (j + 1 + nslice)

/-- The map of a rolling member (217-241): zero outside the rolling area and the slice. -/
def rollingMap (wfd idx : List ℕ) (m : ℕ → K) (p : ℕ) : K := if wfd.contains p && idx.contains p then m p else 0

/-- The map of the member that does not roll (213-215). -/
def fixedMap (wfd : List ℕ) (m : ℕ → K) (p : ℕ) : K := if wfd.contains p then 0 else m p

/-- Settings of `make_rolling_footprints` (71-84) and the sky. `T` is a full turn. -/
structure Sky (K : Type) where
  T : K
  npix : ℕ
  ra : ℕ → K
  north : ℕ → Bool
  sunRa : K
  wfd : List ℕ
  nslice : ℕ

/-- The half of the sky of the first members (200). -/
def early (s : Sky K) (p : ℕ) : Bool := inRange s.T (s.ra p) (s.sunRa + 3 / 4 * s.T) (s.sunRa + s.T / 4)

/-- The half of the sky of the delayed members (207). -/
def late (s : Sky K) (p : ℕ) : Bool := inRange s.T (s.ra p) (s.sunRa + s.T / 4) (s.sunRa + 3 / 4 * s.T)

/-- The pixels of a slice of a rolling footprint (195-210, 293-296), `delayed` for the other half of the sky. Without `uniform`
the delayed members are empty (229). -/
def members (s : Sky K) (uniform delayed : Bool) (j : ℕ) : List ℕ :=
  match uniform, delayed with
  | true, false => (slice s.npix s.north s.nslice s.wfd j).filter (early s)
  | true, true => (slice s.npix s.north s.nslice s.wfd j).filter (late s)
  | false, false => slice s.npix s.north s.nslice s.wfd j
  | false, true => []

/-- The maps can be set (226, 239): the intersection with an empty list (296) holds floating-point numbers, which are not
allowed as indices. -/
def rollingOk (s : Sky K) (uniform : Bool) : Bool :=
  !uniform || (List.range s.nslice).all (fun j => !(slice s.npix s.north s.nslice s.wfd j).isEmpty)

/-- The sum of the maps of all members (558-560). -/
def totalMap (s : Sky K) (uniform : Bool) (m : ℕ → K) (p : ℕ) : K :=
  fixedMap s.wfd m p
    + ((List.range s.nslice).map (fun j => rollingMap s.wfd (members s uniform false j) m p)).sum
    + ((List.range s.nslice).map (fun j => rollingMap s.wfd (members s uniform true j) m p)).sum

/-! ### The footprint object -/

/-- `Footprint` (394-514). Bands and pixels are one list here: an element for each band and pixel. `coverage` is the evolution of all
elements for a time since the start, `zero` that at time 0 (456). Not-a-number is left out. -/
structure Foot (K : Type) where
  start : K
  coverage : K → Option (List K)
  zero : List K
  maps : List K
  current : List K
  mjd : Option K

/-- Construction (416-457) with step function `coverage`; raises when the step function does. -/
def Foot.new (start : K) (coverage : K → Option (List K)) (n : ℕ) : Option (Foot K) :=
  (coverage 0).map (fun z => ⟨start, coverage, z, List.replicate n 0, List.replicate n 0, none⟩)

/-- Division by the sum when it is not zero (473-476, 572-575). -/
def normed (norm : Bool) (l : List K) : List K := if norm && decide (l.sum ≠ 0) then l.map (· / l.sum) else l

/-- The product of maps and coverage since the start (470-472). -/
def product (maps c zero : List K) : List K := List.zipWith (fun m d => m * d) maps (List.zipWith (fun a b => a - b) c zero)

/-- `_update_mjd` (465-476): the state, and whether no exception is raised. -/
def Foot.update (f : Foot K) (mjd : K) (norm : Bool) : Foot K × Bool :=
  if f.mjd = some mjd then (f, true)
  else match f.coverage (mjd - f.start) with
    | none => ({ f with mjd := some mjd }, false)
    | some c => ({ f with mjd := some mjd, current := normed norm (product f.maps c f.zero) }, true)

/-- `__call__` (495-514). -/
def Foot.call (f : Foot K) (mjd : K) (norm : Bool) : Foot K × Option (List K) :=
  let r := f.update mjd norm
  (r.1, if r.2 then some r.1.current else none)

/-- `set_footprint` (459-460): any change of the maps. -/
def Foot.setMaps (f : Foot K) (maps : List K) : Foot K := { f with maps := maps }

/-- `Footprints` (544-575). `current` is `none` while it is a number and not an array (549, 568). -/
structure Feet (K : Type) where
  members : List (Foot K)
  current : Option (List K)
  mjd : Option K

/-- Addition of an array (571). -/
def plus (acc : Option (List K)) (l : List K) : Option (List K) :=
  match acc with
  | none => some l
  | some a => some (List.zipWith (fun x y => x + y) a l)

/-- The loop over members (569-571): the members, updated until one raises, the sum, and whether none raised. -/
def sumMembers (mjd : K) : List (Foot K) → Option (List K) → List (Foot K) × Option (List K) × Bool
  | [], acc => ([], acc, true)
  | f :: fs, acc =>
    let r := f.update mjd false
    if r.2 then
      let q := sumMembers mjd fs (plus acc r.1.current)
      (r.1 :: q.1, q.2)
    else (r.1 :: fs, acc, false)

/-- `_update_mjd` (565-575). -/
def Feet.update (f : Feet K) (mjd : K) (norm : Bool) : Feet K × Bool :=
  if f.mjd = some mjd then (f, true)
  else
    let r := sumMembers mjd f.members none
    if r.2.2 then (⟨r.1, r.2.1.map (normed norm), some mjd⟩, true) else (⟨r.1, r.2.1, some mjd⟩, false)

/-- `__call__` (495-514, inherited). A number in place of the array raises (482). -/
def Feet.call (f : Feet K) (mjd : K) (norm : Bool) : Feet K × Option (List K) :=
  let r := f.update mjd norm
  (r.1, if r.2 then r.1.current else none)

/-! ### Rolling footprints as objects -/

/-- All results of an array, or an exception. -/
def allSome {V : Type} : List (Option V) → Option (List V)
  | [] => some []
  | none :: _ => none
  | some v :: l => (allSome l).map (fun r => v :: r)

/-- `StepLine` with its defaults (355-358, 364-373) on all pixels; `P` is the default period. -/
def lineCover (P : K) (phases : List K) (t : K) : Option (List K) := some (phases.map (stepLine P 1 0 t))

/-- `StepSlopes` with its defaults on all pixels. -/
def slopesCover (P : K) (steps phases : List K) (t : K) : Option (List K) := allSome (phases.map (stepSlopes false P 0 steps t))

/-- A footprint with its map set (416-460), for one band. -/
def Foot.make (start : K) (coverage : K → Option (List K)) (maps : List K) : Option (Foot K) :=
  (Foot.new start coverage maps.length).map (fun f => f.setMaps maps)

/-- The phases of all pixels (449-450). -/
def phases (s : Sky K) (P : K) : List K := (List.range s.npix).map (fun p => phase s.T P s.sunRa (s.ra p))

/-- The members of a rolling footprint for one band (175-186, 212-243). -/
def rollingMembers (s : Sky K) (P start scale : K) (order : ℤ) (uniform : Bool) (nc ns ne : ℕ) (m : ℕ → K) : List (Option (Foot K)) :=
  Foot.make start (lineCover P (phases s P)) ((List.range s.npix).map (fixedMap s.wfd m)) ::
    ((List.range s.nslice).map (fun j => Foot.make start (slopesCover P (slopes s.nslice scale order uniform nc ns ne false j) (phases s P))
        ((List.range s.npix).map (rollingMap s.wfd (members s uniform false j) m))) ++
     (List.range s.nslice).map (fun j => Foot.make start (slopesCover P (slopes s.nslice scale order uniform nc ns ne true j) (phases s P))
        ((List.range s.npix).map (rollingMap s.wfd (members s uniform true j) m))))

/-- `make_rolling_footprints` (71-244) for one band. -/
def rollingFeet (s : Sky K) (P start scale : K) (order : ℤ) (uniform : Bool) (nc ns ne : ℕ) (m : ℕ → K) : Option (Feet K) :=
  if rollingOk s uniform then
    (allSome (rollingMembers s P start scale order uniform nc ns ne m)).map (fun l => ⟨l, none, none⟩)
  else none

end Verif.Fp
