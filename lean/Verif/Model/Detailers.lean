import Verif.Model.IntRounded
import Verif.Model.Features
import Verif.Model.Scripted
import Verif.Model.Angles

/-!
Model of detailers, which reorder, repeat, cut or fill in the visits of a survey
(`/repo/rubin_scheduler/scheduler/detailers/detailer.py`, `dither_detailer.py`,
`vary_exptime.py`). `none` stands for an exception.
-/

namespace Verif.Det

open Verif.Feat (isIn)

/-- The columns of an observation used here (observation_array.py 118-172). -/
structure Obs where
  /-- all other columns -/
  id : ℕ
  band : String
  exptime : ℚ
  note : String
  target : String
  program : String
  reason : String
  flush : ℚ
  deriving DecidableEq

/-! ### Reordering -/

/-- `s.replace(pat, "")` for strings as lists of characters. -/
def removeSub (pat : List Char) : List Char → List Char
  | [] => []
  | c :: s =>
    if pat ≠ [] ∧ pat <+: (c :: s) then removeSub pat (s.drop (pat.length - 1)) else c :: removeSub pat s
termination_by s => s.length
decreasing_by all_goals simp +arith

/-- Bands in the order they appear (detailer.py 607, 614). -/
def bandsSeen (os : List Obs) : List String := (os.map Obs.band).reverse.dedup.reverse

/-- The string of bands to go through (605-618). -/
def bandString (order : Option (List Char)) (loadedFirst : Bool) (cur : String) (os : List Obs) : List Char :=
  let w := match order with | none => (bandsSeen os).flatMap String.toList | some o => o
  if loadedFirst then cur.toList ++ removeSub cur.toList w else w

/-- `BandSortDetailer.__call__` (601-625). Nothing to concatenate (623) raises. -/
def bandSort (order : Option (List Char)) (loadedFirst : Bool) (cur : String) (os : List Obs) : Option (List Obs) :=
  if (bandsSeen os).length = 1 then some os
  else
    let w := bandString order loadedFirst cur os
    if w = [] then none else some (w.flatMap (fun ch => os.filter (fun o => o.band == String.singleton ch)))

/-- `RollBandMatchDetailer.__call__` (395-403). -/
def rollBandMatch (cur : String) (os : List Obs) : List Obs :=
  match os.findIdx? (fun o => o.band == cur) with
  | none => os
  | some i => os.rotate i

/-- Positions at which a flag is set. -/
def setAt (fl : List Bool) : List ℕ := (List.range fl.length).filter (fun i => fl.getD i false)

/-- The first position of `is` where `f` is smallest. -/
def argmin (f : ℕ → ℚ) : List ℕ → Option ℕ
  | [] => none
  | i :: is => match argmin f is with | none => some i | some j => if f j < f i then some j else some i

/-- `CloseAltDetailer.__call__` (849-870); `alt` and `dist` give the altitude of a visit and its
distance from where the telescope points. -/
def closeAlt (alt dist : Obs → ℚ) (telAlt altBand : ℚ) (os : List Obs) : Option (List Obs) :=
  let inBand := setAt (leA Tol.default (os.map (fun o => (|alt o - telAlt|, altBand))))
  let cand := if inBand = [] then List.range os.length else inBand
  match argmin (fun i => (os.map dist).getD i 0) cand with
  | none => none
  | some i => some (os.drop i ++ os.take i)

/-! ### Repeating -/

/-- `TakeAsPairsDetailer.__call__` (930-954), without the numbers of exposures. -/
def takeAsPairs (band : String) (exptime : Option ℚ) (cur : String) (os : List Obs) : List Obs :=
  let tags := if cur = band then ("a", "b") else ("b", "a")
  let paired := os.map (fun o => { o with
    exptime := exptime.getD o.exptime, band := band, note := Script.cut (o.note ++ ", " ++ tags.1) })
  let orig := os.map (fun o => { o with note := Script.cut (o.note ++ ", " ++ tags.2) })
  if cur = band then paired ++ orig else orig ++ paired

/-- Running sums (`np.cumsum`). -/
def cumsum (acc : ℚ) : List ℚ → List ℚ
  | [] => []
  | x :: xs => (acc + x) :: cumsum (acc + x) xs

/-- Seconds until the evening or morning twilight block ends (966-973). -/
def twilightLeft (now n18set n12rise : ℚ) : Option ℚ :=
  match [n18set - now, n12rise - now].filter (fun x => decide (0 < x)) with
  | [] => none
  | x :: xs => some (xs.foldl min x * 24 * 3600)

/-- The visits that are repeated (975-990). -/
def tripleCut (slew left : ℚ) (n : ℕ) (os : List Obs) : List Obs :=
  let time := List.zipWith (· + ·) ((List.range os.length).map (fun i => (i : ℚ) * slew)) (cumsum 0 (os.map Obs.exptime))
  if ∃ t ∈ time, left < t then
    match (setAt (time.map (fun t => decide (t / n ≤ left)))).getLast? with
    | none => os.take 3
    | some 0 => os.take 1
    | some k => os.take k
  else os

/-- `TwilightTripleDetailer.__call__` (957-998). -/
def twilightTriple (slew : ℚ) (n : ℕ) (updateNote : Bool) (now n18set n12rise : ℚ) (os : List Obs) : Option (List Obs) :=
  match twilightLeft now n18set n12rise with
  | none => none
  | some left =>
    if os = [] then none
    else some ((List.range n).flatMap (fun i => (tripleCut slew left n os).map (fun o =>
      { o with note := if updateNote then Script.cut (o.note ++ ", " ++ toString i) else o.note })))

/-! ### Cutting -/

/-- Settings of `TruncatePreTwiDetailer` (476-481), in days. -/
structure Trunc where
  pad : ℚ
  change : ℚ
  overhead : ℚ

/-- Times of the visits (485-495). -/
def visitTimes (t : Trunc) (cur : String) : List Obs → List ℚ
  | [] => []
  | o :: os => (o.exptime / 3600 / 24 + (if o.band = cur then 0 else t.change) + t.overhead) :: visitTimes t o.band os

/-- `TruncatePreTwiDetailer.__call__` (483-506). -/
def truncatePreTwi (t : Trunc) (cur : String) (now cutMjd : ℚ) (os : List Obs) : Option (List Obs) :=
  if os = [] then none
  else
    let avail := cutMjd - now - t.pad
    match (setAt (leA Tol.default ((cumsum 0 (visitTimes t cur os)).map (fun x => (x, avail))))).getLast? with
    | none => some []
    | some k => some (os.take (k + 1))

/-! ### Filling in -/

/-- `FlushByDetailer.__call__` (420-422); `minutes` is the constructor's argument. -/
def flushBy (minutes now : ℚ) (os : List Obs) : List Obs := os.map (fun o => { o with flush := now + minutes / 60 / 24 })

/-- `FlushForSchedDetailer.__call__` (886-891): line 890 assigns to a copy of the selected rows. -/
def flushForSched (tol : ℚ) (scheduled : List ℚ) (os : List Obs) : List Obs :=
  match scheduled with
  | [] => os
  | t :: ts =>
    let newFlush := ts.foldl min t - tol
    let sel := os.filter (fun o => decide (newFlush < o.flush))
    let _copy := sel.map (fun o => { o with flush := newFlush })
    os

/-- A value is missing (382-386). -/
def missing (x : String) : Bool := x == "" || x == "None"

/-- Assigning a value that may be `None` (387). -/
def fill (v : Option String) (x : String) : String := if missing x then Script.cut (v.getD "None") else x

/-- `TrackingInfoDetailer` (371-389). -/
def trackingInfo (target program reason : Option String) (os : List Obs) : List Obs :=
  let reason := reason.map (fun r => String.ofList (r.toList.map (fun c => if c = ' ' then '_' else c)))
  os.map (fun o => { o with target := fill target o.target, program := fill program o.program, reason := fill reason o.reason })

/-- numpy indexing with possibly negative index. -/
def pyGet {α : Type} (l : List α) (i : ℤ) : Option α :=
  if 0 ≤ i then l[i.toNat]? else if 0 ≤ i + l.length then l[(i + l.length).toNat]? else none

/-- `RandomBandDetailer.__call__` (565-574); `draws` are the random numbers made by the constructor. -/
def randomBand (bands fallback : List String) (draws : List ℕ) (mounted : List String) (night : ℤ) (os : List Obs) :
    Option (List Obs) :=
  match (pyGet draws night).bind (fun d => bands[d]?) with
  | none => none
  | some b =>
    if b ∈ mounted then some (os.map (fun o => { o with band := b }))
    else match fallback.find? (fun f => decide (f ∈ mounted)) with
      | none => none
      | some f => some (os.map (fun o => { o with band := f }))

/-- `BandSubstituteDetailer.__call__` (188-192). -/
def bandSubstitute (orig repl : String) (mounted : List String) (os : List Obs) : List Obs :=
  if orig ∈ mounted then os else os.map (fun o => if o.band = orig then { o with band := repl } else o)

/-- `IndexNoteDetailer.__call__` (335-339) on the scheduler note with the usual separator. -/
def indexNote (os : List Obs) : List Obs :=
  os.mapIdx (fun i o => { o with note := Script.cut (o.note ++ ", " ++ toString i) })

/-- The new exposure time of `VaryExptDetailer` (vary_exptime.py 125-129), from the time that gives the
target depth. -/
def varyExpt (minE maxE want : ℚ) : ℤ := roundHalfEven (min (max want minE) maxE)

/-! ### Splitting -/

/-- A detailer with its memory: what a call returns (and its new memory), and what a report does. -/
structure Detailer (σ : Type) where
  call : σ → List Obs → Option (σ × List Obs)
  add : σ → Obs → σ

/-- Put rows back where the mask is set; numpy repeats a single row. -/
def putBack (mask : List Bool) (os rows : List Obs) : Option (List Obs) :=
  let n := mask.count true
  let rows := if rows.length = n then some rows else match rows with | [r] => some (List.replicate n r) | _ => none
  rows.map (fun rows => go mask os rows)
where
  /-- One row after the other. -/
  go : List Bool → List Obs → List Obs → List Obs
    | true :: ms, _ :: os, r :: rs => r :: go ms os rs
    | false :: ms, o :: os, rs => o :: go ms os rs
    | _, os, _ => os

/-- `SplitDetailer` (dither_detailer.py 396-431). Reports reach neither detailer (it has no
`survey_features`). -/
def split {σ τ : Type} (d1 : Detailer σ) (d2 : Detailer τ) (text : String) : Detailer (σ × τ) where
  call s os :=
    let isin := os.map (fun o => isIn text o.note)
    match d1.call s.1 (os.filter (fun o => !isIn text o.note)) with
    | none => none
    | some (s1, r1) =>
      match putBack (isin.map not) os r1 with
      | none => none
      | some os1 =>
        match d2.call s.2 (((os1.zip isin).filter (fun p => p.2)).map Prod.fst) with
        | none => none
        | some (s2, r2) => (putBack isin os1 r2).map (fun r => ((s1, s2), r))
  add s _ := s

/-! ### Rotator -/

/-- What makes the rotator angles of `CameraRotDetailer` change (dither_detailer.py 448-450, 495). -/
inductive Dither where
  | night
  | call
  | all
  deriving DecidableEq

/-- Memory of `CameraRotDetailer` (460-506): `draws` are the current random numbers. -/
structure Rot where
  night : Option ℤ
  offset : ℚ
  callNum : ℕ
  draws : List ℚ

/-- `_generate_offsets` (508-529); `rng` gives the numbers seeded with a night, `fresh` unseeded ones.
Seeding with a negative number raises. -/
def rotOffsets (d : Dither) (lo hi : ℚ) (rng : ℕ → List ℚ) (fresh : ℕ → ℚ) (s : Rot) (n : ℕ) (night : ℤ) :
    Option (Rot × List ℚ) :=
  match d with
  | .night =>
    if s.night = some night then some (s, List.replicate n s.offset)
    else (pyGet s.draws night).map (fun u =>
      ({ s with night := some night, offset := u * (hi - lo) + lo }, List.replicate n (u * (hi - lo) + lo)))
  | .call =>
    let s := if s.night = some night then some s
      else if night < 0 then none else some { s with night := some night, callNum := 0, draws := rng night.toNat }
    match s with
    | none => none
    | some s => s.draws[s.callNum]?.map (fun u =>
        ({ s with callNum := s.callNum + 1 }, List.replicate n (u * (hi - lo) + lo)))
  | .all => some (s, (List.range n).map (fun i => fresh i * (hi - lo) + lo))

/-- Where bands change, starting with 0 (dither_detailer.py 594-598). -/
def changes (bands : List String) : List ℕ :=
  0 :: ((List.range (bands.length - 1)).filter (fun i => decide (bands.getD i "" ≠ bands.getD (i + 1) ""))).map (· + 1)

/-- Each change with the number of visits up to the next one; one too few for the last (599-602). -/
def runs (len : ℕ) : List ℕ → List (ℕ × ℤ)
  | [] => []
  | [a] => [(a, (len : ℤ) - 1 - a)]
  | a :: b :: l => (a, (b : ℤ) - a) :: runs len (b :: l)

/-- The offsets before they are capped (603-611). `u k` is the `k`-th random number. -/
def smallRotRaw (lo hi pv : ℚ) (u : ℕ → ℚ) (rs : List (ℕ × ℤ)) : ℕ → ℚ :=
  (rs.zipIdx).foldl (fun off r => fun i =>
    if r.1.1 ≤ i then u r.2 * ((hi - lo) - pv * r.1.2) + lo + pv * ((i : ℚ) - r.1.1) else off i) (fun _ => 0)

/-- `_generate_offsets_band_change` (585-614). -/
def smallRot (lo hi pv : ℚ) (u : ℕ → ℚ) (bands : List String) : List ℚ :=
  (List.range bands.length).map (fun i => min (smallRotRaw lo hi pv u (runs bands.length (changes bands)) i) hi)

section
variable {α : Type} [Field α] [LinearOrder α] [IsStrictOrderedRing α] [FloorRing α]

/-- `RotspUpdateDetailer.__call__` (detailer.py 142-170), for one visit: sky angle (`none` is NaN),
backup rotator angle and parallactic angle. -/
def rotspUpdate (T : α) (cam : Ang.Camera) (l1 l2 : α) (sky : Option α) (tel pa : α) : α :=
  match sky with
  | none => Ang.tel2sky T cam tel pa
  | some sk =>
    if max l1 l2 < Ang.sky2tel T cam sk pa ∨ Ang.sky2tel T cam sk pa < min l1 l2 then Ang.tel2sky T cam tel pa else sk

end

end Verif.Det
