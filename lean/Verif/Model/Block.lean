import Verif.Model.IntRounded

/-!
Model of how many visits a blob survey puts in one block
(`/repo/rubin_scheduler/scheduler/surveys/surveys.py` 300-315 and `BlobSurvey._set_block_size`
339-406).  Times are exact rationals: mjd in days, settings in the units of the constructor
(minutes or seconds).  A time needed of zero (division by zero) is outside the statements.
-/

namespace Verif.Blk

/-- The constructor arguments that matter (surveys.py 178-219). `change` is
`band_change_approx`, `maxPair` is `max_pair_time` after its default was filled in
(surveys.py 300-302). `pair` says whether a second band was given, `sameBand` whether it is
the first one again. -/
structure Cfg where
  ideal : ℚ
  maxPair : ℚ
  slew : ℚ
  exptime : ℚ
  read : ℚ
  nexp : ℤ
  change : ℚ
  pair : Bool
  sameBand : Bool
  twilightScale : Bool
  checkSched : Bool
  inTwilight : Bool

/-- The parts of the conditions that are read. -/
structure Cond where
  mjd : ℚ
  n18Rising : ℚ
  n12Rising : ℚ
  n18Setting : ℚ
  sched : List ℚ

/-- Band change time in seconds, nothing for pairs in one band (surveys.py 304-305). -/
def changeTime (g : Cfg) : ℚ := if g.sameBand then 0 else g.change

/-- `time_needed` and `max_time_needed` in days (surveys.py 308-315), from a pair time in
minutes. -/
def needed (g : Cfg) (minutes : ℚ) : ℚ :=
  if g.pair then (minutes * 2 + changeTime g / 60) / 60 / 24 else minutes / 24 / 60

/-- Seconds per visit (surveys.py 381, 397). -/
def perVisit (g : Cfg) : ℚ := g.slew + g.exptime + g.read * (g.nexp - 1)

/-- `np.round(available / time_needed)` (surveys.py 351, 359, 372). -/
def blocks (g : Cfg) (available : ℚ) : ℤ := roundHalfEven (available / needed g g.ideal)

/-- Smallest entry of a non-empty array (`np.min`). -/
def least (x : ℚ) (xs : List ℚ) : ℚ := xs.foldl min x

/-- `n_ideal_blocks` and `available_time` after the twilight check (surveys.py 349-353); the
time is unbound (`none`) when the check is off. -/
def first (g : Cfg) (c : Cond) : ℤ × Option ℚ :=
  if g.twilightScale then (blocks g (c.n18Rising - c.mjd), some (c.n18Rising - c.mjd)) else (4, none)

/-- One comparison with the scheduled visits (surveys.py 358-362). -/
def tighter (g : Cfg) (t : ℚ) (st : ℤ × Option ℚ) : ℤ × Option ℚ :=
  if blocks g t < st.1 then (blocks g t, some t) else st

/-- After the scheduled-visits check (surveys.py 356-362). -/
def second (g : Cfg) (c : Cond) : ℤ × Option ℚ :=
  if g.checkSched then
    match c.sched with
    | [] => first g c
    | x :: xs => tighter g (least x xs - c.mjd) (first g c)
  else first g c

/-- Time left within twilight (surveys.py 367-371). -/
def twilightLeft (c : Cond) : ℚ :=
  match [c.n12Rising - c.mjd, c.n18Setting - c.mjd].filter (fun t => decide (0 < t)) with
  | [] => 0
  | x :: xs => least x xs

/-- After the twilight check: the time is replaced whatever the comparison says
(surveys.py 366-374). -/
def third (g : Cfg) (c : Cond) : ℤ × Option ℚ :=
  if g.inTwilight then
    (if blocks g (twilightLeft c) < (second g c).1 then blocks g (twilightLeft c) else (second g c).1,
      some (twilightLeft c))
  else second g c

/-- `best_block_time` (surveys.py 389-392). -/
def bestTime (g : Cfg) (available : ℚ) : ℚ := if available ≤ needed g g.maxPair then available else available / 2

/-- Number of visits when the block is stretched or shrunk (surveys.py 394-402). -/
def stretched (g : Cfg) (available : ℚ) : ℤ :=
  if g.pair then ⌊((⌊bestTime g available * 3600 * 24 / perVisit g⌋ : ℤ) : ℚ) / 2⌋
  else ⌊bestTime g available * 3600 * 24 / perVisit g⌋

/-- Number of visits before the last clip (surveys.py 376-402); `none`: `available_time` is
unbound (`UnboundLocalError`). -/
def rawVisits (g : Cfg) (c : Cond) : Option ℤ :=
  if 2 ≤ (third g c).1 then some ⌊g.ideal * 60 / perVisit g⌋ else (third g c).2.map (stretched g)

/-- `_set_block_size` (surveys.py 339-406): the number of visits in a block. -/
def visits (g : Cfg) (c : Cond) : Option ℤ := (rawVisits g c).map (fun n => if n ≤ 0 then 1 else n)

end Verif.Blk
