import Verif.Model.SimRunner

/-!
Model of the simulation loop with snapshots (`snapshot_dir` of `sim_runner`, `/repo/rubin_scheduler/scheduler/sim_runner.py` 71-74, 125-155).

The scheduler is part of the world, so a snapshot is modelled with the whole world at that time.  The name of a file is taken as the time it is made of
(127-139): times are written to the millisecond there, here exactly.
-/

namespace Verif.Sim

/-- What is written to a file: the scheduler and the conditions (155), and the time in the name of the file (127-139). -/
structure Snap (W C : Type) where
  name : ℚ
  w : W
  c : C

variable {W V C B : Type} (E : Env W V C B)

/-- The snapshot of a pass (127-155). -/
def snapOf (s : St W V) : Snap W C := ⟨s.mjd, s.w, (E.conds s.w).2⟩

/-- `while mjd < sim_end_mjd` with a snapshot at the beginning of every pass (125-239): the files written, in order, and the end. Asking for the
conditions to be saved is a call of the observatory like any other (155). -/
def loopSnap (cfg : Cfg) : ℕ → St W V → List (Snap W C) × Out W V
  | 0, s => ([], if s.mjd < s.endMjd then .running s else .finished s)
  | n + 1, s =>
    if s.mjd < s.endMjd then
      match pass E cfg { s with w := (E.conds s.w).1 } with
      | .again s' => (snapOf E s :: (loopSnap cfg n s').1, (loopSnap cfg n s').2)
      | .brk s' => ([snapOf E s], .finished s')
      | .gaveUp s' => ([snapOf E s], .gaveUp s')
      | .indexError s' => ([snapOf E s], .indexError s')
    else ([], .finished s)

/-- The whole simulation with snapshots. -/
def runSnap (cfg : Cfg) (fuel : ℕ) (w : W) : List (Snap W C) × Out W V := loopSnap E cfg fuel (start E cfg w)

/-- What is found in the directory afterwards under a name: `gzip.open(fname, "wb")` replaces an older file (154). -/
def onDisk (l : List (Snap W C)) (name : ℚ) : Option (Snap W C) := l.reverse.find? fun f => decide (f.name = name)

end Verif.Sim
