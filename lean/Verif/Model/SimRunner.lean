import Mathlib.Data.Rat.Defs
import Mathlib.Data.Rat.Floor
import Mathlib.Data.List.Basic

/-!
Model of the simulation loop `sim_runner`
(`/repo/rubin_scheduler/scheduler/sim_runner.py` 21-308).

The scheduler, the observatory and the band scheduler are the caller's objects.  They are
modelled together as one "world" state `W` with one function per method the loop calls, so
they may share state with each other and nothing is assumed about them.  A method that
raises ends the run; only calls that return are modelled.  Not modelled: progress text, writing
the database file; `record_rewards` is in `Model/SimRewards`, snapshots (126-155) in `Model/SimSnap`.
-/

namespace Verif.Sim

/-- The methods of the three objects that `sim_runner` calls.
`V` visits, `C` conditions, `B` sets of bands. -/
structure Env (W V C B : Type) where
  /-- `observatory.mjd` (getter). -/
  clock : W → ℚ
  /-- `observatory.mjd = x`. -/
  setClock : W → ℚ → W
  /-- `observatory.return_conditions()`. -/
  conds : W → W × C
  /-- `hasattr(scheduler, "conditions")`. -/
  hasConds : W → Bool
  /-- `scheduler._check_queue_mjd_only(mjd)`. -/
  check : W → ℚ → W × Bool
  /-- `scheduler.update_conditions(conditions)`. -/
  update : W → C → W
  /-- `scheduler.request_observation(mjd=mjd)`. -/
  request : W → ℚ → W × Option V
  /-- `observatory.observe(visit)`: completed visit or `None`, and "new night". -/
  observe : W → V → W × Option V × Bool
  /-- `anomalous_overhead_func(obs=visit)`, seconds. -/
  overhead : W → V → W × ℚ
  /-- `scheduler.add_observation(visit)`. -/
  add : W → V → W
  /-- `band_scheduler.add_observation(visit)`. -/
  bandAdd : W → V → W
  /-- `scheduler.flush_queue()`. -/
  flush : W → W
  /-- `band_scheduler(conditions)`. -/
  bands : W → C → W × B
  /-- `observatory.observatory.mount_bands(bands)`. -/
  mount : W → B → W

/-- The arguments of `sim_runner` that affect the loop (sim_runner.py 21-42). -/
structure Cfg where
  simStart : Option ℚ := none
  duration : ℚ := 3
  /-- minutes -/
  stepNone : ℚ := 15
  visitLimit : Option ℤ := none
  startSize : ℕ := 200000
  appendSize : ℕ := 2500000
  useOverhead : Bool := false
  updateEvery : Bool := false

/-- `step_none / 60.0 / 24.0` (sim_runner.py 107). -/
def Cfg.step (c : Cfg) : ℚ := c.stepNone / 60 / 24

/-- Local variables of the loop.  `buf` is the preallocated result array
(`none` = a row never written, sim_runner.py 104). -/
structure St (W V : Type) where
  w : W
  mjd : ℚ
  endMjd : ℚ
  lastFlush : ℚ
  buf : List (Option V)
  counter : ℕ
  nskip : ℕ

/-- How one pass through the loop body ends. -/
inductive Pass (W V : Type) where
  /-- back to the loop head -/
  | again (s : St W V)
  /-- `break` -/
  | brk (s : St W V)
  /-- `raise RuntimeError` (214-217) -/
  | gaveUp (s : St W V)
  /-- `observations[counter] = ...` out of range (193) -/
  | indexError (s : St W V)

section
variable {W V C B : Type} (E : Env W V C B)

/-- `scheduler.update_conditions(observatory.return_conditions())` (159, 163, 167, 179). -/
def updateNow (w : W) : W :=
  let r := E.conds w
  E.update r.1 r.2

/-- Work out the bands wanted and mount them (120-122 and 225-227). -/
def mountNow (w : W) : W :=
  let r := E.conds w
  let b := E.bands r.1 r.2
  E.mount b.1 b.2

/-- Bring the scheduler's conditions up to date when needed (157-167).  Returns after the
possible third update. -/
def refresh (cfg : Cfg) (w : W) : W :=
  let a : W × Bool := if E.hasConds w then (w, false) else (updateNow E w, true)
  let k := E.check a.1 (E.clock a.1)
  let b : W × Bool := if k.2 then (k.1, a.2) else (updateNow E k.1, true)
  if cfg.updateEvery && !b.2 then updateNow E b.1 else b.1

/-- `observations[counter] = completed_obs[0]`, then grow the array when it is full
(193-198). `none` is numpy's IndexError. -/
def store (cfg : Cfg) (buf : List (Option V)) (counter : ℕ) (v : V) : Option (List (Option V)) :=
  if counter < buf.length then
    let buf' := buf.set counter (some v)
    if counter + 1 = buf'.length then some (buf' ++ List.replicate cfg.appendSize none)
    else some buf'
  else none

/-- The end of the loop body (223-239): mount bands on a new night, take the clock, check
the visit limit. -/
def endOfPass (cfg : Cfg) (newNight : Bool) (s : St W V) : Pass W V :=
  let w := if newNight then mountNow E s.w else s.w
  let s' := { s with w := w, mjd := E.clock w }
  match cfg.visitLimit with
  | some n => if (s'.counter : ℤ) = n then .brk s' else .again s'
  | none => .again s'

/-- `desired_obs is None` (175-185). -/
def skipPass (cfg : Cfg) (s : St W V) : Pass W V :=
  let w := updateNow E (E.setClock s.w (E.clock s.w + cfg.step))
  let s' := { s with w := w, nskip := s.nskip + 1 }
  if s.endMjd < E.clock w then .brk s' else .again s'

/-- `anomalous_overhead_func` (189-190). -/
def addOverhead (cfg : Cfg) (w : W) (v : V) : W :=
  if cfg.useOverhead then
    let r := E.overhead w v
    E.setClock r.1 (E.clock r.1 + r.2 / 86400)
  else w

/-- A completed visit (188-198). `scheduler.add_observation` is called before the row is
stored, the band scheduler after. -/
def completedPass (cfg : Cfg) (newNight : Bool) (s : St W V) (v : V) : Pass W V :=
  let w := E.add (addOverhead E cfg s.w v) v
  match store cfg s.buf s.counter v with
  | none => .indexError { s with w := w }
  | some buf =>
    endOfPass E cfg newNight { s with w := E.bandAdd w v, buf := buf, counter := s.counter + 1 }

/-- A rejected visit (202-221). -/
def rejectedPass (cfg : Cfg) (newNight : Bool) (s : St W V) : Pass W V :=
  if E.clock s.w = s.lastFlush then .gaveUp s
  else
    let w := E.flush s.w
    endOfPass E cfg newNight { s with w := w, lastFlush := E.clock w }

/-- One pass through the loop body (125-239). -/
def pass (cfg : Cfg) (s : St W V) : Pass W V :=
  let w := refresh E cfg s.w
  let r := E.request w (E.clock w)
  match r.2 with
  | none => skipPass E cfg { s with w := r.1 }
  | some v =>
    let o := E.observe r.1 v
    match o.2.1 with
    | some v' => completedPass E cfg o.2.2 { s with w := o.1 } v'
    | none => rejectedPass E cfg o.2.2 { s with w := o.1 }

/-- How the run ends; `running` means the fuel given to the model ran out. -/
inductive Out (W V : Type) where
  | finished (s : St W V)
  | gaveUp (s : St W V)
  | indexError (s : St W V)
  | running (s : St W V)

/-- `while mjd < sim_end_mjd` (125), with fuel. -/
def loop (cfg : Cfg) : ℕ → St W V → Out W V
  | 0, s => if s.mjd < s.endMjd then .running s else .finished s
  | n + 1, s =>
    if s.mjd < s.endMjd then
      match pass E cfg s with
      | .again s' => loop cfg n s'
      | .brk s' => .finished s'
      | .gaveUp s' => .gaveUp s'
      | .indexError s' => .indexError s'
    else .finished s

/-- Everything before the loop (92-124). -/
def start (cfg : Cfg) (w : W) : St W V :=
  let w1 := match cfg.simStart with
    | none => w
    | some m => E.setClock w m
  let m := match cfg.simStart with
    | none => E.clock w
    | some m => m
  { w := mountNow E w1, mjd := m, endMjd := m + cfg.duration, lastFlush := -1,
    buf := List.replicate cfg.startSize none, counter := 0, nskip := 0 }

/-- The whole simulation loop. -/
def run (cfg : Cfg) (fuel : ℕ) (w : W) : Out W V := loop E cfg fuel (start E cfg w)

/-- `observations[0:counter]` (245); the later columns (alt, az, pa, ...) are filled in row
by row and are not modelled.  `none` rows are rows of zeros. -/
def St.result (s : St W V) : List (Option V) := s.buf.take s.counter

end

end Verif.Sim
