import Verif.Model.Core

/-!
Model of `SummitWrapper` (`/repo/rubin_scheduler/scheduler/schedulers/summit_wrapper.py`): a
scheduler that can be asked for several visits before any is confirmed.

Simplifications.  `none` stands for a Python exception.  Visits are confirmed one at a time.
Detailers that return more than one row for a single visit are outside the model (`none`).
The warning about visits from the future (132-137) is left out.
-/

namespace Verif

/-- State of the wrapper (summit_wrapper.py 22-49). -/
structure Summit (C Sv A : Type) where
  core : Core C Sv A
  ahead : Core C Sv A
  ids : List Int
  pend : List Obs
  replay : Bool
  cond : Option C

/-- The values filled in for a requested visit (summit_wrapper.py 97-117): seeing, airmass,
depth and night are in the payload. -/
abbrev FillIn (C : Type) := C → Obs → ℕ

/-- The events a caller sees: a visit handed out, a visit confirmed. -/
inductive SEv where
  | got (o : Obs)
  | told (o : Obs)
deriving DecidableEq, Repr

namespace Summit
variable {C Sv A : Type}

/-- `clear_ahead` (summit_wrapper.py 35-49). -/
def clearAhead (w : Summit C Sv A) : Summit C Sv A :=
  { w with ahead := w.core, ids := [], pend := [], replay := false }

/-- `__init__` (summit_wrapper.py 22-33). -/
def init (core : Core C Sv A) : Summit C Sv A :=
  { core := core, ahead := core, ids := [], pend := [], replay := false, cond := none }

/-- `flush_queue` (summit_wrapper.py 51-53). -/
def flush (w : Summit C Sv A) : Summit C Sv A := clearAhead { w with core := w.core.flush }

/-- The bisection of `np.searchsorted(l, x, side="right")`, with fuel. -/
def bisect (l : List Int) (x : Int) : ℕ → ℕ → ℕ → ℕ
  | 0, lo, _ => lo
  | k + 1, lo, hi =>
    if lo < hi then
      if l.getD ((lo + hi) / 2) 0 ≤ x then bisect l x k ((lo + hi) / 2 + 1) hi else bisect l x k lo ((lo + hi) / 2)
    else lo

/-- `np.searchsorted(l, x, side="right")` (summit_wrapper.py 63-65). -/
def searchRight (l : List Int) (x : Int) : ℕ := bisect l x (l.length + 1) 0 l.length

/-- `add_observation` (summit_wrapper.py 55-73). `indx.size` is 1 for the scalar index, so the
test of line 69 always holds. -/
def add (E : Env C Sv A) (w : Summit C Sv A) (o : Obs) : Summit C Sv A :=
  { w with
    core := (w.core.addObs E o).1
    ids := w.ids.drop (searchRight w.ids o.targetId)
    pend := w.pend.drop (searchRight w.ids o.targetId)
    replay := true }

/-- `_fill_obs_values` (summit_wrapper.py 97-117). -/
def fillObs (E : Env C Sv A) (F : FillIn C) (c : C) (o : Obs) : Obs :=
  { o with mjd := E.q.mjdOf c, payload := F c o }

/-- `update_conditions` (summit_wrapper.py 91-95). -/
def update (E : Env C Sv A) (w : Summit C Sv A) (c : C) : Summit C Sv A :=
  { w with cond := some c, ahead := w.ahead.update E c, core := w.core.update E c }

/-- The replay (summit_wrapper.py 129-140). -/
def rebuild (E : Env C Sv A) (w : Summit C Sv A) (c : C) : Summit C Sv A :=
  if w.replay then
    { w with ahead := (w.pend.foldl (fun s o => (s.addObs E o).1) w.core).update E c, replay := false }
  else w

/-- Tell the core of a new queue (summit_wrapper.py 144-153): `before` is the active queue of
the look-ahead scheduler before the request, `after` the one after it. -/
def share (core : Core C Sv A) (before after : List Obs) (o : Obs) : Core C Sv A :=
  if before = [] then
    if after = [] then { core with qm := core.qm.append [o] } else { core with qm := (core.qm.append [o]).append after }
  else core

/-- `request_observation` (summit_wrapper.py 119-164). When nothing is available the core
returns `None` and `.copy()` raises (150 and 155). -/
def request (E : Env C Sv A) (F : FillIn C) (w : Summit C Sv A) (mjd : Option ℚ) : Option (Summit C Sv A × Obs) :=
  match w.cond with
  | none => none
  | some c =>
    match (rebuild E w c).ahead.request E mjd false with
    | .error _ => none
    | .ok (_, none, _) => none
    | .ok (a, some [o], _) =>
      some ({ rebuild E w c with
        core := share w.core (rebuild E w c).ahead.qm.active a.qm.active o
        ahead := (a.addObs E (fillObs E F c o)).1
        ids := w.ids ++ [o.targetId]
        pend := w.pend ++ [fillObs E F c o] }, o)
    | .ok (_, some _, _) => none

/-- The public calls. -/
inductive Op (C : Type) where
  | request (mjd : Option ℚ)
  | add (o : Obs)
  | update (c : C)
  | flush
  | clear

/-- One call. -/
def step (E : Env C Sv A) (F : FillIn C) (w : Summit C Sv A) : Op C → Option (Summit C Sv A × List SEv)
  | .request mjd => (request E F w mjd).map (fun r => (r.1, [.got r.2]))
  | .add o => some (add E w o, [.told o])
  | .update c => some (update E w c, [])
  | .flush => some (flush w, [])
  | .clear => some (clearAhead w, [])

/-- A history of calls, up to the first exception. -/
def run (E : Env C Sv A) (F : FillIn C) : Summit C Sv A → List (Op C) → Option (Summit C Sv A × List SEv)
  | w, [] => some (w, [])
  | w, op :: ops =>
    match step E F w op with
    | none => none
    | some (w1, ev) =>
      match run E F w1 ops with
      | none => none
      | some (w2, evs) => some (w2, ev ++ evs)

end Summit
end Verif
