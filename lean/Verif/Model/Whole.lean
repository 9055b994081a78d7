import Verif.Model.SimRunner
import Verif.Model.Observatory
import Verif.Model.Core
import Verif.Model.Kinem

/-!
A whole simulation: the loop `sim_runner` (`/repo/rubin_scheduler/scheduler/sim_runner.py` 22-307) run with the simulated
observatory (`/repo/rubin_scheduler/scheduler/model_observatory/model_observatory.py` 507-795) and a scheduler, here any
object with the methods the loop calls, or the core scheduler (`/repo/rubin_scheduler/scheduler/schedulers/core_scheduler.py`).

Every definition here only connects models of the other files.  A call that raises would end the simulation: it is modelled
by a mark on the world, and the call gives nothing.
-/

namespace Verif.Whole

open Verif.Obs (Site Kin)

/-- The methods of a scheduler and of a band scheduler that the loop calls (sim_runner.py 120-122, 157-169, 189-194, 220, 223-227).
Requests give at most one row. -/
structure Sched (U O C B : Type) where
  hasConds : U → Bool
  check : U → ℚ → Bool
  update : U → C → U
  /-- `none`: the call raises -/
  request : U → ℚ → Option (U × Option O)
  add : U → Obs.Visit O → U
  bandAdd : U → Obs.Visit O → U
  flush : U → U
  bands : U → C → U × B
  /-- seconds -/
  overhead : U → Obs.Visit O → U × ℚ

/-- Observatory, scheduler, and whether a call has raised. -/
structure World (U K : Type) where
  obs : Obs.St K
  sched : U
  raised : Bool

variable {U K O C B : Type}

/-- A visit as asked for: the columns filled in by the observatory are still zero (observation_array.py 118-172). -/
def asked (o : O) : Obs.Visit O := ⟨o, 0, 0, 0, 0, 0⟩

/-- `scheduler.request_observation` (sim_runner.py 169). -/
def requestOf (D : Sched U O C B) (w : World U K) (x : ℚ) : World U K × Option (Obs.Visit O) :=
  match D.request w.sched x with
  | none => ({ w with raised := true }, none)
  | some (u, r) => ({ w with sched := u }, r.map asked)

/-- `observatory.observe` (sim_runner.py 186). -/
def observeOf (S : Site) (M : Kin K O) (fuel : ℕ) (w : World U K) (v : Obs.Visit O) :
    World U K × Option (Obs.Visit O) × Bool :=
  match Obs.observe S M fuel w.obs v.target with
  | .error _ => ({ w with raised := true }, none, false)
  | .ok (s, r, nn) => ({ w with obs := s }, r, nn)

/-- The objects of a simulation (sim_runner.py 22-43, 92-124): `conds` makes the conditions of the observatory
(`return_conditions`, model_observatory.py 372-505), which parks the telescope after a long gap, `mount` puts bands into the camera (`mount_bands`, kinem_model.py 154-162). -/
def env (S : Site) (M : Kin K O) (fuel : ℕ) (conds : Obs.St K → C) (mount : K → B → K) (D : Sched U O C B) :
    Sim.Env (World U K) (Obs.Visit O) C B where
  clock w := w.obs.mjd
  setClock w x := { w with obs := { w.obs with mjd := x } }
  conds w := ({ w with obs := Obs.idle S M w.obs }, conds w.obs)
  hasConds w := D.hasConds w.sched
  check w x := (w, D.check w.sched x)
  update w c := { w with sched := D.update w.sched c }
  request w x := requestOf D w x
  observe w v := observeOf S M fuel w v
  overhead w v := ({ w with sched := (D.overhead w.sched v).1 }, (D.overhead w.sched v).2)
  add w v := { w with sched := D.add w.sched v }
  bandAdd w v := { w with sched := D.bandAdd w.sched v }
  flush w := { w with sched := D.flush w.sched }
  bands w c := ({ w with sched := (D.bands w.sched c).1 }, (D.bands w.sched c).2)
  mount w b := { w with obs := { w.obs with kin := mount w.obs.kin b } }

/-- A band scheduler and the function for unexpected overheads, next to a core scheduler. -/
structure Rest (H C B : Type) where
  bandAdd : H → Obs.Visit Verif.Obs → H
  bands : H → C → H × B
  overhead : H → Obs.Visit Verif.Obs → H × ℚ

/-- The row of a completed visit that the scheduler is given: the target with the time of the visit. -/
def told (v : Obs.Visit Verif.Obs) : Verif.Obs := { v.target with mjd := v.mjd }

/-- One row of a request; a request that raises is `none`. -/
def coreRequest {Sv A : Type} (E : Verif.Env C Sv A) (s : Core C Sv A) (x : ℚ) : Option (Core C Sv A × Option Verif.Obs) :=
  match s.request E (some x) false with
  | .error _ => none
  | .ok (s', l, _) => some (s', l.bind List.head?)

/-- `_check_queue_mjd_only` (core_scheduler.py 304-314). Without conditions it would raise; the loop gives conditions first. -/
def coreCheck {Sv A : Type} (E : Verif.Env C Sv A) (s : Core C Sv A) (x : ℚ) : Bool :=
  match s.conditions with
  | none => false
  | some c => s.qm.checkQueueMjdOnly E.q x c

/-- The core scheduler in a simulation. -/
def coreSched {Sv A H : Type} (E : Verif.Env C Sv A) (X : Rest H C B) : Sched (Core C Sv A × H) Verif.Obs C B where
  hasConds u := u.1.conditions.isSome
  check u x := coreCheck E u.1 x
  update u c := (u.1.update E c, u.2)
  request u x := (coreRequest E u.1 x).map fun r => ((r.1, u.2), r.2)
  add u v := ((u.1.addObs E (told v)).1, u.2)
  bandAdd u v := (u.1, X.bandAdd u.2 v)
  flush u := (u.1.flush, u.2)
  bands u c := ((u.1, (X.bands u.2 c).1), (X.bands u.2 c).2)
  overhead u v := ((u.1, (X.overhead u.2 v).1), (X.overhead u.2 v).2)

/-- `mount_bands` of the telescope (kinem_model.py 154-167). An empty list would raise after the list is stored; the bands in the light path are then
left as they were. -/
def mountTel (s : Kinem.Tel ℚ) (bands : List String) : Kinem.Tel ℚ := (Kinem.mount s bands).getD { s with mounted := bands }

end Verif.Whole
