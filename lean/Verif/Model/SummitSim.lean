import Verif.Model.Summit
import Verif.Model.Whole

/-!
The look-ahead wrapper `SummitWrapper` (`/repo/rubin_scheduler/scheduler/schedulers/summit_wrapper.py`) as the scheduler of a simulation
(`/repo/rubin_scheduler/scheduler/sim_runner.py` 157-227).
-/

namespace Verif.Summit
variable {C Sv A H B : Type}

/-- `_check_queue_mjd_only` (summit_wrapper.py 75-89): some visit of the look-ahead scheduler is not over yet, or has no end. -/
def check (w : Summit C Sv A) (mjd : ℚ) : Bool :=
  !w.ahead.qm.nonePending
    && ((ltA Tol.default (w.ahead.qm.active.map fun o => (mjd, o.flushBy))).any id || w.ahead.qm.active.any fun o => decide (o.flushBy = 0))

/-- The wrapper in a simulation. It has the attribute `conditions` from the beginning (summit_wrapper.py 28; sim_runner.py 158). -/
def sched (E : Env C Sv A) (F : FillIn C) (X : Whole.Rest H C B) : Whole.Sched (Summit C Sv A × H) Verif.Obs C B where
  hasConds _ := true
  check u x := check u.1 x
  update u c := (update E u.1 c, u.2)
  request u x := (request E F u.1 (some x)).map fun r => ((r.1, u.2), some r.2)
  add u v := (add E u.1 (Whole.told v), u.2)
  bandAdd u v := (u.1, X.bandAdd u.2 v)
  flush u := (flush u.1, u.2)
  bands u c := ((u.1, (X.bands u.2 c).1), (X.bands u.2 c).2)
  overhead u v := ((u.1, (X.overhead u.2 v).1), (X.overhead u.2 v).2)

end Verif.Summit
