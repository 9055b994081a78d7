import Verif.Model.Downtime

/-!
The total of the unscheduled downtimes (`/repo/rubin_scheduler/site_models/unscheduled_downtime_data.py` 153-164).
-/

namespace Verif.Down

/-- `total_downtime` (153-164): the lengths added up, in days. -/
def total (l : List Iv) : ℚ := l.foldl (fun s d => s + (d.2 - d.1)) 0

end Verif.Down
