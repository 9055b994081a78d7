import Verif.Model.Consdb

/-!
Model of the tables made from the consolidated database
(`/repo/rubin_scheduler/utils/consdb.py`): the join of visits with their quick look, the table
in the format of simulations and the two joined. `none` is a Python exception.
-/

namespace Verif.Cdt

/-- A column of the answer: not there, not numeric, or with values (`none` is nan). -/
inductive Col where
  | absent
  | text
  | num (l : List (Option ℚ))
deriving DecidableEq, Repr

/-- `_have_numeric_values` (consdb.py 175-191). -/
def Col.numeric : Col → Bool
  | .num _ => true
  | _ => false

/-- The numbers of a column: a missing one is a KeyError, and a text has none. -/
def Col.read : Col → Option (List (Option ℚ))
  | .num l => some l
  | _ => none

/-- `LEFT JOIN quicklook ON v.visit_id = q.visit_id` (consdb.py 377-379): every visit with each of its
rows of the quick look, or alone. -/
def leftJoin {V Q : Type} (idV : V → ℕ) (idQ : Q → ℕ) (vs : List V) (qs : List Q) : List (V × Option Q) :=
  vs.flatMap (fun v => if (qs.filter (fun q => decide (idQ q = idV v))).length = 0 then [(v, none)]
    else (qs.filter (fun q => decide (idQ q = idV v))).map (fun q => (v, some q)))

/-- `opsim` (consdb.py 1009-1071): one row for each visit, with its id and what is computed of it. The ids
are those of the visits, as `observation_id` has it where the database gives numbers (1142-1143). -/
def opsim {R O : Type} (id : R → ℕ) (f : R → O) (rows : List R) : List (ℕ × O) := rows.map (fun r => (id r, f r))

/-- `merged_opsim_consdb` (consdb.py 1084-1089): the inner join of the visits and the table. -/
def merged {R O : Type} (id : R → ℕ) (rows : List R) (table : List (ℕ × O)) : List (R × O) :=
  rows.flatMap (fun r => (table.filter (fun t => decide (t.1 = id r))).map (fun t => (r, t.2)))

/-- `eff_time_m5` of LATISS (consdb.py 1341-1356): one column is looked at, another one is read. -/
def latissDepth (n : ℕ) (effTime effTimeM5 : Col) : Option (List (Option ℚ)) :=
  if effTime.numeric then effTimeM5.read else some (List.replicate n none)

/-- The instruments (consdb.py 34). -/
def known : List String := ["lsstcam", "lsstcomcam", "lsstcomcamsim", "latiss"]

/-- `load_consdb_visits` (consdb.py 1376-1394): the class of an instrument, given by the instrument it asks the database for and
its telescope; an unknown one raises. -/
def load (instrument : String) : Option (String × String) :=
  if known.contains instrument then
    if instrument = "lsstcam" then some ("lsstcam", "rubin")
    else if instrument = "lsstcomcam" then some ("lsstcomcam", "rubin")
    else if instrument = "lsstcomcamsim" then some ("lsstcomcamsim", "rubin")
    else if instrument = "latiss" then some ("latiss", "auxtel")
    else none
  else none

end Verif.Cdt
