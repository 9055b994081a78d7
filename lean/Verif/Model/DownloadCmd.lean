import Verif.Model.Download

/-!
The command that downloads data (`/repo/rubin_scheduler/data/scheduler_download_data.py` 19-97, 131-164, and the entry point in `/repo/pyproject.toml` 54).

Simplifications. The options are taken as they come out of argparse; the base of the URL and the progress bar are left out, and so is printing.
The names in a list of directories are already separated.
-/

namespace Verif.Dl

/-- `data_dict` (scheduler_download_data.py 19-36). -/
def dataDict : List (String × String) :=
  [("scheduler", "scheduler_2025_10_27.tgz"), ("site_models", "site_models_2023_10_02.tgz"), ("skybrightness_pre", "skybrightness_pre_2025_12_01.tgz"),
    ("utils", "utils_2023_11_02.tgz")]

/-- The options of the command (scheduler_download_data.py 44-86). -/
structure Opts where
  versions : Bool := false
  update : Bool := false
  dirs : Option (List String) := none
  force : Bool := false

/-- `--versions` (scheduler_download_data.py 147-164): 0 when every file expected is the one on disk, else 1; none when the record cannot be read. -/
def checkVersions (fd : List (String × String)) (d : Disk) : Option ℕ :=
  (versions d).map fun vs => if fd.all fun p => decide ((get p.1 vs).getD "" = p.2) then 0 else 1

/-- What becomes of a call: the disks it goes through, the last one and what is returned (`none` inside for Python's None); none for an exception. -/
abbrev Call := List Disk × Option (Disk × Option ℕ)

/-- `download_rubin_data` (scheduler_download_data.py 100-345). -/
def rubinData (A : Archive) (fd : List (String × String)) (o : Opts) (net : String → Net) (d : Disk) : Call :=
  if o.versions then ([], (checkVersions fd d).map fun c => (d, some c))
  else
    let t := download A (fun k => get k fd) (o.dirs.getD (fd.map Prod.fst)) o.update o.force net d
    (t.1, t.2.map fun d' => (d', none))

/-- `scheduler_download_data` (scheduler_download_data.py 39-97). A dictionary that is given is put into a variable and not used; what the call returns is dropped. -/
def command (A : Archive) (given : Option (List (String × String))) (o : Opts) (net : String → Net) (d : Disk) : Call :=
  let _file_dict := given.getD dataDict
  let t := rubinData A dataDict o net d
  (t.1, t.2.map fun r => (r.1, none))

/-- The status of the process: `sys.exit` of what is returned, 1 after an exception (pyproject.toml 54). -/
def status (c : Call) : ℕ :=
  match c.2 with
  | none => 1
  | some (_, none) => 0
  | some (_, some n) => n

end Verif.Dl
