import Mathlib.Data.List.Basic

/-!
Model of `download_rubin_data` (`/repo/rubin_scheduler/data/scheduler_download_data.py` 100-345)
as a program whose every effect on the disk is one atomic step; it can stop after any of them.

Simplifications.  A file is a list of bytes, a directory a list of (path, content).  An archive
is known by its name; unpacking it writes its members one by one below the directory of the key
and raises at some point when its bytes are not the right ones (the checksum).  The size
(`total_size`) is a parameter of the run, 0 when the server does not tell it.  Waiting, printing,
the lines of the version file cut inside the version, creating the data directory (138-139) and the check that the site is up (166-176) are left out.
`none` stands for an exception.
-/

namespace Verif.Dl

/-- The data directory. A line of `versions.txt` is a key and a version; the version is `none` when the
line was cut before the comma. -/
structure Disk where
  dirs : String → Option (List (ℕ × ℕ))
  parts : String → Option (List ℕ)
  finals : String → Option (List ℕ)
  vers : Option (List (String × Option String))

/-- What the archives are. -/
structure Archive where
  bytes : String → List ℕ
  members : String → List (ℕ × ℕ)

/-- An attempt: refused before anything is written, or `n` bytes of the body arrive and the
connection ends, with an error or without. -/
inductive Attempt where
  | refused
  | body (n : ℕ) (cut : Bool)
deriving DecidableEq, Repr

/-- The server during the download of one archive: its size if told, whether requests for a range
are honoured, the attempts, and how many members come out of a wrong archive. -/
structure Net where
  total : ℕ
  honours : Bool
  attempts : List Attempt
  junk : ℕ

/-- The states of the disk after each step, and the result. -/
abbrev Tr (α : Type) := List Disk × Option α

/-- One program after the other. -/
def andThen {α β : Type} (t : Tr α) (f : α → Tr β) : Tr β :=
  match t with
  | (ds, none) => (ds, none)
  | (ds, some a) => (ds ++ (f a).1, (f a).2)

/-- Assignment to one key. -/
def upd {α : Type} (f : String → α) (k : String) (v : α) : String → α := fun x => if x = k then v else f x

/-- Assignment in a dictionary or directory. -/
def put {α β : Type} [DecidableEq α] (k : α) (v : β) : List (α × β) → List (α × β)
  | [] => [(k, v)]
  | (k', v') :: r => if k' = k then (k, v) :: r else (k', v') :: put k v r

/-- Value of a key. -/
def get {α β : Type} [DecidableEq α] (k : α) : List (α × β) → Option β
  | [] => none
  | (k', v') :: r => if k' = k then some v' else get k r

/-- The lines of `versions.txt` into the dictionary (data_sets.py 41-45): a line without a comma
raises. -/
def parseLines : List (String × Option String) → List (String × String) → Option (List (String × String))
  | [], acc => some acc
  | (_, none) :: _, _ => none
  | (k, some v) :: r, acc => parseLines r (put k v acc)

/-- `data_versions` (data_sets.py 23-45) and lines 142-144. -/
def versions (d : Disk) : Option (List (String × String)) :=
  match d.vers with
  | none => some []
  | some l => parseLines l []

/-- `rmtree` (187, 198): the files one by one, then the directory. -/
def rmFiles (d : Disk) (key : String) : List (ℕ × ℕ) → List Disk
  | [] => [{ d with dirs := upd d.dirs key none }]
  | _ :: r => { d with dirs := upd d.dirs key (some r) } :: rmFiles d key r

/-- The state after `rmtree`. -/
def removed (d : Disk) (key : String) : Disk := { d with dirs := upd d.dirs key none }

/-- The directory after members were written. -/
def unpacked (old : Option (List (ℕ × ℕ))) (l : List (ℕ × ℕ)) : List (ℕ × ℕ) := l.foldl (fun f p => put p.1 p.2 f) (old.getD [])

/-- The directory after the first `k` members. -/
def unpackState (A : Archive) (d : Disk) (key name : String) (k : ℕ) : Disk :=
  { d with dirs := upd d.dirs key (some (unpacked (d.dirs key) ((A.members name).take k))) }

/-- `unpack_archive` (235, 327). -/
def unpack (A : Archive) (net : Net) (d : Disk) (key name : String) : Tr Disk :=
  if d.finals name = some (A.bytes name) then
    ((List.range ((A.members name).length + 1)).map (unpackState A d key name), some (unpackState A d key name (A.members name).length))
  else ((List.range (net.junk + 1)).map (unpackState A d key name), none)

/-- `os.rename` (233, 298). -/
def rename (d : Disk) (name : String) : Disk := { d with parts := upd d.parts name none, finals := upd d.finals name (d.parts name) }

/-- Unpack, remove the archive (327-328, 235-236). -/
def install (A : Archive) (net : Net) (d : Disk) (key name : String) : Tr Disk :=
  andThen (unpack A net d key name) (fun d1 => ([{ d1 with finals := upd d1.finals name none }], some { d1 with finals := upd d1.finals name none }))

/-- The size of the partial file, 0 when there is none. -/
def have' (d : Disk) (name : String) : ℕ := ((d.parts name).getD []).length

/-- The body of the response (258-269): the rest of the archive when a range was asked for and is
honoured. -/
def body (A : Archive) (net : Net) (d : Disk) (name : String) : List ℕ :=
  if 0 < have' d name ∧ net.honours then (A.bytes name).drop (have' d name) else A.bytes name

/-- What the partial file starts with: mode "ab" or "wb" (247-255). -/
def start (d : Disk) (name : String) : List ℕ := if 0 < have' d name then (d.parts name).getD [] else []

/-- The partial file when `n` bytes have arrived (283-287). -/
def partState (A : Archive) (net : Net) (d : Disk) (name : String) (n : ℕ) : Disk :=
  { d with parts := upd d.parts name (some (start d name ++ (body A net d name).take n)) }

/-- The retry loop (242-321) with the number of attempts left. -/
def tries (A : Archive) (net : Net) (name : String) : ℕ → List Attempt → Disk → Tr Disk
  | 0, _, _ => ([], none)
  | k + 1, [], d => tries A net name k [] d
  | k + 1, .refused :: as, d => tries A net name k as d
  | k + 1, .body n cut :: as, d =>
    if cut ∨ (0 < net.total ∧ have' (partState A net d name n) name < net.total) then
      andThen ((List.range (n + 1)).map (partState A net d name), some (partState A net d name n)) (tries A net name k as)
    else
      ((List.range (n + 1)).map (partState A net d name) ++ [rename (partState A net d name n) name],
        some (rename (partState A net d name n) name))

/-- Download (201-324): a partial file that is complete is renamed. -/
def fetch (A : Archive) (net : Net) (name : String) (d : Disk) : Tr Disk :=
  if (d.parts name).isSome ∧ 0 < net.total ∧ net.total ≤ have' d name then ([rename d name], some (rename d name))
  else tries A net name 10 net.attempts d

/-- What to do with a key. -/
inductive Choice where
  | skip
  | replace
  | create
deriving DecidableEq, Repr

/-- The decision (182-199). -/
def choose (update force : Bool) (isdir : Bool) (vs : List (String × String)) (key name : String) : Choice :=
  if isdir then
    if force then .replace
    else if ¬update then .skip
    else if get key vs = some name then .skip
    else .replace
  else .create

/-- Make room, download, unpack, note the version (201-329). -/
def renew (A : Archive) (net : Net) (d : Disk) (vs : List (String × String)) (key name : String) (pre : Tr Disk) : Tr (Disk × List (String × String)) :=
  andThen (andThen (andThen pre (fetch A net name)) (fun d1 => install A net d1 key name)) (fun d2 => ([], some (d2, put key name vs)))

/-- One key (179-329). -/
def runKey (A : Archive) (update force : Bool) (net : Net) (d : Disk) (vs : List (String × String)) (key name : String) :
    Tr (Disk × List (String × String)) :=
  match choose update force (d.dirs key).isSome vs key name with
  | .skip => ([], some (d, vs))
  | .replace => renew A net d vs key name (rmFiles d key ((d.dirs key).getD []), some (removed d key))
  | .create => renew A net d vs key name ([], some d)

/-- The loop over the keys; `file_dict[key]` raises for an unknown key (180). -/
def runKeys (A : Archive) (fd : String → Option String) (update force : Bool) (net : String → Net) :
    List String → Disk → List (String × String) → Tr (Disk × List (String × String))
  | [], d, vs => ([], some (d, vs))
  | key :: keys, d, vs =>
    match fd key with
    | none => ([], none)
    | some name =>
      andThen (runKey A update force (net key) d vs key name) (fun r => runKeys A fd update force net keys r.1 r.2)

/-- Lines written so far. -/
def whole (vs : List (String × String)) : List (String × Option String) := vs.map (fun p => (p.1, some p.2))

/-- Writing `versions.txt` (331-334): the file is emptied, then written; each line can be cut. -/
def writeVersions (d : Disk) (pre : List (String × String)) : List (String × String) → List Disk
  | [] => [{ d with vers := some (whole pre) }]
  | (k, v) :: r =>
    { d with vers := some (whole pre) } :: { d with vers := some (whole pre ++ [(k, none)]) } :: writeVersions d (pre ++ [(k, v)]) r

/-- `download_rubin_data` (100-345) with `print_versions_only` off. -/
def download (A : Archive) (fd : String → Option String) (keys : List String) (update force : Bool) (net : String → Net) (d : Disk) : Tr Disk :=
  match versions d with
  | none => ([], none)
  | some vs =>
    andThen (runKeys A fd update force net keys d vs)
      (fun r => (writeVersions r.1 [] r.2, some { r.1 with vers := some (whole r.2) }))

end Verif.Dl
