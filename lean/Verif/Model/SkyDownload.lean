import Mathlib.Data.List.Basic

/-!
Model of the command that fetches the sky brightness files
(`/repo/rubin_scheduler/data/rs_download_sky.py`).

Simplifications.  The directory is a map from file names to contents (lists of bytes); making
the two directories (73-76) is left out.  The index page is the list of its opening tags, as
Python's HTML parser hands them over.  A request is answered (with whatever page, as the status
is not looked at) or raises.  A file is opened, which empties it, and then written byte by byte,
so that every prefix may be what a crash leaves behind.
-/

namespace Verif.Skd

/-- The files of the directory `skybrightness_pre`. -/
abbrev Dir := String → Option (List ℕ)

/-- An opening tag: its name and its attributes, an attribute having perhaps no value. -/
structure OpenTag where
  name : String
  attrs : List (String × Option String)
deriving DecidableEq

/-- `endswith(".h5")` (rs_download_sky.py 46). -/
def isH5 (s : String) : Bool := ".h5".toList.isSuffixOf s.toList

/-- `handle_starttag` (rs_download_sky.py 28-47). A tag `a` without attributes raises (45), and
so does a first attribute `href` without value (46). -/
def handle (files : List String) (t : OpenTag) : Option (List String) :=
  if t.name = "a" then
    match t.attrs with
    | [] => none
    | (k, v) :: _ =>
      if k = "href" then
        match v with
        | none => none
        | some f => if isH5 f then some (files ++ [f]) else some files
      else some files
  else some files

/-- `parser.feed(...)` and `parser.filenames` (rs_download_sky.py 81-85). The attribute is only
made with the first tag (40-43); a page without tags raises at 85. -/
def names : List OpenTag → Option (List String)
  | [] => none
  | ts => ts.foldlM handle []

/-- The answer of the server to a request for a file: `none` when `requests.get` raises,
otherwise whether the status says that all is well, and the bytes of the page. -/
abbrev Server := String → Option (Bool × List ℕ)

/-- The directory with one more file. -/
def put (d : Dir) (f : String) (c : List ℕ) : Dir := fun x => if x = f then some c else d x

/-- The states of the directory while `c` is written to `f` (rs_download_sky.py 90-91). -/
def writing (d : Dir) (f : String) (c : List ℕ) : List Dir :=
  (List.range (c.length + 1)).map (fun k => put d f (c.take k))

/-- The loop over the files (rs_download_sky.py 85-91): the states of the directory on the way,
and the last one if nothing raised. -/
def fetch (srv : Server) (force : Bool) : List String → Dir → List Dir × Option Dir
  | [], d => ([d], some d)
  | f :: fs, d =>
    if (d f).isSome && !force then fetch srv force fs d
    else
      match srv f with
      | none => ([d], none)
      | some (_, c) =>
        (d :: writing d f c ++ (fetch srv force fs (put d f c)).1, (fetch srv force fs (put d f c)).2)

/-- `rs_download_sky` (rs_download_sky.py 50-91); `page` is the index if the server sent it. -/
def run (page : Option (List OpenTag)) (srv : Server) (force : Bool) (d : Dir) : List Dir × Option Dir :=
  match page.bind names with
  | none => ([d], none)
  | some fs => fetch srv force fs d

end Verif.Skd
