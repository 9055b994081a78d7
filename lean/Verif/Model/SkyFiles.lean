import Mathlib.Data.List.Sort
import Mathlib.Data.List.Lex
import Verif.Model.Skybright
import Verif.Model.DayObs

/-!
Model of how the files of sky brightness are found and told apart
(`/repo/rubin_scheduler/skybrightness_pre/sky_model_pre.py` 473-495, `SkyModelPreWithLocalFilesOnly`; the class for remote files,
498-540, sorts and reads names in the same way).

A name is the list of the codes of its characters.  The directory is the same for all files, so it does not change their order, and
is left out.  Numbers in names are plain decimals (`float` accepts more: signs, exponents, spaces).
-/

namespace Verif.Skf

/-- `replace(".h5", "")` (485). -/
def dropExt : List ℕ → List ℕ
  | 46 :: 104 :: 53 :: l => dropExt l
  | c :: l => c :: dropExt l
  | [] => []

/-- Putting a character in front of the first piece. -/
def push (c : ℕ) : List (List ℕ) → List (List ℕ)
  | [] => [[c]]
  | f :: fs => (c :: f) :: fs

/-- `split("_")` (485). -/
def fields : List ℕ → List (List ℕ)
  | [] => [[]]
  | c :: l => if c = 95 then [] :: fields l else push c (fields l)

/-- Whether a character is a digit. -/
def isDigit (c : ℕ) : Bool := decide (48 ≤ c) && decide (c ≤ 57)

/-- The number some digits stand for. -/
def value (l : List ℕ) : ℕ := l.foldl (fun (a c : ℕ) => 10 * a + (c - 48)) 0

/-- `float` (486-487); `none` stands for `ValueError`. -/
def number (l : List ℕ) : Option ℚ :=
  let w := l.takeWhile (fun c => decide (c ≠ 46))
  let f := (l.dropWhile (fun c => decide (c ≠ 46))).tail
  if (w ++ f).all isDigit && !(w ++ f).isEmpty then some ((value w : ℚ) + (value f : ℚ) / 10 ^ f.length) else none

/-- The first two pieces as numbers (486-487): a missing piece raises `IndexError`. -/
def range : List (List ℕ) → Option (ℚ × ℚ)
  | a :: b :: _ =>
    match number a, number b with
    | some x, some y => some (x, y)
    | _, _ => none
  | _ => none

/-- The range of times in a name (485-487). -/
def parse (name : List ℕ) : Option (ℚ × ℚ) := range (fields (dropExt name))

/-- `self.files.sort()` (476). -/
def names (found : List (List ℕ)) : List (List ℕ) := found.insertionSort (· ≤ ·)

/-- A file with the range of its name; `content` is what the files hold. -/
def entry (content : List ℕ → Skb.File) (name : List ℕ) : Option Skb.File :=
  (parse name).map (fun p => { content name with left := p.1, right := p.2 })

/-- `_init_files` and `_init_file_mjd_ranges` (474-490): the files in order, or the exception raised for a name without a range. -/
def setup (content : List ℕ → Skb.File) (found : List (List ℕ)) : Option (List Skb.File) :=
  (names found).mapM (entry content)

end Verif.Skf
