import Mathlib.Data.Nat.Digits.Defs
import Mathlib.Data.Rat.Floor
import Verif.Model.Consdb

/-!
Model of `mjd2dayobs` (`/repo/rubin_scheduler/utils/dayobs.py` 5-28). A string of decimal digits
is the list of its digits. The date of a day is counted from 17 November 1858, day 0 of the
Modified Julian Date (astropy's `ymdhms`), so that only days from then on are modelled.
-/

namespace Verif.Dobs

open Cdb

/-- The next day of the calendar. -/
def next (t : Date) : Date :=
  if t.d < monthDays t.y t.m then ⟨t.y, t.m, t.d + 1⟩ else if t.m < 12 then ⟨t.y, t.m + 1, 1⟩ else ⟨t.y + 1, 1, 1⟩

/-- `atime.to_value("ymdhms")` (21-22), year, month and day. -/
def dateOf : ℕ → Date
  | 0 => ⟨1858, 11, 17⟩
  | n + 1 => next (dateOf n)

/-- `astype(str)` of a whole number. -/
def decimal (n : ℕ) : List ℕ := if n = 0 then [0] else (Nat.digits 10 n).reverse

/-- `np.char.zfill` (23-25). -/
def zfill (w n : ℕ) : List ℕ := List.replicate (w - (decimal n).length) 0 ++ decimal n

/-- The string of a date (23-27). -/
def write (t : Date) : List ℕ := zfill 4 t.y ++ zfill 2 t.m ++ zfill 2 t.d

/-- `mjd2dayobs` (5-28), for `mjd + offset` not negative. -/
def dayobs (mjd offset : ℚ) : List ℕ := write (dateOf ⌊mjd + offset⌋.toNat)

end Verif.Dobs
