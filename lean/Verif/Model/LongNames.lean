import Verif.Model.Generators

/-!
Model of the rest of `gen_long_gaps_survey` (`/repo/rubin_scheduler/scheduler/example/lsst_surveys.py` 832-876): the three surveys of pairs
and the list of notes by which each of them knows the visits of all three.
-/

namespace Verif.Gen

/-- The pairs of bands, `zip(f1, f2)` (833-834). -/
def longBands : List (String × String) := ["g", "r", "i"].zip ["r", "i", "z"]

/-- `blob_names` (836-839). -/
def longNames : List String :=
  longBands.flatMap fun p => ["a", "b"].map fun ab => "blob_long, " ++ p.1 ++ p.2 ++ ", " ++ ab

/-- The surveys of pairs (840-865); each is given the list of all names. -/
def longGapBlobs (c : LongCfg) : List Survey :=
  longBands.flatMap fun p => blobForLong { c with names := longNames } none [p.1] [some p.2]

/-- `ignore_obs` of these surveys: the default of `blob_for_long` (520), as none is handed on (841-865). -/
def longIgnored : List String := ["DD", "twilight_near_sun", "ToO"]

end Verif.Gen
