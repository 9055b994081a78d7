import Verif.Model.DownloadCmd
import Verif.Props.Download

/-!
Property C231: the command that downloads data.
-/

namespace Verif

open Dl

/-- C231: asked for versions only, the call does not touch the disk, and returns 0 exactly if all files expected are recorded as the ones on disk. -/
theorem C231_versions (A : Archive) (fd : List (String × String)) (hfd : ∀ p ∈ fd, p.2 ≠ "") (o : Opts) (ho : o.versions = true) (net : String → Net) (d : Disk) :
    (rubinData A fd o net d).1 = [] ∧ ∀ d' c, (rubinData A fd o net d).2 = some (d', c) →
      d' = d ∧ (c = some 0 ∨ c = some 1) ∧ (c = some 0 ↔ ∀ p ∈ fd, Marked d p.1 p.2) := by
  unfold rubinData
  rw [if_pos ho]
  refine ⟨rfl, fun d' c h => ?_⟩
  unfold checkVersions at h
  cases hv : versions d with
  | none => rw [hv] at h; cases h
  | some vs =>
    rw [hv] at h
    have key : (fd.all fun p => decide ((Dl.get p.1 vs).getD "" = p.2)) = true ↔ ∀ p ∈ fd, Marked d p.1 p.2 := by
      rw [List.all_eq_true]
      refine forall₂_congr fun p hp => ?_
      rw [decide_eq_true_iff]
      constructor
      · intro e
        refine ⟨vs, hv, ?_⟩
        cases hg : Dl.get p.1 vs with
        | none => rw [hg] at e; exact absurd e.symm (hfd p hp)
        | some v => rw [hg] at e; exact congrArg some e
      · rintro ⟨vs', hv', hg⟩
        rw [hv] at hv'
        cases hv'
        rw [hg]
        rfl
    cases h
    refine ⟨rfl, ?_, ?_⟩
    · dsimp only
      split_ifs
      · exact .inl rfl
      · exact .inr rfl
    · rw [← key]
      dsimp only
      constructor
      · intro h
        by_contra hn
        rw [if_neg hn] at h
        cases h
      · intro h
        rw [if_pos h]

/-- C231: without a dictionary of its own, the command goes through the same disks as the download of the published files, and reports a failure exactly if that raises. -/
theorem C231_command_partial (A : Archive) (o : Opts) (net : String → Net) (d : Disk) :
    (command A none o net d).1 = (rubinData A dataDict o net d).1 ∧ (command A none o net d).2.map Prod.fst = (rubinData A dataDict o net d).2.map Prod.fst ∧
    (status (command A none o net d) = 0 ↔ (rubinData A dataDict o net d).2 ≠ none) := by
  unfold command status
  dsimp only
  refine ⟨rfl, ?_, ?_⟩
  · cases (rubinData A dataDict o net d).2 <;> rfl
  · cases (rubinData A dataDict o net d).2 <;> simp

/-- The end of a run: the directory `sched` and the status. -/
def cmdSeen (c : Call) : Option (Option (List (ℕ × ℕ))) × ℕ := (c.2.map fun r => r.1.dirs "sched", status c)

/-- C231 fails for a dictionary that is given: it is not looked at. Here the directory asked for is in the dictionary, and the download raises (KeyError). -/
theorem C231_given_violated :
    let fd := [("sched", "new.tgz")]
    cmdSeen (rubinData twoA fd { dirs := some ["sched"] } (goodNet 3) (diskOf none none)) = (some (some [(0, 10), (1, 11)]), 0) ∧
    cmdSeen (command twoA (some fd) { dirs := some ["sched"] } (goodNet 3) (diskOf none none)) = (none, 1) := by
  decide +kernel

/-- C231 fails for `--versions`: nothing is on disk, the check returns 1 and the status of the command is 0. -/
theorem C231_status_violated :
    status (rubinData twoA dataDict { versions := true } (goodNet 3) (diskOf none none)) = 1 ∧
    status (command twoA none { versions := true } (goodNet 3) (diskOf none none)) = 0 := by
  decide +kernel

/-- Non-vacuity: all that is expected is recorded, and the check returns 0. -/
example : status (rubinData twoA [("sched", "new.tgz")] { versions := true } (goodNet 3) (diskOf (some []) (some [("sched", some "new.tgz")]))) = 0 ∧
    (∀ p ∈ dataDict, p.2 ≠ "") := by
  decide +kernel

end Verif
