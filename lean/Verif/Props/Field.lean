import Verif.Model.Field
import Mathlib.Data.Finset.Card
import Mathlib.Tactic.Linarith
import Mathlib.Tactic.Ring
import Mathlib.Tactic.NormNum

/-! C100: sequences of field and deep drilling surveys. -/

namespace Verif

open Fld

/-- What the user asked for: every band of the sequence in turn, as many times as given. -/
def wanted (sequence : List String) (n : String → ℕ) : List String :=
  sequence.flatMap (fun b => List.replicate (n b) b)

/-- Days from a number of seconds. -/
def daysOf (s : ℚ) : ℚ := s / 86400

/-- Seconds for a sequence: exposures and readouts, and a change per band used. -/
def sequenceSeconds (read change : ℚ) (l : List Item) : ℚ :=
  (l.map (·.exptime)).sum + read * (l.map (fun v => (v.nexp : ℚ))).sum + change * (l.map (·.band)).toFinset.card

theorem approxSeconds_eq (read change : ℚ) (l : List Item) : approxSeconds read change l = sequenceSeconds read change l := by
  unfold approxSeconds sequenceSeconds nBands
  rw [List.card_toFinset]
  congr 1
  induction l with
  | nil => simp
  | cons a l ih => simp only [List.map_cons, List.sum_cons]; rw [ih]; ring

theorem bandItems_spec {ra dec : ℚ} {note : String} {nv : String → Option ℕ} {ex : String → Option ℚ} {ne : String → Option ℕ}
    {b : String} {l : List Item} (h : bandItems ra dec note nv ex ne b = some l) :
    l.map (·.band) = List.replicate ((nv b).getD 0) b ∧
      ∀ v ∈ l, v.ra = ra ∧ v.dec = dec ∧ v.note = note ∧ some v.exptime = ex v.band ∧ some v.nexp = ne v.band := by
  unfold bandItems at h
  rcases hn : nv b with _ | _ | n <;> rw [hn] at h
  · cases h
  · cases h; simp
  · rcases he : ex b with _ | e <;> rcases hx : ne b with _ | x <;> rw [he, hx] at h
    · cases h
    · cases h
    · cases h
    · cases h
      refine ⟨by simp [item], ?_⟩
      intro v hv
      rw [List.mem_replicate] at hv
      rw [hv.2]
      exact ⟨rfl, rfl, rfl, he.symm, hx.symm⟩

theorem mapM_items {ra dec : ℚ} {note : String} {nv : String → Option ℕ} {ex : String → Option ℚ} {ne : String → Option ℕ}
    (sequence : List String) : ∀ L, sequence.mapM (bandItems ra dec note nv ex ne) = some L →
    L.flatten.map (·.band) = wanted sequence (fun b => (nv b).getD 0) ∧
      ∀ v ∈ L.flatten, v.ra = ra ∧ v.dec = dec ∧ v.note = note ∧ some v.exptime = ex v.band ∧ some v.nexp = ne v.band := by
  induction sequence with
  | nil => intro L h; cases h; simp [wanted]
  | cons b bs ih =>
    intro L h
    rw [List.mapM_cons] at h
    rcases hb : bandItems ra dec note nv ex ne b with _ | x <;> rw [hb] at h
    · cases h
    · rcases hr : bs.mapM (bandItems ra dec note nv ex ne) with _ | r <;> rw [hr] at h
      · cases h
      · cases h
        obtain ⟨h1, h2⟩ := bandItems_spec hb
        obtain ⟨h3, h4⟩ := ih r hr
        refine ⟨?_, ?_⟩
        · simp only [List.flatten_cons, List.map_append, wanted, List.flatMap_cons]
          rw [h1, h3]; rfl
        · intro v hv
          rw [List.flatten_cons, List.mem_append] at hv
          exact hv.elim (h2 v) (h4 v)

/-- C100: the sequence of a field survey has the bands in the order asked for, each as often
as asked for, at the field, with the exposure asked for. -/
theorem C100_field_sequence (ra dec : ℚ) (note : String) (nv : String → Option ℕ) (ex : String → Option ℚ)
    (ne : String → Option ℕ) (sequence : List String) (l : List Item) (h : fieldItems ra dec note nv ex ne sequence = some l) :
    l.map (·.band) = wanted sequence (fun b => (nv b).getD 0) ∧
      ∀ v ∈ l, v.ra = ra ∧ v.dec = dec ∧ v.note = note ∧ some v.exptime = ex v.band ∧ some v.nexp = ne v.band := by
  unfold fieldItems at h
  rcases hm : sequence.mapM (bandItems ra dec note nv ex ne) with _ | L <;> rw [hm] at h
  · cases h
  · rw [Option.map_some] at h
    rcases hf : L.flatten with _ | ⟨x, xs⟩ <;> rw [hf] at h
    · cases h
    · cases h
      have := mapM_items sequence L hm
      rw [hf] at this
      exact this

theorem available_spec (mounted : List String) (flush : ℚ) (l : List Item) :
    (∀ v ∈ available mounted flush l, v.band ∈ mounted ∧ v.flush = flush) ∧
    (available mounted flush l).map (fun v => { v with flush := 0 }) =
      (l.filter (fun v => decide (v.band ∈ mounted))).map (fun v => { v with flush := 0 }) := by
  unfold available
  constructor
  · intro v hv
    rw [List.mem_filter, List.mem_map] at hv
    obtain ⟨⟨w, _, rfl⟩, hm⟩ := hv
    exact ⟨by simpa using hm, rfl⟩
  · rw [List.filter_map, List.map_map]
    rfl

/-- C100: a field survey hands out exactly its visits in mounted bands, in order, or nothing
when it is not feasible. -/
theorem C100_field_mounted (feasible : Bool) (mjd : ℚ) (mounted : List String) (read change pad : ℚ) (l : List Item) :
    (fieldRough feasible mjd mounted read change pad l).map (fun v => { v with flush := 0 }) =
      (if feasible then l.filter (fun v => decide (v.band ∈ mounted)) else []).map (fun v => { v with flush := 0 }) := by
  unfold fieldRough
  by_cases h : feasible = true
  · rw [if_pos h, if_pos h]; exact (available_spec _ _ _).2
  · rw [if_neg h, if_neg h]

/-- C100: a deep drilling survey hands out its visits in mounted bands, those in the current
band first, otherwise in order, or nothing when it is not feasible. -/
theorem C100_ddf_mounted (feasible : Bool) (mjd : ℚ) (mounted : List String) (current : String) (read change pad : ℚ)
    (l : List Item) :
    (ddfRough feasible mjd mounted current read change pad l).map (fun v => { v with flush := 0 }) =
      (if feasible then l.filter (fun v => decide (v.band ∈ mounted ∧ v.band = current)) ++
        l.filter (fun v => decide (v.band ∈ mounted ∧ v.band ≠ current)) else []).map (fun v => { v with flush := 0 }) := by
  unfold ddfRough
  by_cases h : feasible = true
  · rw [if_pos h, if_pos h]
    unfold currentFirst available
    rw [List.map_append, List.map_append]
    congr 1 <;>
    · simp only [List.filter_map, List.map_map, List.filter_filter]
      congr 1
      apply List.filter_congr
      intro x _
      simp [and_comm]
  · rw [if_neg h, if_neg h]

/-- C100: the visits of a deep drilling survey expire when the sequence should be done and the
padding is over. -/
theorem C100_ddf_flush (feasible : Bool) (mjd : ℚ) (mounted : List String) (current : String) (read change pad : ℚ)
    (l : List Item) : ∀ v ∈ ddfRough feasible mjd mounted current read change pad l,
    v.flush = mjd + daysOf (sequenceSeconds read change l + 60 * pad) := by
  intro v hv
  unfold ddfRough at hv
  by_cases h : feasible = true
  · rw [if_pos h] at hv
    unfold currentFirst at hv
    have hv' : v ∈ available mounted (mjd + approxDdf read change l + padDays pad) l := by
      rcases List.mem_append.1 hv with hv | hv <;> exact (List.mem_filter.1 hv).1
    rw [((available_spec _ _ _).1 v hv').2]
    have e : approxDdf read change l = daysOf (approxSeconds read change l) := by
      unfold approxDdf daysOf approxSeconds; ring
    rw [e, approxSeconds_eq]
    unfold daysOf padDays; ring
  · rw [if_neg h] at hv; simp at hv

/-- The same is wanted of field surveys. -/
def FieldFlush (mjd read change pad : ℚ) (mounted : List String) (l : List Item) : Prop :=
  ∀ v ∈ fieldRough true mjd mounted read change pad l, v.flush = mjd + daysOf (sequenceSeconds read change l + 60 * pad)

/-- What a field survey does: the estimate enters 576 times too large. -/
theorem C100_field_flush_partial (feasible : Bool) (mjd : ℚ) (mounted : List String) (read change pad : ℚ) (l : List Item) :
    ∀ v ∈ fieldRough feasible mjd mounted read change pad l,
      v.flush = mjd + daysOf (576 * sequenceSeconds read change l + 60 * pad) := by
  intro v hv
  unfold fieldRough at hv
  by_cases h : feasible = true
  · rw [if_pos h] at hv
    rw [((available_spec _ _ _).1 v hv).2]
    unfold approxField daysOf padDays
    rw [approxSeconds_eq]; ring
  · rw [if_neg h] at hv; simp at hv

/-- The default sequence in one band. -/
def twentyR : List Item := List.replicate 20 (item 1 0 "f" "r" 30 1)

/-- C100 fails for field surveys: twenty visits of half a minute are kept in the queue for
more than five days instead of less than an hour. -/
theorem C100_field_flush_violated : ¬ FieldFlush 60000 (12/5) 120 30 ["r"] twentyR ∧
    (∀ v ∈ fieldRough true 60000 ["r"] (12/5) 120 30 twentyR, 60005 < v.flush) ∧
    60000 + daysOf (sequenceSeconds (12/5) 120 twentyR + 60 * 30) < 60000 + 1 / 24 := by
  have hs : sequenceSeconds (12/5) 120 twentyR = 768 := by decide +kernel
  have hv : ∀ v ∈ fieldRough true 60000 ["r"] (12/5) 120 30 twentyR, 60005 < v.flush := by
    intro v hv
    rw [C100_field_flush_partial _ _ _ _ _ _ _ v hv, hs]
    unfold daysOf; norm_num
  refine ⟨?_, hv, ?_⟩
  · intro h
    have hne : ∃ v, v ∈ fieldRough true 60000 ["r"] (12/5) 120 30 twentyR := by
      have : fieldRough true 60000 ["r"] (12/5) 120 30 twentyR ≠ [] := by decide +kernel
      exact List.exists_mem_of_ne_nil _ this
    obtain ⟨v, hmem⟩ := hne
    have h1 := hv v hmem
    rw [h v hmem, hs] at h1
    unfold daysOf at h1; norm_num at h1
  · rw [hs]; unfold daysOf; norm_num

theorem ddfSorted_perm (l : List Item) : (ddfSorted l).Perm l := List.perm_insertionSort _ _

/-- C100 for deep drilling surveys, part: the visits are those asked for, in some order. -/
theorem C100_ddf_sequence_partial (ra dec : ℚ) (note : String) (e u : ℚ) (nexp : ℕ) (nvis : List ℕ) (sequence : List String) :
    ((ddfSorted (ddfItems ra dec note e u nexp nvis sequence)).map (·.band)).Perm
        ((nvis.zip sequence).flatMap (fun p => List.replicate p.1 p.2)) ∧
      ∀ v ∈ ddfSorted (ddfItems ra dec note e u nexp nvis sequence),
        v.ra = ra ∧ v.dec = dec ∧ v.note = note ∧ v.nexp = nexp ∧ v.exptime = (if v.band = "u" then u else e) := by
  constructor
  · refine ((ddfSorted_perm _).map _).trans ?_
    unfold ddfItems
    rw [List.map_flatMap]
    apply List.Perm.of_eq
    congr 1
    funext p
    simp [ddfItem, item]
  · intro v hv
    rw [(ddfSorted_perm _).mem_iff] at hv
    unfold ddfItems at hv
    rw [List.mem_flatMap] at hv
    obtain ⟨p, _, hp⟩ := hv
    rw [List.mem_replicate] at hp
    rw [hp.2]
    exact ⟨rfl, rfl, rfl, rfl, rfl⟩

/-- C100 fails for deep drilling surveys: the order of the sequence is lost. -/
theorem C100_ddf_order_violated :
    (ddfSorted (ddfItems 1 0 "DD" 30 30 2 [1, 2, 1] ["r", "g", "i"])).map (·.band) = ["g", "g", "i", "r"] := by
  decide +kernel

/-- Numbers of visits beyond the sequence, or bands beyond the numbers, are dropped. -/
theorem C100_ddf_length_violated : ddfItems 1 0 "DD" 30 30 2 [1] ["r", "g"] = [ddfItem 1 0 "DD" 30 30 2 "r"] := by
  decide +kernel

example : (fieldItems 1 0 "f" (fun b => if b = "g" then some 2 else some 1) (fun _ => some 30) (fun _ => some 1) ["r", "g"]).map
    (List.map (·.band)) = some ["r", "g", "g"] := by decide +kernel
example : (ddfRough true 60000 ["g", "r"] "r" 2 120 30
    (ddfSorted (ddfItems 1 0 "DD" 30 30 2 [1, 2, 1] ["r", "g", "i"]))).map (·.band) = ["r", "g", "g"] := by decide +kernel

end Verif
