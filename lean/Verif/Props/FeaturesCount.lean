import Verif.Props.Features

/-!
Property C70: counting features count the visits their documentation names.
-/

namespace Verif

open Feat

theorem maxNight_last {h : List Vis} {l : Vis} (hl : h.getLast? = some l) (hc : Chrono h) :
    (h.map Vis.night).max? = some l.night := by
  obtain ⟨g, rfl⟩ := List.getLast?_eq_some_iff.1 hl
  exact maxNight_snoc (fun u hu => ((chrono_snoc hc).2 u hu).2)

/-- C70, visits with one of the notes (any visit, if none is given) in the night of the last
visit. -/
theorem C70_note_in_night (notes : Option (List String)) (h : List Vis) (l : Vis) (hl : h.getLast? = some l)
    (hc : Chrono h) :
    (h.foldl (NoteInNight.one notes) NoteInNight.init).count =
      h.countP (fun v => v.night == l.night && decide (∀ ns ∈ notes, v.note ∈ ns)) := by
  have := C33_note_in_night notes [] h hc
  rw [List.foldl_nil, List.nil_append] at this
  rw [← this]
  unfold NoteInNight.bulk
  rw [hl]
  have h0 : (if NoteInNight.init.night ≠ l.night then (⟨l.night, 0⟩ : NoteInNight) else NoteInNight.init).count = 0 := by
    split <;> rfl
  simp only [h0, Nat.zero_add]
  rw [List.countP_filter]
  apply List.countP_congr
  intro v _
  unfold NoteInNight.wanted
  cases notes <;> simp [and_comm]

/-- C70, visits in a band with a note that contains the wanted one, in the whole history or in
the night of the last visit. -/
theorem C70_count (c : NObsCount.Cfg) (h : List Vis) (l : Vis) (hl : h.getLast? = some l) (hc : Chrono h)
    (hb : Letters c.band h) :
    (h.foldl (NObsCount.one c) NObsCount.init).count =
      h.countP (fun v => decide (c.perNight = true → v.night = l.night) && decide (InBand c.band v) &&
        decide (∀ n ∈ c.note, isIn n v.note)) := by
  have := C33_count_partial c [] h hc hb (by simp)
  rw [List.foldl_nil, List.nil_append] at this
  rw [← this]
  unfold NObsCount.bulk
  have hm : NObsCount.maxNight h = some l.night := maxNight_last hl hc
  rw [hm]
  have hw : ∀ v, (NObsCount.bandBulk c v && NObsCount.noteOk c v) =
      (decide (InBand c.band v) && decide (∀ n ∈ c.note, isIn n v.note)) := by
    intro v
    unfold NObsCount.bandBulk NObsCount.noteOk InBand
    rw [Bool.eq_iff_iff]
    cases c.band <;> cases c.note <;> simp
  cases hp : c.perNight with
  | false =>
    simp only [Bool.false_eq_true, if_false, false_imp_iff, decide_true, Bool.true_and, hw]
    simp [NObsCount.init]
  | true =>
    simp only [if_true, forall_const, hw]
    rw [List.countP_filter]
    simp only [NObsCount.init, Nat.zero_add]
    apply List.countP_congr
    intro v _
    simp only [Bool.and_eq_true, decide_eq_true_eq, beq_iff_eq]
    tauto

/-- C70, visits of a pixel in a band in the night of the last visit. -/
theorem C70_night (b : Option String) (h : List Vis) (l : Vis) (hl : h.getLast? = some l) (hc : Chrono h)
    (hb : Letters b h) (hf : Footprints h) (p : ℕ) :
    (h.foldl (NObsNight.one b) NObsNight.init).count p =
      h.countP (fun v => v.night == l.night && decide (InBand b v) && decide (p ∈ v.pix)) := by
  have := C33_night_partial b [] h hc hb hf
  rw [List.foldl_nil, List.nil_append] at this
  rw [← this]
  unfold NObsNight.bulk
  rw [maxNight_last hl hc]
  simp only [turn_new (show NObsNight.init.night ≠ some l.night by simp [NObsNight.init]), Nat.zero_add]
  rw [binCount_rows (fun _ v => NObsNight.bandBulk b v && v.night == l.night) p h hf]
  apply List.countP_congr
  intro v _
  unfold NObsNight.bandBulk InBand
  cases b <;> simp [and_comm]

/-- C70, visits of a pixel in a band with seeing better than the limit. Documented: with a note that contains
the wanted one. Missing: notes that contain the wanted one and are not equal to it, or are
contained in it (`C70_note_violated`); seeing at the limit. -/
theorem C70_per_pixel_partial (c : NObservations.Cfg) (h : List Vis) (hl : Letters c.band h) (hs : SeeingClear c h)
    (hn : ∀ n ∈ c.note, ∀ v ∈ h, isIn v.note n = isIn n v.note) (p : ℕ) :
    h.foldl (NObservations.one c) (fun _ => 0) p =
      h.countP (fun v => decide (InBand c.band v) && decide (∀ n ∈ c.note, isIn n v.note) && decide (p ∈ v.pix) &&
        (match c.limit with | some (.scalar x) => decide (v.seeing.getD c.fill < x) | _ => true)) := by
  classical
  rw [nObservations_foldl c p h _ hl hs, Nat.zero_add]
  apply List.countP_congr
  intro v hv
  have h1 : (∀ n ∈ c.note, isIn v.note n = true) ↔ (∀ n ∈ c.note, isIn n v.note = true) :=
    forall₂_congr (fun n hn' => by rw [hn n hn' v hv])
  unfold Counts
  rw [h1]
  cases hlim : c.limit with
  | none => simp; tauto
  | some x =>
    cases x with
    | map f =>
      unfold SeeingClear at hs
      rw [hlim] at hs
      exact hs.elim
    | scalar x => simp; tauto

/-- C70 fails for the code: the feature that counts visits of pixels looks for the visit's note in the
wanted note, not the other way round: a longer note is not counted, an empty one is. -/
theorem C70_note_violated :
    let c : NObservations.Cfg := ⟨none, some "blob", none, 100⟩
    NObservations.one c (fun _ => 0) (vis 1 10 1 "r" "blob, gg" [7]) 7 = 0 ∧
    NObservations.bulk c (fun _ => 0) [vis 1 10 1 "r" "blob, gg" [7]] 7 = 0 ∧
    NObservations.one c (fun _ => 0) (vis 1 10 1 "r" "" [7]) 7 = 1 ∧
    NObservations.bulk c (fun _ => 0) [vis 1 10 1 "r" "" [7]] 7 = 1 := by
  decide +kernel

example : (∀ n ∈ some "a", ∀ v ∈ night12, isIn v.note n = isIn n v.note) ∧ night12.getLast?.map Vis.ID = some 4 ∧
    night12.foldl (NObservations.one ⟨some "r", some "a", some (.scalar 2), 100⟩) (fun _ => 0) 7 = 2 ∧
    (night12.foldl (NObsCount.one ⟨some "a", some "r", true⟩) NObsCount.init).count = 1 ∧
    (night12.foldl (NoteInNight.one (some ["b", "c"])) NoteInNight.init).count = 1 := by
  decide +kernel

end Verif
