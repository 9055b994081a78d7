import Verif.Model.Basis
import Verif.Lemmas.Clear
import Verif.Props.FeaturesLast
import Verif.Props.Masks

/-!
C103: basis functions never give a value computed from earlier visits or conditions.
C104: visits in quick succession are avoided.
-/

namespace Verif

open Feat Bf

/-! ### C103 -/

/-- The visits among what happened. -/
def askedSeen {κ : Type} : List (Op κ) → List Vis
  | [] => []
  | .see v :: ops => v :: askedSeen ops
  | .ask _ :: ops => askedSeen ops

/-- Working out the value does not change what it would be. -/
def Idle {σ κ ν : Type} (f : Fn σ κ ν) : Prop := ∀ s c, f.compute (f.touch s c) c = f.compute s c

theorem opStep_recalc {σ κ ν : Type} (f : Fn σ κ ν) (hm : f.marks = false) (s : St σ ν) (h : s.recalc = true) (h2 : s.mjdLast = none) (o : Op κ) :
    (opStep f s o).recalc = true ∧ (opStep f s o).mjdLast = none := by
  cases o with
  | see v => simp [opStep, add, h, h2]
  | ask c =>
    simp only [opStep, call]
    by_cases hf : f.feasible s.feat c = true
    · rw [if_pos hf]
      simp only [callMjd, callRecalc, h, if_true]
      split <;> simp [calcStep, hm, h, h2]
    · rw [if_neg hf]
      exact ⟨h, h2⟩

theorem ops_recalc {σ κ ν : Type} (f : Fn σ κ ν) (hm : f.marks = false) (ops : List (Op κ)) : ∀ s : St σ ν, s.recalc = true → s.mjdLast = none →
    (ops.foldl (opStep f) s).recalc = true ∧ (ops.foldl (opStep f) s).mjdLast = none := by
  induction ops with
  | nil => intro s h h2; exact ⟨h, h2⟩
  | cons o ops ih =>
    intro s h h2
    have := opStep_recalc f hm s h h2 o
    exact ih _ this.1 this.2

/-- C103: whatever was seen and asked before, the answer is the value for the features as they are now and the present
conditions, or `-inf` (`none`) exactly when these are not feasible. For every class but the base class, whose value is
always 0: `C103_base`. -/
theorem C103_fresh {σ κ ν : Type} (f : Fn σ κ ν) (hm : f.marks = false) (ht : Idle f) (s : σ) (v0 : ν) (ops : List (Op κ)) (c : κ) :
    (call f c (ops.foldl (opStep f) (St.start s v0))).1 =
      if f.feasible (ops.foldl (opStep f) (St.start s v0)).feat c then some (f.compute (ops.foldl (opStep f) (St.start s v0)).feat c) else none := by
  have h := ops_recalc f hm ops (St.start s v0) rfl rfl
  generalize ops.foldl (opStep f) (St.start s v0) = S at h ⊢
  unfold call
  by_cases hf : f.feasible S.feat c = true
  · rw [if_pos hf, if_pos hf]
    simp only [callMjd, callRecalc, h.1, if_true]
    split
    · simp only [calcStep]
      rw [ht]
    · rfl
  · rw [if_neg hf, if_neg hf]

/-- C103: without features that follow the conditions, the answer depends only on the visits seen and the present
conditions; asking changes nothing. -/
theorem C103_asking {σ κ ν : Type} (f : Fn σ κ ν) (hm : f.marks = false) (ht : ∀ s c, f.touch s c = s) (s : σ) (v0 : ν) (ops : List (Op κ)) (c : κ) :
    (call f c (ops.foldl (opStep f) (St.start s v0))).1 =
      if f.feasible ((askedSeen ops).foldl f.learn s) c then some (f.compute ((askedSeen ops).foldl f.learn s) c) else none := by
  have hfeat : ∀ (ops : List (Op κ)) (S : St σ ν), (ops.foldl (opStep f) S).feat = (askedSeen ops).foldl f.learn S.feat := by
    intro ops
    induction ops with
    | nil => intro S; rfl
    | cons o ops ih =>
      intro S
      rw [List.foldl_cons, ih]
      cases o with
      | see v => rfl
      | ask c =>
        have : (opStep f S (.ask c)).feat = S.feat := by
          simp only [opStep, call]
          split
          · simp only [callMjd, callRecalc]
            split <;> split <;> simp [calcStep, ht]
          · rfl
        rw [this]; rfl
  rw [C103_fresh f hm (fun s c => by rw [ht]) s v0 ops c, hfeat]
  rfl

/-- C103, a class that notes when it computed (the base class): the answer is that for the present features and conditions
of the present time. -/
theorem C103_base {σ κ ν : Type} (f : Fn σ κ ν) (hm : f.marks = true) (hn : f.onNewObs = true) (hj : f.onMjd = true) (ht : ∀ s c, f.touch s c = s)
    (s : σ) (v0 : ν) (ops : List (Op κ)) (c : κ) (hf : f.feasible ((askedSeen ops).foldl f.learn s) c = true) :
    ∃ c', f.mjd c' = f.mjd c ∧ (call f c (ops.foldl (opStep f) (St.start s v0))).1 = some (f.compute ((askedSeen ops).foldl f.learn s) c') := by
  have hinv : ∀ (ops : List (Op κ)) (S : St σ ν), (S.recalc = false → ∃ c', S.mjdLast = some (f.mjd c') ∧ S.value = f.compute S.feat c') →
      (ops.foldl (opStep f) S).feat = (askedSeen ops).foldl f.learn S.feat ∧
      ((ops.foldl (opStep f) S).recalc = false → ∃ c', (ops.foldl (opStep f) S).mjdLast = some (f.mjd c') ∧
        (ops.foldl (opStep f) S).value = f.compute (ops.foldl (opStep f) S).feat c') := by
    intro ops
    induction ops with
    | nil => intro S h; exact ⟨rfl, h⟩
    | cons o ops ih =>
      intro S h
      cases o with
      | see v =>
        have := ih (opStep f S (.see v)) (by simp [opStep, add, hn])
        exact this
      | ask c =>
        have hs : (opStep f S (.ask c)).feat = S.feat ∧ ((opStep f S (.ask c)).recalc = false →
            ∃ c', (opStep f S (.ask c)).mjdLast = some (f.mjd c') ∧ (opStep f S (.ask c)).value = f.compute (opStep f S (.ask c)).feat c') := by
          simp only [opStep, call]
          split
          · simp only [callMjd, callRecalc]
            by_cases hr : S.recalc = true
            · simp only [hr, if_true]
              split
              · exact ⟨by simp [calcStep, ht], fun _ => ⟨c, by simp [calcStep, hm], by simp [calcStep, ht]⟩⟩
              · exact ⟨by simp [calcStep, ht], fun _ => ⟨c, by simp [calcStep, hm], by simp [calcStep, ht]⟩⟩
            · simp only [hr, Bool.false_eq_true, if_false]
              split
              · exact ⟨by simp [calcStep, ht], fun _ => ⟨c, by simp [calcStep, hm], by simp [calcStep, ht]⟩⟩
              · exact ⟨rfl, h⟩
          · exact ⟨rfl, h⟩
        have := ih (opStep f S (.ask c)) hs.2
        rw [hs.1] at this
        exact this
  have h := hinv ops (St.start s v0) (by simp [St.start])
  have hfe : (ops.foldl (opStep f) (St.start s v0)).feat = (askedSeen ops).foldl f.learn s := h.1
  have h2 := h.2
  generalize ops.foldl (opStep f) (St.start s v0) = S at hfe h2 ⊢
  rw [← hfe] at hf ⊢
  unfold call
  rw [if_pos hf]
  simp only [callMjd, callRecalc]
  by_cases hr : S.recalc = true
  · simp only [hr, if_true]
    split
    · exact ⟨c, rfl, by simp [calcStep, ht]⟩
    · exact ⟨c, rfl, by simp [calcStep]⟩
  · simp only [hr, Bool.false_eq_true, if_false]
    obtain ⟨c', h3, h4⟩ := h2 (by simpa using hr)
    by_cases he : f.mjd c = f.mjd c'
    · rw [if_neg (by simp [h3, he])]
      exact ⟨c', he.symm, by rw [h4]⟩
    · rw [if_pos (by simp [hj, h3, he])]
      exact ⟨c, rfl, by simp [calcStep]⟩

/-- A count of visits, feasible after day 5, as a basis function. -/
def counter : Fn ℕ ℚ ℚ := ⟨fun n t => n * t, fun n _ => n, fun n _ => n + 1, fun _ t => decide (5 < t), id, false, true, true⟩

example : counter.marks = false ∧ (∀ s c, counter.touch s c = s) ∧
    (call counter 10 ([Op.ask 10, .see (vis 1 9 1 "r" "a" [7]), .ask 4].foldl (opStep counter) (St.start 0 0))).1 = some 10 ∧
    (call counter 4 ([Op.ask 10, .see (vis 1 9 1 "r" "a" [7])].foldl (opStep counter) (St.start 0 0))).1 = none := by
  refine ⟨rfl, fun _ _ => rfl, ?_, ?_⟩ <;> decide +kernel

/-- The same with the time noted. -/
def counterB : Fn ℕ ℚ ℚ := { counter with marks := true }

example : counterB.marks = true ∧ (∀ s c, counterB.touch s c = s) ∧
    (call counterB 10 ([Op.ask 10, .see (vis 1 9 1 "r" "a" [7]), .ask 4].foldl (opStep counterB) (St.start 0 0))).1 = some 10 := by
  refine ⟨rfl, fun _ _ => rfl, ?_⟩; decide +kernel

/-! ### C104 -/

/-- The visit counts for the pixel. -/
def Hits (b : Option String) (p : ℕ) (v : Vis) : Prop := InBand b v ∧ p ∈ v.pix

/-- What the feature holds: nothing before the first visit of the pixel, then the latest time. -/
theorem lastObserved_spec (b : Option String) (p : ℕ) (h : List Vis) (hc : Chrono h) (hl : Letters b h) :
    (h.foldl (LastObserved.one b) (fun _ => none) p = none ↔ ∀ v ∈ h, ¬ Hits b p v) ∧
    ∀ l, h.foldl (LastObserved.one b) (fun _ => none) p = some l → (∃ v ∈ h, Hits b p v ∧ v.mjd = l) ∧ ∀ v ∈ h, Hits b p v → v.mjd ≤ l := by
  induction h using List.reverseRecOn with
  | nil => simp
  | append_singleton h v ih =>
    have ih := ih (chrono_snoc hc).1 ⟨hl.1, fun u hu => hl.2 u (by simp [hu])⟩
    have hband : LastObserved.bandOne b v = true ↔ InBand b v := by
      unfold LastObserved.bandOne InBand
      cases hb : b with
      | none => simp
      | some x => simp only; rw [isIn_letters (hl.2 v (by simp)) (hl.1 x (by rw [hb]; rfl))]; simp
    rw [List.foldl_append]
    simp only [List.foldl_cons, List.foldl_nil]
    by_cases hv : Hits b p v
    · have e : LastObserved.one b (h.foldl (LastObserved.one b) (fun _ => none)) v p = some v.mjd := by
        unfold LastObserved.one
        rw [if_pos (hband.2 hv.1)]
        simp [hv.2]
      rw [e]
      refine ⟨⟨by simp, fun hh => absurd hv (hh v (by simp))⟩, ?_⟩
      intro l hl'
      rw [Option.some.injEq] at hl'
      subst hl'
      refine ⟨⟨v, by simp, hv, rfl⟩, ?_⟩
      intro u hu _
      rcases List.mem_append.1 hu with hu | hu
      · exact ((chrono_snoc hc).2 u hu).1
      · rw [List.mem_singleton.1 hu]
    · have e : LastObserved.one b (h.foldl (LastObserved.one b) (fun _ => none)) v p = h.foldl (LastObserved.one b) (fun _ => none) p := by
        unfold LastObserved.one
        by_cases hb : LastObserved.bandOne b v = true
        · rw [if_pos hb]
          have : p ∉ v.pix := fun hp => hv ⟨hband.1 hb, hp⟩
          simp [this]
        · rw [if_neg hb]
      rw [e]
      refine ⟨?_, ?_⟩
      · rw [ih.1]
        constructor
        · intro hh u hu
          rcases List.mem_append.1 hu with hu | hu
          · exact hh u hu
          · rw [List.mem_singleton.1 hu]; exact hv
        · intro hh u hu; exact hh u (by simp [hu])
      · intro l hl'
        obtain ⟨⟨u, hu, h1, h2⟩, h3⟩ := ih.2 l hl'
        refine ⟨⟨u, by simp [hu], h1, h2⟩, ?_⟩
        intro w hw h4
        rcases List.mem_append.1 hw with hw | hw
        · exact h3 w hw h4
        · rw [List.mem_singleton.1 hw] at h4; exact absurd h4 hv

/-- The times since the last visit, counted from day 0 where there was none. -/
def sinceLast (b : Option String) (h : List Vis) (t : ℚ) (p : ℕ) : ℚ := t - (h.foldl (LastObserved.one b) (fun _ => none) p).getD 0

/-- C104: a pixel gets the penalty exactly when a visit in the band covered it less than the gap ago, and 1 otherwise.
Missing: times since a visit equal to the gap up to the tolerance (`C104_rounding_violated`), band names of several letters. -/
theorem C104_fast_partial (npix : ℕ) (gap : ℚ) (penalty : Option ℚ) (b : Option String) (h : List Vis) (t : ℚ) (hc : Chrono h) (hl : Letters b h)
    (ht : minutes gap ≤ t) (hclear : ClearOf (minutes gap) ((List.range npix).map (sinceLast b h t))) (p : ℕ) (hp : p < npix) :
    ((∃ v ∈ h, Hits b p v ∧ t - v.mjd < minutes gap) →
      (avoidFast npix gap penalty (h.foldl (LastObserved.one b) (fun _ => none)) t)[p]? = some penalty) ∧
    ((∀ v ∈ h, Hits b p v → minutes gap ≤ t - v.mjd) →
      (avoidFast npix gap penalty (h.foldl (LastObserved.one b) (fun _ => none)) t)[p]? = some (some 1)) := by
  have e : (List.range npix).map (fun p => (t - (h.foldl (LastObserved.one b) (fun _ => none) p).getD 0, minutes gap)) =
      ((List.range npix).map (sinceLast b h t)).map (fun x => (x, minutes gap)) := by
    rw [List.map_map]; rfl
  have hval : (avoidFast npix gap penalty (h.foldl (LastObserved.one b) (fun _ => none)) t)[p]? =
      some (if sinceLast b h t p < minutes gap then penalty else some 1) := by
    unfold avoidFast
    rw [e, (cmp_clear _ _ hclear).1, List.map_map, put_map, List.getElem?_map, List.getElem?_range hp]
    simp
  have hs := lastObserved_spec b p h hc hl
  rw [hval]
  constructor
  · rintro ⟨v, hv, h1, h2⟩
    rcases ho : h.foldl (LastObserved.one b) (fun _ => none) p with _ | l
    · exact absurd h1 (hs.1.1 ho v hv)
    · have := (hs.2 l ho).2 v hv h1
      rw [if_pos]
      unfold sinceLast
      rw [ho]
      simp only [Option.getD_some]
      linarith
  · intro hall
    rw [if_neg]
    unfold sinceLast
    rcases ho : h.foldl (LastObserved.one b) (fun _ => none) p with _ | l
    · simp only [Option.getD_none]; linarith
    · obtain ⟨⟨v, hv, h1, rfl⟩, _⟩ := hs.2 l ho
      have := hall v hv h1
      simp only [Option.getD_some]
      linarith

/-- C104 fails for the code when one pixel is at the gap: then another, visited nine seconds ago, is not avoided either. -/
theorem C104_rounding_violated :
    let h := [vis 1 (100 - 25 / 1440) 1 "r" "a" [0], vis 2 (100 - 9 / 86400) 1 "r" "a" [1]]
    avoidFast 2 25 none (h.foldl (LastObserved.one (some "r")) (fun _ => none)) 100 = [some 1, some 1] ∧
    avoidFast 2 24 none (h.foldl (LastObserved.one (some "r")) (fun _ => none)) 100 = [some 1, none] := by
  decide +kernel

example : let h := [vis 1 99 1 "r" "a" [0], vis 2 (100 - 9 / 86400) 1 "r" "a" [1]]
    Chrono h ∧ Letters (some "r") h ∧ minutes 25 ≤ 100 ∧ ClearOf (minutes 25) ((List.range 3).map (sinceLast (some "r") h 100)) ∧
    avoidFast 3 25 none (h.foldl (LastObserved.one (some "r")) (fun _ => none)) 100 = [some 1, none, some 1] := by
  refine ⟨?_, ?_, by decide +kernel, ?_, by decide +kernel⟩
  · unfold Chrono; decide +kernel
  · refine ⟨?_, ?_⟩
    · rintro b ⟨⟩; exact ⟨'r', rfl⟩
    · intro v hv
      simp only [List.mem_cons, List.not_mem_nil, or_false] at hv
      rcases hv with rfl | rfl <;> exact ⟨'r', rfl⟩
  · right; unfold Clear; decide +kernel

/-- The note and band match. -/
def Noted (note : String) (b : Option String) (v : Vis) : Prop := InBand b v ∧ isIn note v.note = true

theorem lastMjd_spec (note : String) (b : Option String) (h : List Vis) (hc : Chrono h) :
    (h.foldl (LastObs.oneMjd ⟨some note, b⟩) none = none ↔ ∀ v ∈ h, ¬ Noted note b v) ∧
    ∀ l, h.foldl (LastObs.oneMjd ⟨some note, b⟩) none = some l → (∃ v ∈ h, Noted note b v ∧ v.mjd = l) ∧ ∀ v ∈ h, Noted note b v → v.mjd ≤ l := by
  have hw : ∀ v, LastObs.wanted ⟨some note, b⟩ v = true ↔ Noted note b v := by
    intro v
    unfold LastObs.wanted Noted InBand
    cases b <;> simp
  induction h using List.reverseRecOn with
  | nil => simp
  | append_singleton h v ih =>
    have ih := ih (chrono_snoc hc).1
    rw [List.foldl_append]
    simp only [List.foldl_cons, List.foldl_nil]
    by_cases hv : Noted note b v
    · have e : ∀ s, LastObs.oneMjd ⟨some note, b⟩ s v = some v.mjd := by
        intro s; unfold LastObs.oneMjd; rw [if_pos ((hw v).2 hv)]
      rw [e]
      refine ⟨⟨by simp, fun hh => absurd hv (hh v (by simp))⟩, ?_⟩
      intro l hl'
      rw [Option.some.injEq] at hl'
      subst hl'
      refine ⟨⟨v, by simp, hv, rfl⟩, ?_⟩
      intro u hu _
      rcases List.mem_append.1 hu with hu | hu
      · exact ((chrono_snoc hc).2 u hu).1
      · rw [List.mem_singleton.1 hu]
    · have e : ∀ s, LastObs.oneMjd ⟨some note, b⟩ s v = s := by
        intro s; unfold LastObs.oneMjd; rw [if_neg (fun hh => hv ((hw v).1 hh))]
      rw [e]
      refine ⟨?_, ?_⟩
      · rw [ih.1]
        constructor
        · intro hh u hu
          rcases List.mem_append.1 hu with hu | hu
          · exact hh u hu
          · rw [List.mem_singleton.1 hu]; exact hv
        · intro hh u hu; exact hh u (by simp [hu])
      · intro l hl'
        obtain ⟨⟨u, hu, h1, h2⟩, h3⟩ := ih.2 l hl'
        refine ⟨⟨u, by simp [hu], h1, h2⟩, ?_⟩
        intro w hw' h4
        rcases List.mem_append.1 hw' with hw' | hw'
        · exact h3 w hw' h4
        · rw [List.mem_singleton.1 hw'] at h4; exact absurd h4 hv

/-- The bands a gap looks at: each of the given ones, or any. -/
def GapBand (bands : Option (List String)) (b : Option String) : Prop :=
  match bands with
  | none => b = none
  | some l => ∃ x ∈ l, b = some x

/-- C104, a gap after visits with a note: the survey is held back exactly when all the bands were visited and one of them no longer ago than
the gap. -/
theorem C104_gap (note : String) (bands : Option (List String)) (gap : ℚ) (h : List Vis) (t : ℚ) (hc : Chrono h) :
    visitGap gap (visitGapLasts note bands h) t = false ↔
      (∀ b, GapBand bands b → ∃ v ∈ h, Noted note b v) ∧ ∃ b, GapBand bands b ∧ ∃ v ∈ h, Noted note b v ∧ t - v.mjd ≤ minutes gap := by
  have key : ∀ bs : List (Option String), visitGap gap (bs.map (fun b => h.foldl (LastObs.oneMjd ⟨some note, b⟩) none)) t = false ↔
      (∀ b ∈ bs, ∃ v ∈ h, Noted note b v) ∧ ∃ b ∈ bs, ∃ v ∈ h, Noted note b v ∧ t - v.mjd ≤ minutes gap := by
    intro bs
    unfold visitGap
    by_cases hn : (bs.map (fun b => h.foldl (LastObs.oneMjd ⟨some note, b⟩) none)).any Option.isNone = true
    · rw [if_pos hn]
      simp only [Bool.true_eq_false, false_iff, not_and]
      intro hall
      rw [List.any_map, List.any_eq_true] at hn
      obtain ⟨b, hb, h1⟩ := hn
      have h1 : h.foldl (LastObs.oneMjd ⟨some note, b⟩) none = none := by simpa using h1
      obtain ⟨v, hv, h2⟩ := hall b hb
      exact absurd h2 ((lastMjd_spec note b h hc).1.1 h1 v hv)
    · rw [if_neg hn]
      have hsome : ∀ b ∈ bs, ∃ l, h.foldl (LastObs.oneMjd ⟨some note, b⟩) none = some l := by
        intro b hb
        rcases ho : h.foldl (LastObs.oneMjd ⟨some note, b⟩) none with _ | l
        · exfalso
          apply hn
          rw [List.any_map, List.any_eq_true]
          exact ⟨b, hb, by simp [ho]⟩
        · exact ⟨l, rfl⟩
      rw [List.all_map, List.all_eq_false]
      constructor
      · rintro ⟨b, hb, h1⟩
        refine ⟨?_, b, hb, ?_⟩
        · intro b hb
          obtain ⟨l, hl⟩ := hsome b hb
          obtain ⟨⟨v, hv, h2, _⟩, _⟩ := (lastMjd_spec note b h hc).2 l hl
          exact ⟨v, hv, h2⟩
        · obtain ⟨l, hl⟩ := hsome b hb
          obtain ⟨⟨v, hv, h2, rfl⟩, _⟩ := (lastMjd_spec note b h hc).2 l hl
          refine ⟨v, hv, h2, ?_⟩
          simp only [Function.comp, hl, Option.getD_some, decide_eq_true_eq, not_lt] at h1
          exact h1
      · rintro ⟨_, b, hb, v, hv, h1, h2⟩
        refine ⟨b, hb, ?_⟩
        obtain ⟨l, hl⟩ := hsome b hb
        have := ((lastMjd_spec note b h hc).2 l hl).2 v hv h1
        simp only [Function.comp, hl, Option.getD_some, decide_eq_true_eq, not_lt]
        linarith
  cases bands with
  | none =>
    have := key [none]
    simp only [List.map_cons, List.map_nil, List.mem_singleton, forall_eq, exists_eq_left] at this
    unfold visitGapLasts GapBand
    simp only [forall_eq, exists_eq_left]
    exact this
  | some l =>
    have := key (l.map some)
    rw [List.map_map] at this
    unfold visitGapLasts GapBand
    simp only
    rw [show (fun b => h.foldl (LastObs.oneMjd ⟨some note, some b⟩) none) = ((fun b => h.foldl (LastObs.oneMjd ⟨some note, b⟩) none) ∘ some) from rfl, this]
    simp only [List.mem_map]
    constructor
    · rintro ⟨h1, b, ⟨x, hx, rfl⟩, h2⟩
      exact ⟨fun b ⟨x, hx, e⟩ => h1 b ⟨x, hx, e.symm⟩, some x, ⟨x, hx, rfl⟩, h2⟩
    · rintro ⟨h1, b, ⟨x, hx, rfl⟩, h2⟩
      exact ⟨fun b ⟨x, hx, e⟩ => h1 b ⟨x, hx, e.symm⟩, some x, ⟨x, hx, rfl⟩, h2⟩

/-- C104 fails for the code: the penalty asked for is never used; the value is 1 or `-inf`. -/
theorem C104_penalty_violated (gap : ℚ) (penalty : XReal) (lasts : List (Option ℚ)) (t : ℚ) :
    visitGapCall gap penalty lasts t = if visitGap gap lasts t then .fin 1 else .ninf := by
  unfold visitGapCall
  by_cases h : visitGap gap lasts t = true <;> simp [h]

example : let h := [vis 1 99 1 "r" "pair, a" [0], vis 2 (100 - 9 / 86400) 1 "g" "pair, b" [1]]
    Chrono h ∧ visitGap 25 (visitGapLasts "pair" none h) 100 = false ∧ visitGap 25 (visitGapLasts "pair" (some ["r", "i"]) h) 100 = true ∧
    visitGap 25 (visitGapLasts "pair" (some ["r", "g"]) h) 100 = false ∧ visitGap 25 (visitGapLasts "pair" (some ["r"]) h) 100 = true := by
  refine ⟨?_, ?_, ?_, ?_, ?_⟩
  · unfold Chrono; decide +kernel
  all_goals decide +kernel

end Verif
