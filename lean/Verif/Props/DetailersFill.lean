import Verif.Props.DetailersCut
import Verif.Props.ScriptedHistory
import Verif.Lemmas.Angles
import Verif.Lemmas.IntRounded

/-!
Properties C57 and C75 to C81: detailers which fill in or change single columns, and the one which
hands the visits to two others.
-/

namespace Verif

open Det Feat

/-! ### C75: tracking information -/

/-- A column holds no information: empty, or the text numpy makes of `None`. -/
def Unset (x : String) : Prop := x = "" ∨ x = "None"

/-- **C75.** Information present in any of the three columns stays; missing information is replaced by
what was configured; nothing else is changed. -/
theorem C75_tracking (target program reason : String) (os : List Obs) (ht : target.length ≤ 60) (hp : program.length ≤ 60)
    (hr : reason.length ≤ 60) (hs : ' ' ∉ reason.toList) :
    List.Forall₂ (fun o o' => (Unset o.target → o'.target = target) ∧ (¬ Unset o.target → o'.target = o.target) ∧
      (Unset o.program → o'.program = program) ∧ (¬ Unset o.program → o'.program = o.program) ∧
      (Unset o.reason → o'.reason = reason) ∧ (¬ Unset o.reason → o'.reason = o.reason) ∧
      o' = { o with target := o'.target, program := o'.program, reason := o'.reason })
      os (trackingInfo (some target) (some program) (some reason) os) := by
  have hm : ∀ x, missing x = true ↔ Unset x := by
    intro x; unfold missing Unset; simp
  have hf : ∀ v x : String, v.length ≤ 60 → (Unset x → fill (some v) x = v) ∧ (¬ Unset x → fill (some v) x = x) := by
    intro v x hv
    unfold fill
    constructor
    · intro h; rw [if_pos ((hm x).2 h)]; exact cut_short v hv
    · intro h; rw [if_neg (fun e => h ((hm x).1 e))]
  have hre : String.ofList (reason.toList.map (fun c => if c = ' ' then '_' else c)) = reason := by
    have : reason.toList.map (fun c => if c = ' ' then '_' else c) = reason.toList := by
      conv_rhs => rw [← List.map_id reason.toList]
      apply List.map_congr_left
      intro c hc
      rw [if_neg (by rintro rfl; exact hs hc)]; rfl
    rw [this, String.ofList_toList]
  unfold trackingInfo
  simp only [Option.map_some, hre]
  rw [List.forall₂_map_right_iff, List.forall₂_same]
  intro o _
  exact ⟨(hf _ _ ht).1, (hf _ _ ht).2, (hf _ _ hp).1, (hf _ _ hp).2, (hf _ _ hr).1, (hf _ _ hr).2, rfl⟩

example : (trackingInfo (some "a") (some "b") (some "c d") [{ ob 1 "r" with target := "x", program := "None" }]).map
    (fun o => (o.target, o.program, o.reason)) = [("x", "b", "c_d")] := by decide +kernel

/-! ### C76: bands that can be used -/

/-- The configured band numbers drawn by the constructor are valid, and the night has one. -/
def DrawsFor (bands : List String) (draws : List ℕ) (night : ℤ) : Prop :=
  (∀ d ∈ draws, d < bands.length) ∧ 0 ≤ night ∧ night < draws.length

/-- **C76.** On a night for which a band was drawn, all visits get the same mounted band: one of the
configured ones, or, if that is not mounted, the first mounted one in the fallback order. It raises
only if nothing in that order is mounted. -/
theorem C76_random_band (bands fallback : List String) (draws : List ℕ) (mounted : List String) (night : ℤ) (os : List Obs)
    (h : DrawsFor bands draws night) (hf : ∃ f ∈ fallback, f ∈ mounted) :
    ∃ b drawn r, randomBand bands fallback draws mounted night os = some r ∧ b ∈ mounted ∧ drawn ∈ bands ∧
      (drawn ∈ mounted → b = drawn) ∧
      (drawn ∉ mounted → ∃ before after, fallback = before ++ b :: after ∧ ∀ f ∈ before, f ∉ mounted) ∧
      r = os.map (fun o => { o with band := b }) := by
  obtain ⟨h1, h2, h3⟩ := h
  have hlt : night.toNat < draws.length := by omega
  have hd : draws[night.toNat] < bands.length := h1 _ (List.getElem_mem hlt)
  have e : (pyGet draws night).bind (fun d => bands[d]?) = some (bands[draws[night.toNat]]) := by
    unfold pyGet
    rw [if_pos h2, List.getElem?_eq_getElem hlt, Option.bind_some, List.getElem?_eq_getElem hd]
  unfold randomBand
  rw [e]
  dsimp only
  by_cases hm : bands[draws[night.toNat]] ∈ mounted
  · rw [if_pos hm]
    exact ⟨_, _, _, rfl, hm, List.getElem_mem hd, fun _ => rfl, fun h => absurd hm h, rfl⟩
  · rw [if_neg hm]
    cases hx : fallback.find? (fun f => decide (f ∈ mounted)) with
    | none =>
      obtain ⟨f, hf1, hf2⟩ := hf
      have := List.find?_eq_none.1 hx f hf1
      simp [hf2] at this
    | some f =>
      obtain ⟨k1, before, after, k2, k3⟩ := List.find?_eq_some_iff_append.1 hx
      refine ⟨f, _, _, rfl, by simpa using k1, List.getElem_mem hd, fun h => absurd h hm, fun _ => ⟨before, after, k2, ?_⟩, rfl⟩
      intro g hg
      have := k3 g hg
      simpa using this

example : (randomBand ["r", "i"] ["r", "g"] [1, 0] ["g", "r"] 0 [ob 1 "u"]).map (List.map Obs.band) = some ["r"] ∧
    DrawsFor ["r", "i"] [1, 0] 0 := by
  refine ⟨by decide +kernel, ?_, ?_, ?_⟩ <;> simp

/-- **C76.** Substitution leaves no visit in a band that is not mounted and was to be replaced. -/
theorem C76_substitute (orig repl : String) (mounted : List String) (os : List Obs) (hne : repl ≠ orig) :
    (orig ∈ mounted → bandSubstitute orig repl mounted os = os) ∧
    (orig ∉ mounted → List.Forall₂ (fun o o' => o'.band ≠ orig ∧ (o.band ≠ orig → o' = o) ∧
      (o.band = orig → o' = { o with band := repl })) os (bandSubstitute orig repl mounted os)) := by
  unfold bandSubstitute
  refine ⟨fun h => if_pos h, fun h => ?_⟩
  rw [if_neg h, List.forall₂_map_right_iff, List.forall₂_same]
  intro o _
  by_cases hb : o.band = orig
  · rw [if_pos hb]; exact ⟨hne, fun h => absurd hb h, fun _ => rfl⟩
  · rw [if_neg hb]; exact ⟨hb, fun _ => rfl, fun h => absurd h hb⟩

/-- **C76 fails** for the substitution when the replacement is not mounted either: the visits are then
in a band that cannot be used. -/
theorem C76_violated : (bandSubstitute "z" "y" ["g", "r"] [ob 1 "z"]).map Obs.band = ["y"] := by decide +kernel

/-! ### C77: numbered notes -/

/-- **C77 (partial).** If the notes are short enough all notes differ afterwards, and nothing else is changed. -/
theorem C77_numbered_partial (os : List Obs) (hs : ∀ o ∈ os, o.note.length ≤ 40) (hn : os.length ≤ 10 ^ 18) :
    ((indexNote os).map Obs.note).Nodup ∧
    List.Forall₂ (fun o o' => o' = { o with note := o'.note } ∧ ∃ k, o'.note.toList = o.note.toList ++ [',', ' '] ++ Nat.toDigits 10 k)
      os (indexNote os) := by
  have hnote : ∀ i (h : i < os.length), ((indexNote os).map Obs.note)[i]? = some (Script.tag os[i].note i) := by
    intro i h
    unfold indexNote
    rw [List.getElem?_map, List.getElem?_mapIdx, List.getElem?_eq_getElem h]
    rfl
  have hlen : (indexNote os).length = os.length := by unfold indexNote; simp
  have hfit : ∀ i (h : i < os.length), Fits os[i].note i := fun i h => ⟨hs _ (List.getElem_mem h), by omega⟩
  constructor
  · rw [List.nodup_iff_getElem?_ne_getElem?]
    intro i j hij hj
    rw [List.length_map, hlen] at hj
    rw [hnote i (by omega), hnote j hj]
    intro e
    have := tag_inj (hfit i (by omega)) (hfit j hj) (Option.some.inj e)
    omega
  · rw [List.forall₂_iff_get]
    refine ⟨hlen.symm, ?_⟩
    intro i h1 h2
    have hx : (indexNote os).get ⟨i, h2⟩ = { os[i] with note := Script.tag os[i].note i } := by
      simp only [List.get_eq_getElem]
      unfold indexNote
      rw [List.getElem_mapIdx]; rfl
    rw [hx]
    refine ⟨rfl, i, ?_⟩
    dsimp only
    rw [tag_toList (hfit i h1)]
    simp

example : (indexNote [ob 1 "r", ob 2 "r"]).map Obs.note = ["n, 0", "n, 1"] := by decide +kernel

/-- **C77 fails** for long notes: the number is cut off and the notes are equal. -/
theorem C77_violated :
    let long := String.ofList (List.replicate 60 'x')
    (indexNote [{ ob 1 "r" with note := long }, { ob 2 "r" with note := long }]).map Obs.note = [long, long] := by
  decide +kernel

/-! ### C78: two detailers -/

/-- The visits at the places where the flag has the given value. -/
def picked (b : Bool) (mask : List Bool) (os : List Obs) : List Obs := ((mask.zip os).filter (fun p => p.1 == b)).map Prod.snd

theorem picked_cons (b m : Bool) (ms : List Bool) (o : Obs) (os : List Obs) :
    picked b (m :: ms) (o :: os) = if m = b then o :: picked b ms os else picked b ms os := by
  unfold picked
  rw [List.zip_cons_cons, List.filter_cons]
  by_cases h : m = b <;> simp [h]

theorem picked_filter (p : Obs → Bool) (b : Bool) (os : List Obs) : picked b (os.map p) os = os.filter (fun o => p o == b) := by
  induction os with
  | nil => rfl
  | cons o os ih =>
    rw [List.map_cons, picked_cons, List.filter_cons, ih]
    by_cases h : p o = b <;> simp [h]

theorem go_spec (mask : List Bool) : ∀ (os rows : List Obs), os.length = mask.length → rows.length = mask.count true →
    (putBack.go mask os rows).length = os.length ∧ picked true mask (putBack.go mask os rows) = rows ∧
    picked false mask (putBack.go mask os rows) = picked false mask os := by
  induction mask with
  | nil =>
    intro os rows h1 h2
    have h1' : os = [] := List.length_eq_zero_iff.1 h1
    have h2' : rows = [] := List.length_eq_zero_iff.1 (by simpa using h2)
    subst h1'; subst h2'
    refine ⟨rfl, rfl, rfl⟩
  | cons m ms ih =>
    intro os rows h1 h2
    cases os with
    | nil => simp at h1
    | cons o os =>
      cases m with
      | false =>
        rw [List.count_cons_of_ne (by decide)] at h2
        obtain ⟨i1, i2, i3⟩ := ih os rows (by simpa using h1) h2
        rw [putBack.go, picked_cons, picked_cons, picked_cons]
        refine ⟨by simp [i1], by simpa using i2, by simpa using i3⟩
      | true =>
        rw [List.count_cons_self] at h2
        cases rows with
        | nil => simp at h2
        | cons r rows =>
          obtain ⟨i1, i2, i3⟩ := ih os rows (by simpa using h1) (by simpa using h2)
          rw [putBack.go, picked_cons, picked_cons, picked_cons]
          refine ⟨by simp [i1], by simpa using i2, by simpa using i3⟩

theorem picked_not (b : Bool) (mask : List Bool) (os : List Obs) : picked b (mask.map not) os = picked (!b) mask os := by
  induction mask generalizing os with
  | nil => rfl
  | cons m ms ih =>
    cases os with
    | nil => rfl
    | cons o os =>
      rw [List.map_cons, picked_cons, picked_cons, ih]
      cases m <;> cases b <;> rfl

theorem putBack_spec {mask : List Bool} {os rows r : List Obs} (h1 : os.length = mask.length) (h2 : rows.length = mask.count true)
    (h : putBack mask os rows = some r) : r.length = os.length ∧ picked true mask r = rows ∧ picked false mask r = picked false mask os := by
  unfold putBack at h
  dsimp only at h
  rw [if_pos h2, Option.map_some] at h
  cases h
  exact go_spec mask os rows h1 h2

/-- **C78 (partial).** If both detailers return as many visits as they get, the result has the answer of
the second one, in order, at the places of the visits with the text in their note, and that of
the first at the other places. -/
theorem C78_split_partial {σ τ : Type} (d1 : Detailer σ) (d2 : Detailer τ) (text : String) (s : σ × τ) (os : List Obs)
    (s' : σ × τ) (r : List Obs) (h : (split d1 d2 text).call s os = some (s', r))
    (hl1 : ∀ s os s' r, d1.call s os = some (s', r) → r.length = os.length)
    (hl2 : ∀ s os s' r, d2.call s os = some (s', r) → r.length = os.length) :
    let mask := os.map (fun o => isIn text o.note)
    r.length = os.length ∧
    d1.call s.1 (os.filter (fun o => !isIn text o.note)) = some (s'.1, picked false mask r) ∧
    d2.call s.2 (os.filter (fun o => isIn text o.note)) = some (s'.2, picked true mask r) := by
  intro mask
  have hm : mask.length = os.length := by simp [mask]
  have hct : mask.count true = (os.filter (fun o => isIn text o.note)).length := by
    simp only [mask]
    rw [List.count_eq_countP, List.countP_map, List.countP_eq_length_filter]
    apply congrArg List.length; apply List.filter_congr; intro o _; simp
  have hcf : (mask.map not).count true = (os.filter (fun o => !isIn text o.note)).length := by
    simp only [mask]
    rw [List.count_eq_countP, List.map_map, List.countP_map, List.countP_eq_length_filter]
    apply congrArg List.length; apply List.filter_congr; intro o _; simp
  unfold split at h
  dsimp only at h
  cases e1 : d1.call s.1 (os.filter (fun o => !isIn text o.note)) with
  | none => rw [e1] at h; cases h
  | some p1 =>
    obtain ⟨s1, r1⟩ := p1
    rw [e1] at h
    dsimp only at h
    have hr1 := hl1 _ _ _ _ e1
    cases e2 : putBack (mask.map not) os r1 with
    | none => rw [show putBack ((os.map (fun o => isIn text o.note)).map not) os r1 = none from e2] at h; cases h
    | some os1 =>
      rw [show putBack ((os.map (fun o => isIn text o.note)).map not) os r1 = some os1 from e2] at h
      dsimp only at h
      obtain ⟨k1, k2, k3⟩ := putBack_spec (by rw [List.length_map, hm]) (by rw [hr1, hcf]) e2
      rw [picked_not] at k2 k3
      rw [picked_not] at k3
      have hz : ((os1.zip mask).filter (fun p => p.2)).map Prod.fst = picked true mask os1 := by
        unfold picked
        rw [← List.zip_swap mask os1, List.filter_map, List.map_map]
        congr 1
        apply List.filter_congr
        intro p _; simp
      rw [hz] at h
      have k3' : picked true mask os1 = os.filter (fun o => isIn text o.note) := by
        have := k3
        simp only [Bool.not_false] at this
        rw [this, picked_filter]
        apply List.filter_congr; intro o _; simp
      rw [k3'] at h
      cases e3 : d2.call s.2 (os.filter (fun o => isIn text o.note)) with
      | none => rw [e3] at h; cases h
      | some p2 =>
        obtain ⟨s2, r2⟩ := p2
        rw [e3] at h
        dsimp only at h
        have hr2 := hl2 _ _ _ _ e3
        cases e4 : putBack mask os1 r2 with
        | none => rw [show putBack (os.map (fun o => isIn text o.note)) os1 r2 = none from e4] at h; cases h
        | some r' =>
          rw [show putBack (os.map (fun o => isIn text o.note)) os1 r2 = some r' from e4] at h
          cases h
          obtain ⟨q1, q2, q3⟩ := putBack_spec (by rw [k1, hm]) (by rw [hr2, hct]) e4
          refine ⟨by rw [q1, k1], ?_, ?_⟩
          · have : picked false mask r = r1 := by rw [q3]; simpa using k2
            rw [this]
          · rw [q2]

/-- A detailer for the examples: it numbers visits and goes on with the number of reports. -/
def counting : Detailer ℕ where
  call s os := some (s, os.map (fun o => { o with id := s }))
  add s _ := s + 1

/-- A detailer which keeps only the first visit. -/
def firstOnly : Detailer Unit where
  call s os := some (s, os.take 1)
  add s _ := s

example : ((split counting counting "DD").call (5, 7) [{ ob 1 "r" with note := "DD" }, ob 2 "r", { ob 3 "r" with note := "a DD" }]).map
    (fun p => p.2.map Obs.id) = some [7, 5, 7] := by decide +kernel

/-- **C78 fails** if the first detailer drops visits: one that is left takes the places of all. -/
theorem C78_repeated_violated : ((split firstOnly counting "DD").call ((), 7) [ob 1 "r", ob 2 "r", ob 3 "r"]).map
    (fun p => p.2.map Obs.id) = some [1, 1, 1] := by decide +kernel

/-- **C78 fails** for detailers with memory: completed visits, however many, do not reach them. -/
theorem C78_history_violated {σ τ : Type} (d1 : Detailer σ) (d2 : Detailer τ) (text : String) (s : σ × τ) (done : List Obs) :
    done.foldl (split d1 d2 text).add s = s := by
  induction done with
  | nil => rfl
  | cons o done ih => exact ih

/-- The detailer by itself would have gone on. -/
theorem C78_history_witness : [ob 1 "r"].foldl counting.add 0 = 1 := by decide +kernel

/-! ### C79: exposure times -/

/-- **C79 (partial).** With limits in whole seconds, exposure times are whole seconds within them. -/
theorem C79_exposure_partial (lo hi : ℤ) (h : lo ≤ hi) (want : ℚ) :
    lo ≤ varyExpt lo hi want ∧ varyExpt lo hi want ≤ hi ∧
    ((lo : ℚ) ≤ want → want ≤ hi → |(varyExpt lo hi want : ℚ) - want| ≤ 1 / 2) := by
  have hq : (lo : ℚ) ≤ hi := by exact_mod_cast h
  unfold varyExpt
  refine ⟨?_, ?_, ?_⟩
  · conv_lhs => rw [← roundHalfEven_int lo]
    exact roundHalfEven_mono (le_min (le_max_right _ _) hq)
  · conv_rhs => rw [← roundHalfEven_int hi]
    exact roundHalfEven_mono (min_le_right _ _)
  · intro h1 h2
    rw [max_eq_left h1, min_eq_left h2]
    exact roundHalfEven_near want

example : (varyExpt 20 100 (301 / 10), varyExpt 20 100 3, varyExpt 20 100 400) = (30, 20, 100) := by decide +kernel

/-- **C79 fails** for other limits: with a shortest time of 20.4 s, 20 s is given. -/
theorem C79_violated : (varyExpt (204 / 10) 100 3 : ℚ) < 204 / 10 := by decide +kernel

/-! ### C80: keeping the rotator in range -/

/-- **C80.** Whatever the sky angle given (or none), the resulting one puts the rotator within its limits,
provided the backup rotator angle is; a sky angle that already does is kept. -/
theorem C80_rotator {α : Type} [Field α] [LinearOrder α] [IsStrictOrderedRing α] [FloorRing α] (T : α) (hT : 0 < T)
    (cam : Ang.Camera) (lo hi : α) (hlo : -T / 2 < lo) (hhi : hi ≤ T / 2) (sky : Option α) (tel pa : α)
    (ht : lo ≤ tel) (ht' : tel ≤ hi) :
    let r := rotspUpdate T cam lo hi sky tel pa
    (lo ≤ Ang.sky2tel T cam r pa ∧ Ang.sky2tel T cam r pa ≤ hi) ∧
    ∀ sk, sky = some sk → lo ≤ Ang.sky2tel T cam sk pa → Ang.sky2tel T cam sk pa ≤ hi → r = sk := by
  intro r
  have hlh : lo ≤ hi := le_trans ht ht'
  have hb : Ang.sky2tel T cam (Ang.tel2sky T cam tel pa) pa = tel :=
    Ang.same_eq_half hT (Ang.tel_sky_tel hT cam tel pa) (Ang.sky2tel_range hT cam _ _).1 (Ang.sky2tel_range hT cam _ _).2
      (lt_of_lt_of_le hlo ht) (le_trans ht' hhi)
  simp only [r]
  unfold rotspUpdate
  cases sky with
  | none =>
    dsimp only
    rw [hb]
    exact ⟨⟨ht, ht'⟩, fun sk h => by cases h⟩
  | some sk =>
    dsimp only
    rw [max_eq_right hlh, min_eq_left hlh]
    by_cases h : hi < Ang.sky2tel T cam sk pa ∨ Ang.sky2tel T cam sk pa < lo
    · rw [if_pos h, hb]
      refine ⟨⟨ht, ht'⟩, ?_⟩
      rintro _ ⟨⟩ h1 h2
      rcases h with h | h
      · exact absurd h (not_lt.2 h2)
      · exact absurd h (not_lt.2 h1)
    · rw [if_neg h]
      rw [not_or, not_lt, not_lt] at h
      exact ⟨⟨h.2, h.1⟩, by rintro _ ⟨⟩ _ _; rfl⟩

example : rotspUpdate (1 : ℚ) .comcam (-1 / 4) (1 / 4) (some (1 / 2)) (1 / 10) (1 / 10) = 0 ∧
    rotspUpdate (1 : ℚ) .comcam (-1 / 4) (1 / 4) (some (1 / 10)) (1 / 5) (1 / 10) = 1 / 10 := by decide +kernel

/-! ### C57: rotator dithers -/

/-- Offsets of a sequence of calls, each with a number of visits and a night. -/
def rotRun (d : Dither) (lo hi : ℚ) (rng : ℕ → List ℚ) (fresh : ℕ → ℕ → ℚ) : ℕ → Rot → List (ℕ × ℤ) → Option (List (List ℚ))
  | _, _, [] => some []
  | k, s, c :: cs =>
    match rotOffsets d lo hi rng (fresh k) s c.1 c.2 with
    | none => none
    | some (s', r) => (rotRun d lo hi rng fresh (k + 1) s' cs).map (fun rs => r :: rs)

/-- A random number. -/
def Unit01 (u : ℚ) : Prop := 0 ≤ u ∧ u < 1

theorem scaled {lo hi u : ℚ} (h : lo ≤ hi) (hu : Unit01 u) : lo ≤ u * (hi - lo) + lo ∧ u * (hi - lo) + lo ≤ hi := by
  have h0 : 0 ≤ hi - lo := by linarith
  have h1 := mul_nonneg hu.1 h0
  have h2 : u * (hi - lo) ≤ 1 * (hi - lo) := mul_le_mul_of_nonneg_right hu.2.le h0
  constructor <;> linarith

theorem pyGet_mem {α : Type} {l : List α} {i : ℤ} {x : α} (h : pyGet l i = some x) : x ∈ l := by
  unfold pyGet at h
  split at h
  · exact List.mem_of_getElem? h
  · split at h
    · exact List.mem_of_getElem? h
    · cases h

/-- **C57.** Whatever the calls made since the detailer was made, all rotator angles are within the
limits. -/
theorem C57_within (d : Dither) (lo hi : ℚ) (h : lo ≤ hi) (rng : ℕ → List ℚ) (fresh : ℕ → ℕ → ℚ) (draws : List ℚ)
    (h1 : ∀ u ∈ draws, Unit01 u) (h2 : ∀ n, ∀ u ∈ rng n, Unit01 u) (h3 : ∀ k i, Unit01 (fresh k i))
    (calls : List (ℕ × ℤ)) (r : List (List ℚ)) (hr : rotRun d lo hi rng fresh 0 ⟨none, 0, 0, draws⟩ calls = some r) :
    List.Forall₂ (fun c offs => offs.length = c.1 ∧ ∀ x ∈ offs, lo ≤ x ∧ x ≤ hi) calls r := by
  have key : ∀ (calls : List (ℕ × ℤ)) (k : ℕ) (s : Rot) (r : List (List ℚ)), (∀ u ∈ s.draws, Unit01 u) →
      (s.night ≠ none → d = .night → lo ≤ s.offset ∧ s.offset ≤ hi) → rotRun d lo hi rng fresh k s calls = some r →
      List.Forall₂ (fun c offs => offs.length = c.1 ∧ ∀ x ∈ offs, lo ≤ x ∧ x ≤ hi) calls r := by
    intro calls
    induction calls with
    | nil => intro k s r _ _ h; cases h; exact List.Forall₂.nil
    | cons c cs ih =>
      intro k s r hd ho hr
      unfold rotRun at hr
      cases e : rotOffsets d lo hi rng (fresh k) s c.1 c.2 with
      | none => rw [e] at hr; cases hr
      | some p =>
        obtain ⟨s', x⟩ := p
        rw [e] at hr
        dsimp only at hr
        cases e2 : rotRun d lo hi rng fresh (k + 1) s' cs with
        | none => rw [e2] at hr; cases hr
        | some rs =>
          rw [e2] at hr; cases hr
          have hx : (x.length = c.1 ∧ ∀ y ∈ x, lo ≤ y ∧ y ≤ hi) ∧ (∀ u ∈ s'.draws, Unit01 u) ∧
              (s'.night ≠ none → d = .night → lo ≤ s'.offset ∧ s'.offset ≤ hi) := by
            unfold rotOffsets at e
            cases d with
            | night =>
              dsimp only at e
              by_cases hn : s.night = some c.2
              · rw [if_pos hn] at e
                cases e
                refine ⟨⟨by simp, ?_⟩, hd, ho⟩
                intro y hy
                rw [(List.mem_replicate.1 hy).2]
                exact ho (by rw [hn]; simp) rfl
              · rw [if_neg hn] at e
                obtain ⟨u, hu, e⟩ := Option.map_eq_some_iff.1 e
                cases e
                have := scaled h (hd u (pyGet_mem hu))
                refine ⟨⟨by simp, ?_⟩, hd, fun _ _ => this⟩
                intro y hy
                rw [(List.mem_replicate.1 hy).2]
                exact this
            | call =>
              dsimp only at e
              have hcall : ∀ s1 : Rot, (∀ u ∈ s1.draws, Unit01 u) → s1.draws[s1.callNum]?.map (fun u =>
                  (({ s1 with callNum := s1.callNum + 1 } : Rot), List.replicate c.1 (u * (hi - lo) + lo))) = some (s', x) →
                  (x.length = c.1 ∧ ∀ y ∈ x, lo ≤ y ∧ y ≤ hi) ∧ (∀ u ∈ s'.draws, Unit01 u) := by
                intro s1 hs1 e
                obtain ⟨u, hu, e⟩ := Option.map_eq_some_iff.1 e
                cases e
                refine ⟨⟨by simp, ?_⟩, hs1⟩
                intro y hy
                rw [(List.mem_replicate.1 hy).2]
                exact scaled h (hs1 u (List.mem_of_getElem? hu))
              by_cases hn : s.night = some c.2
              · rw [if_pos hn] at e
                have := hcall s hd e
                exact ⟨this.1, this.2, fun _ hh => by cases hh⟩
              · rw [if_neg hn] at e
                by_cases hneg : c.2 < 0
                · rw [if_pos hneg] at e; cases e
                · rw [if_neg hneg] at e
                  have := hcall _ (h2 _) e
                  exact ⟨this.1, this.2, fun _ hh => by cases hh⟩
            | all =>
              dsimp only at e
              cases e
              refine ⟨⟨by simp, ?_⟩, hd, fun _ hh => by cases hh⟩
              intro y hy
              obtain ⟨i, _, rfl⟩ := List.mem_map.1 hy
              exact scaled h (h3 _ _)
          exact List.Forall₂.cons hx.1 (ih (k + 1) s' rs hx.2.1 hx.2.2 e2)
  exact key calls 0 _ r h1 (fun hh => absurd rfl hh) hr

/-- **C57.** With one angle per night, all visits of a night get the same one, whatever the calls made
before: a restart changes nothing. -/
theorem C57_per_night (lo hi : ℚ) (rng : ℕ → List ℚ) (fresh : ℕ → ℕ → ℚ) (draws : List ℚ)
    (calls : List (ℕ × ℤ)) (hc : ∀ c ∈ calls, 0 ≤ c.2 ∧ c.2 < draws.length) :
    rotRun .night lo hi rng fresh 0 ⟨none, 0, 0, draws⟩ calls =
      some (calls.map (fun c => List.replicate c.1 (draws.getD c.2.toNat 0 * (hi - lo) + lo))) := by
  have key : ∀ (calls : List (ℕ × ℤ)) (k : ℕ) (s : Rot), (∀ c ∈ calls, 0 ≤ c.2 ∧ c.2 < draws.length) → s.draws = draws →
      (∀ n, s.night = some n → s.offset = draws.getD n.toNat 0 * (hi - lo) + lo) →
      rotRun .night lo hi rng fresh k s calls =
        some (calls.map (fun c => List.replicate c.1 (draws.getD c.2.toNat 0 * (hi - lo) + lo))) := by
    intro calls
    induction calls with
    | nil => intros; rfl
    | cons c cs ih =>
      intro k s hc hd ho
      have hc0 := hc c (by simp)
      have hcs : ∀ c ∈ cs, 0 ≤ c.2 ∧ c.2 < draws.length := fun x hx => hc x (List.mem_cons_of_mem _ hx)
      unfold rotRun rotOffsets
      dsimp only
      by_cases hn : s.night = some c.2
      · rw [if_pos hn]
        dsimp only
        rw [ih (k + 1) s hcs hd ho, ho _ hn]; rfl
      · rw [if_neg hn]
        have e : pyGet s.draws c.2 = some (draws.getD c.2.toNat 0) := by
          have hlt : c.2.toNat < draws.length := by omega
          unfold pyGet
          rw [if_pos hc0.1, hd, List.getElem?_eq_getElem hlt, List.getD_eq_getElem?_getD, List.getElem?_eq_getElem hlt]; rfl
        rw [e]
        simp only [Option.map_some]
        rw [ih (k + 1) { s with night := some c.2, offset := draws.getD c.2.toNat 0 * (hi - lo) + lo } hcs hd
          (by intro n h; cases h; rfl)]; rfl
  exact key calls 0 _ hc rfl (fun n h => by cases h)

example : rotRun .night (-90) 90 (fun _ => []) (fun _ _ => 0) 0 ⟨none, 0, 0, [0, 1 / 2]⟩ [(2, 1), (1, 0), (1, 1)] =
    some [[0, 0], [-90], [0]] := by decide +kernel

/-- **C57.** With one angle per call and nights that never go back: the angle of a call depends only on its night and on how many
calls of that night came before it. A restart between nights changes nothing. -/
theorem C57_per_call (lo hi : ℚ) (rng : ℕ → List ℚ) (fresh : ℕ → ℕ → ℚ) (draws : List ℚ)
    (calls : List (ℕ × ℤ)) (hc : (calls.map Prod.snd).Pairwise (· ≤ ·)) (outs : List (List ℚ))
    (h : rotRun .call lo hi rng fresh 0 ⟨none, 0, 0, draws⟩ calls = some outs) (i : ℕ) (c : ℕ × ℤ) (hi' : calls[i]? = some c) :
    ∃ u, (rng c.2.toNat)[(calls.take i).countP (fun d => d.2 == c.2)]? = some u ∧
      outs[i]? = some (List.replicate c.1 (u * (hi - lo) + lo)) := by
  have key : ∀ (calls done : List (ℕ × ℤ)) (k : ℕ) (s : Rot) (outs : List (List ℚ)), ((done ++ calls).map Prod.snd).Pairwise (· ≤ ·) →
      ((s.night = none ∧ done = []) ∨ ∃ n, s.night = some n ∧ s.draws = rng n.toNat ∧ s.callNum = done.countP (fun d => d.2 == n) ∧
        (∀ d ∈ done, d.2 ≤ n) ∧ ∃ d ∈ done, d.2 = n) →
      rotRun .call lo hi rng fresh k s calls = some outs → ∀ (i : ℕ) c, calls[i]? = some c →
      ∃ u, (rng c.2.toNat)[(done ++ calls.take i).countP (fun d => d.2 == c.2)]? = some u ∧
        outs[i]? = some (List.replicate c.1 (u * (hi - lo) + lo)) := by
    intro calls
    induction calls with
    | nil => intro done k s outs _ _ _ i c hi'; simp at hi'
    | cons a cs ih =>
      intro done k s outs hs hinv hr i c hi'
      have hcons : done ++ a :: cs = (done ++ [a]) ++ cs := by simp
      have hle : ∀ d ∈ done, d.2 ≤ a.2 := by
        intro d hd
        rw [List.map_append, List.pairwise_append] at hs
        exact hs.2.2 d.2 (List.mem_map_of_mem hd) a.2 (by simp)
      -- one call
      have hstep : ∀ s' r, rotOffsets .call lo hi rng (fresh k) s a.1 a.2 = some (s', r) →
          ∃ u, (rng a.2.toNat)[done.countP (fun d => d.2 == a.2)]? = some u ∧ r = List.replicate a.1 (u * (hi - lo) + lo) ∧
            s'.night = some a.2 ∧ s'.draws = rng a.2.toNat ∧ s'.callNum = done.countP (fun d => d.2 == a.2) + 1 := by
        intro s' r h
        unfold rotOffsets at h
        dsimp only at h
        by_cases hn : s.night = some a.2
        · rw [if_pos hn] at h
          dsimp only at h
          rcases hinv with ⟨h0, _⟩ | ⟨n, hn1, hn2, hn3, _⟩
          · rw [h0] at hn; cases hn
          · rw [hn1] at hn; cases hn
            rw [Option.map_eq_some_iff] at h
            obtain ⟨u, hu, e⟩ := h
            simp only [Prod.mk.injEq] at e
            rw [hn2, hn3] at hu
            refine ⟨u, hu, e.2.symm, ?_, ?_, ?_⟩
            · rw [← e.1]; exact hn1
            · rw [← e.1]; exact hn2
            · rw [← e.1]; simp only [hn3]
        · rw [if_neg hn] at h
          split at h
          · cases h
          · next s1 hs1 =>
            by_cases hneg : a.2 < 0
            · rw [if_pos hneg] at hs1; cases hs1
            · rw [if_neg hneg] at hs1
              simp only [Option.some.injEq] at hs1
              subst hs1
              have hzero : done.countP (fun d => d.2 == a.2) = 0 := by
                rw [List.countP_eq_zero]
                intro d hd
                rcases hinv with ⟨_, h0⟩ | ⟨n, hn1, _, _, hn4, d', hd', hd'n⟩
                · rw [h0] at hd; simp at hd
                · have g1 := hn4 d hd
                  have g2 : n ≠ a.2 := by rintro rfl; exact hn hn1
                  intro hda
                  rw [beq_iff_eq] at hda
                  have g3 := hle d' hd'
                  omega
              rw [Option.map_eq_some_iff] at h
              obtain ⟨u, hu, e⟩ := h
              simp only [Prod.mk.injEq] at e
              dsimp only at hu
              rw [hzero]
              refine ⟨u, hu, e.2.symm, ?_, ?_, ?_⟩ <;> rw [← e.1]
      unfold rotRun at hr
      cases e : rotOffsets .call lo hi rng (fresh k) s a.1 a.2 with
      | none => rw [e] at hr; cases hr
      | some p =>
        obtain ⟨s', r⟩ := p
        rw [e] at hr
        dsimp only at hr
        rw [Option.map_eq_some_iff] at hr
        obtain ⟨rs, hrs, rfl⟩ := hr
        obtain ⟨u, hu1, hu2, hu3, hu4, hu5⟩ := hstep s' r e
        cases i with
        | zero =>
          simp only [List.getElem?_cons_zero, Option.some.injEq] at hi'
          subst hi'
          refine ⟨u, by simpa using hu1, by simp [hu2]⟩
        | succ i =>
          rw [List.getElem?_cons_succ] at hi'
          have := ih (done ++ [a]) (k + 1) s' rs (by rw [← hcons]; exact hs)
            (.inr ⟨a.2, hu3, hu4, by rw [hu5, List.countP_append]; simp, fun d hd => by
              rcases List.mem_append.1 hd with hd | hd
              · exact hle d hd
              · rw [List.mem_singleton.1 hd], a, by simp, rfl⟩) hrs i c hi'
          rw [List.take_succ_cons, List.getElem?_cons_succ]
          simpa using this
  have := key calls [] 0 _ outs (by simpa using hc) (.inl ⟨rfl, rfl⟩) h i c hi'
  simpa using this

example : rotRun .call 0 100 (fun n => if n = 3 then [1 / 10, 2 / 10] else [3 / 10, 4 / 10]) (fun _ _ => 0) 0 ⟨none, 0, 0, []⟩ [(1, 3), (2, 3), (1, 4), (1, 4)] =
    some [[10], [20, 20], [30], [40]] := by decide +kernel

/-- **C57 fails** when more calls are made in a night than angles were drawn: the detailer raises. -/
theorem C57_raises : rotRun .call (-90) 90 (fun _ => [1 / 2]) (fun _ _ => 0) 0 ⟨none, 0, 0, []⟩ [(1, 3)] = some [[0]] ∧
    rotRun .call (-90) 90 (fun _ => [1 / 2]) (fun _ _ => 0) 0 ⟨none, 0, 0, []⟩ [(1, 3), (1, 3)] = none := by decide +kernel

/-! #### Small rotations -/

/-- What one run of visits in a band writes. -/
def written (lo hi pv : ℚ) (u : ℚ) (r : ℕ × ℤ) (i : ℕ) : ℚ := u * ((hi - lo) - pv * r.2) + lo + pv * ((i : ℚ) - r.1)

/-- The fold, from a given run on. -/
def rawFrom (lo hi pv : ℚ) (u : ℕ → ℚ) (k : ℕ) (off : ℕ → ℚ) (rs : List (ℕ × ℤ)) : ℕ → ℚ :=
  (rs.zipIdx k).foldl (fun off r => fun i =>
    if r.1.1 ≤ i then u r.2 * ((hi - lo) - pv * r.1.2) + lo + pv * ((i : ℚ) - r.1.1) else off i) off

theorem rawFrom_cons (lo hi pv : ℚ) (u : ℕ → ℚ) (k : ℕ) (off : ℕ → ℚ) (r : ℕ × ℤ) (rs : List (ℕ × ℤ)) :
    rawFrom lo hi pv u k off (r :: rs) =
    rawFrom lo hi pv u (k + 1) (fun i => if r.1 ≤ i then written lo hi pv (u k) r i else off i) rs := by
  unfold rawFrom written
  rw [List.zipIdx_cons, List.foldl_cons]

theorem runs_ge (len : ℕ) : ∀ (cs : List ℕ) (b : ℕ), (∀ c ∈ cs, b ≤ c) → ∀ r ∈ runs len cs, b ≤ r.1 := by
  intro cs
  induction cs with
  | nil => intro b _ r hr; simp [runs] at hr
  | cons a cs ih =>
    intro b hb r hr
    cases cs with
    | nil => simp [runs] at hr; rw [hr]; exact hb a (by simp)
    | cons a' cs =>
      simp only [runs, List.mem_cons] at hr
      rcases hr with rfl | hr
      · exact hb a (by simp)
      · exact ih b (fun c hc => hb c (List.mem_cons_of_mem _ hc)) r hr

theorem rawFrom_before (lo hi pv : ℚ) (u : ℕ → ℚ) (rs : List (ℕ × ℤ)) : ∀ (k : ℕ) (off : ℕ → ℚ) (i : ℕ), (∀ r ∈ rs, i < r.1) →
    rawFrom lo hi pv u k off rs i = off i := by
  induction rs with
  | nil => intros; rfl
  | cons r rs ih =>
    intro k off i h
    rw [rawFrom_cons, ih _ _ _ (fun r hr => h r (List.mem_cons_of_mem _ hr)), if_neg (by have := h r (by simp); omega)]

/-- The angle of a visit is that of the run it is in, and the next visit is in the same run unless
the band changes. -/
theorem rawFrom_value (lo hi pv : ℚ) (u : ℕ → ℚ) (len : ℕ) : ∀ (cs : List ℕ) (k : ℕ) (off : ℕ → ℚ) (i a : ℕ),
    cs.head? = some a → cs.Pairwise (· < ·) → (∀ c ∈ cs, c < len) → a ≤ i → i < len →
    ∃ (j : ℕ) (r : ℕ × ℤ), r.1 ≤ i ∧ (i : ℤ) - r.1 ≤ r.2 ∧ r.2 ≤ len ∧ rawFrom lo hi pv u k off (runs len cs) i = written lo hi pv (u j) r i ∧
      (i + 1 < len → i + 1 ∉ cs → rawFrom lo hi pv u k off (runs len cs) (i + 1) = written lo hi pv (u j) r (i + 1)) := by
  intro cs
  induction cs with
  | nil => intro k off i a h; cases h
  | cons c cs ih =>
    intro k off i a h hp hl hai hi'
    cases h
    cases cs with
    | nil =>
      refine ⟨k, (c, (len : ℤ) - 1 - c), hai, by dsimp only; omega, by dsimp only; omega, ?_, ?_⟩
      · simp only [runs]; rw [rawFrom_cons]; exact if_pos hai
      · intro _ _; simp only [runs]; rw [rawFrom_cons]; exact if_pos (by dsimp only; omega)
    | cons b cs =>
      simp only [runs]
      rw [rawFrom_cons]
      have hp' := List.pairwise_cons.1 hp
      have hbl := hl b (by simp)
      by_cases hb : b ≤ i
      · obtain ⟨j, r, h1, h2, h3, h4, h5⟩ := ih (k + 1) (fun i => if c ≤ i then written lo hi pv (u k) (c, (b : ℤ) - c) i else off i)
          i b rfl hp'.2 (fun x hx => hl x (List.mem_cons_of_mem _ hx)) hb hi'
        exact ⟨j, r, h1, h2, h3, h4, fun ha hb => h5 ha (fun hc => hb (List.mem_cons_of_mem _ hc))⟩
      · have hge : ∀ r ∈ runs len (b :: cs), b ≤ r.1 := by
          apply runs_ge
          intro x hx
          rcases List.mem_cons.1 hx with rfl | hx
          · exact le_refl _
          · exact ((List.pairwise_cons.1 hp'.2).1 x hx).le
        refine ⟨k, (c, (b : ℤ) - c), hai, by dsimp only; omega, by dsimp only; omega, ?_, ?_⟩
        · rw [rawFrom_before _ _ _ _ _ _ _ _ (fun r hr => by have := hge r hr; omega)]
          exact if_pos hai
        · intro h1 h2
          have : i + 1 ≠ b := by rintro rfl; simp at h2
          rw [rawFrom_before _ _ _ _ _ _ _ _ (fun r hr => by have := hge r hr; omega)]
          exact if_pos (by omega)

theorem changes_ok (bands : List String) (hne : bands ≠ []) : (changes bands).head? = some 0 ∧ (changes bands).Pairwise (· < ·) ∧
    (∀ c ∈ changes bands, c < bands.length) ∧
    ∀ i, i + 1 < bands.length → bands[i]? = bands[i + 1]? → i + 1 ∉ changes bands := by
  have hpos : 0 < bands.length := List.length_pos_iff.2 hne
  unfold changes
  refine ⟨rfl, ?_, ?_, ?_⟩
  · rw [List.pairwise_cons]
    constructor
    · intro x hx
      obtain ⟨y, _, rfl⟩ := List.mem_map.1 hx
      omega
    · rw [List.pairwise_map]
      exact (List.Pairwise.filter _ List.pairwise_lt_range).imp (by intro a b h; omega)
  · intro c hc
    rcases List.mem_cons.1 hc with rfl | hc
    · exact hpos
    · obtain ⟨y, hy, rfl⟩ := List.mem_map.1 hc
      have := List.mem_range.1 (List.mem_filter.1 hy).1
      omega
  · intro i hi e hc
    rcases List.mem_cons.1 hc with h | h
    · omega
    · obtain ⟨y, hy, hyi⟩ := List.mem_map.1 h
      have : y = i := by omega
      subst this
      have h2 := (List.mem_filter.1 hy).2
      rw [decide_eq_true_iff] at h2
      apply h2
      rw [List.getD_eq_getElem?_getD, List.getD_eq_getElem?_getD, e]

/-- **C57 (partial).** If a rotation per visit times the number of visits is at most the range, all angles
are within the limits, and consecutive visits in the same band differ by exactly that rotation. -/
theorem C57_small_partial (lo hi pv : ℚ) (u : ℕ → ℚ) (bands : List String) (h0 : 0 ≤ pv) (hpv : pv * bands.length ≤ hi - lo)
    (hu : ∀ k, Unit01 (u k)) :
    (smallRot lo hi pv u bands).length = bands.length ∧ (∀ x ∈ smallRot lo hi pv u bands, lo ≤ x ∧ x ≤ hi) ∧
    ∀ (i : ℕ) x y, (smallRot lo hi pv u bands)[i]? = some x → (smallRot lo hi pv u bands)[i + 1]? = some y →
      bands[i]? = bands[i + 1]? → y = x + pv := by
  by_cases hne : bands = []
  · subst hne; refine ⟨rfl, by simp [smallRot], by simp [smallRot]⟩
  obtain ⟨c1, c2, c3, c4⟩ := changes_ok bands hne
  have hb : ∀ (j : ℕ) (r : ℕ × ℤ) (i : ℕ), r.1 ≤ i → (i : ℤ) - r.1 ≤ r.2 → r.2 ≤ bands.length →
      lo ≤ written lo hi pv (u j) r i ∧ written lo hi pv (u j) r i ≤ hi := by
    intro j r i h1 h2 h3
    unfold written
    have q1 : (r.1 : ℚ) ≤ i := by exact_mod_cast h1
    have q2 : (i : ℚ) - r.1 ≤ r.2 := by exact_mod_cast h2
    have q3 : (r.2 : ℚ) ≤ bands.length := by exact_mod_cast h3
    have p1 : pv * r.2 ≤ pv * bands.length := mul_le_mul_of_nonneg_left q3 h0
    have p2 : 0 ≤ pv * ((i : ℚ) - r.1) := mul_nonneg h0 (by linarith)
    have p3 : pv * ((i : ℚ) - r.1) ≤ pv * r.2 := mul_le_mul_of_nonneg_left q2 h0
    have p4 : 0 ≤ (hi - lo) - pv * r.2 := by linarith
    have p5 := mul_nonneg (hu j).1 p4
    have p6 : u j * ((hi - lo) - pv * r.2) ≤ 1 * ((hi - lo) - pv * r.2) := mul_le_mul_of_nonneg_right (hu j).2.le p4
    constructor <;> linarith
  have hval : ∀ i, i < bands.length → (smallRot lo hi pv u bands)[i]? =
      some (min (rawFrom lo hi pv u 0 (fun _ => 0) (runs bands.length (changes bands)) i) hi) := by
    intro i hi'
    unfold smallRot
    rw [List.getElem?_map, List.getElem?_range hi']
    rfl
  have hlen : (smallRot lo hi pv u bands).length = bands.length := by unfold smallRot; simp
  refine ⟨hlen, ?_, ?_⟩
  · intro x hx
    obtain ⟨i, hi', rfl⟩ := List.mem_iff_getElem.1 hx
    rw [hlen] at hi'
    have := hval i hi'
    rw [List.getElem?_eq_getElem (by rw [hlen]; exact hi'), Option.some.injEq] at this
    obtain ⟨j, r, h1, h2, h3, h4, _⟩ := rawFrom_value lo hi pv u bands.length (changes bands) 0 (fun _ => 0) i 0 c1 c2 c3 (Nat.zero_le _) hi'
    have hw := hb j r i h1 h2 h3
    rw [this, h4, min_eq_left hw.2]
    exact hw
  · intro i x y hx hy e
    have hi1 : i + 1 < bands.length := by
      have := (List.getElem?_eq_some_iff.1 hy).1
      rwa [hlen] at this
    obtain ⟨j, r, h1, h2, h3, h4, h5⟩ := rawFrom_value lo hi pv u bands.length (changes bands) 0 (fun _ => 0) i 0 c1 c2 c3 (Nat.zero_le _) (by omega)
    have h6 := h5 hi1 (c4 i hi1 e)
    obtain ⟨j', r', g1, g2, g3, g4, _⟩ := rawFrom_value lo hi pv u bands.length (changes bands) 0 (fun _ => 0) (i + 1) 0 c1 c2 c3 (Nat.zero_le _) hi1
    have hw := hb j r i h1 h2 h3
    have hw' := hb j' r' (i + 1) g1 g2 g3
    rw [← g4, h6] at hw'
    rw [hval i (by omega), h4, min_eq_left hw.2, Option.some.injEq] at hx
    rw [hval (i + 1) hi1, h6, min_eq_left hw'.2, Option.some.injEq] at hy
    rw [← hx, ← hy]
    unfold written
    push_cast
    ring

/-- **C57 (partial).** The upper limit holds in any case. -/
theorem C57_small_max_partial (lo hi pv : ℚ) (u : ℕ → ℚ) (bands : List String) : ∀ x ∈ smallRot lo hi pv u bands, x ≤ hi := by
  intro x hx
  obtain ⟨i, _, rfl⟩ := List.mem_map.1 hx
  exact min_le_right _ _

example : smallRot (-80) 80 10 (fun k => if k = 0 then 0 else 1 / 2) ["r", "r", "g", "g", "g"] = [-80, -70, -10, 0, 10] := by decide +kernel

/-- **C57 fails** for a large rotation per visit: the angle is below the lower limit. -/
theorem C57_small_violated : smallRot (-80) 80 100 (fun _ => 1 / 2) ["r", "r", "r"] = [-100, 0, 80] := by decide +kernel

end Verif
