import Verif.Lemmas.Features

/-!
Property C33: counting features give the same value for a history loaded in bulk or visit by
visit.  `h1` is what was reported visit by visit before, `h2` the batch; with `h1 = []` the
batch is the whole history.
-/

namespace Verif

open Feat

theorem chrono_pair {h1 h2 : List Vis} (hc : Chrono (h1 ++ h2)) : Chrono h2 := (List.pairwise_append.1 hc).2.1

/-! ### NoteInNight -/

theorem noteInNight_night (notes : Option (List String)) (s : NoteInNight) (v : Vis) :
    (NoteInNight.one notes s v).night = v.night := by
  unfold NoteInNight.one
  by_cases h : s.night = v.night <;> by_cases hw : NoteInNight.wanted notes v = true <;> simp [h, hw]

theorem noteInNight_bulk (notes : Option (List String)) (s : NoteInNight) (h : List Vis) (hc : Chrono h)
    (hs : s.count = 0 ∨ ∀ v ∈ h, s.night ≤ v.night) :
    NoteInNight.bulk notes s h = h.foldl (NoteInNight.one notes) s := by
  apply bulk_eq_foldl (NoteInNight.one notes) (NoteInNight.bulk notes)
    (fun h => Chrono h ∧ (s.count = 0 ∨ ∀ v ∈ h, s.night ≤ v.night)) s (by simp [NoteInNight.bulk])
  · rintro h v ⟨h1, h2⟩
    exact ⟨(chrono_snoc h1).1, h2.imp_right (fun h2 u hu => h2 u (by simp [hu]))⟩
  · rintro h v ⟨h1, h2⟩
    obtain ⟨-, hle⟩ := chrono_snoc h1
    cases hl : h.getLast? with
    | none =>
      have : h = [] := by simpa using hl
      subst this
      obtain ⟨sn, sc⟩ := s
      by_cases hn : sn = v.night <;> by_cases hw : NoteInNight.wanted notes v = true <;>
        simp [NoteInNight.bulk, NoteInNight.one, hn, hw]
    | some l =>
      have hlm : l ∈ h := List.mem_of_getLast? hl
      by_cases hv : l.night = v.night
      · have e : h.filter (fun u => u.night == v.night) = h.filter (fun u => u.night == l.night) := by rw [hv]
        by_cases hw : NoteInNight.wanted notes v = true <;> by_cases hn : s.night = l.night <;>
          simp [NoteInNight.bulk, NoteInNight.one, hl, hw, ← hv, hn, List.filter_append, Nat.add_assoc]
      · have hlt : l.night < v.night := lt_of_le_of_ne (hle l hlm).2 hv
        have hnone : h.filter (fun u => u.night == v.night) = [] := by
          rw [List.filter_eq_nil_iff]
          intro u hu
          have : u.night ≤ l.night := by
            have hp := (chrono_snoc h1).1
            obtain ⟨i, rfl⟩ : ∃ i, h = i ++ [l] := by
              obtain ⟨i, hi⟩ := List.getLast?_eq_some_iff.1 hl
              exact ⟨i, hi⟩
            rcases List.mem_append.1 hu with hu | hu
            · exact ((chrono_snoc hp).2 u hu).2
            · rw [List.mem_singleton.1 hu]
          simp; omega
        have hs' : s.count = 0 ∨ s.night ≠ v.night := by
          rcases h2 with h2 | h2
          · exact .inl h2
          · right
            have := h2 l (by simp [hlm])
            omega
        rcases hs' with hs' | hs'
        · by_cases hw : NoteInNight.wanted notes v = true <;> by_cases hn : s.night = v.night <;>
            by_cases hn' : s.night = l.night <;>
            simp [NoteInNight.bulk, NoteInNight.one, hl, hw, hnone, List.filter_append, hv, hs', hn, hn'] <;> simp_all
        · by_cases hw : NoteInNight.wanted notes v = true <;>
            by_cases hn' : s.night = l.night <;>
            simp [NoteInNight.bulk, NoteInNight.one, hl, hw, hnone, List.filter_append, hv, hs', hn'] <;> simp_all
  · exact ⟨hc, hs⟩

/-- C33, visits with a note in the current night. -/
theorem C33_note_in_night (notes : Option (List String)) (h1 h2 : List Vis) (hc : Chrono (h1 ++ h2)) :
    NoteInNight.bulk notes (h1.foldl (NoteInNight.one notes) NoteInNight.init) h2 =
      (h1 ++ h2).foldl (NoteInNight.one notes) NoteInNight.init := by
  rw [List.foldl_append]
  apply noteInNight_bulk notes _ _ (chrono_pair hc)
  cases h1 using List.reverseRecOn with
  | nil => left; rfl
  | append_singleton h v =>
    right
    intro u hu
    rw [List.foldl_append]
    simp only [List.foldl_cons, List.foldl_nil, noteInNight_night]
    exact ((List.pairwise_append.1 hc).2.2 v (by simp) u hu).2

/-! ### NObsCount -/

theorem nObsCount_band {c : NObsCount.Cfg} {h : List Vis} (hl : Letters c.band h) {v : Vis} (hv : v ∈ h) :
    NObsCount.bandOne c v = NObsCount.bandBulk c v := by
  unfold NObsCount.bandOne NObsCount.bandBulk
  cases hb : c.band with
  | none => rfl
  | some b => exact isIn_letters (hl.2 v hv) (hl.1 b (by rw [hb]; rfl))

theorem nObsCount_bulk (c : NObsCount.Cfg) (s : NObsCount) (h : List Vis) (hc : Chrono h) (hl : Letters c.band h)
    (hs : c.perNight = true → s.count = 0 ∨ ∀ v ∈ h, v.night = s.night) :
    NObsCount.bulk c s h = h.foldl (NObsCount.one c) s := by
  apply bulk_eq_foldl (NObsCount.one c) (NObsCount.bulk c)
    (fun h => Chrono h ∧ Letters c.band h ∧ (c.perNight = true → s.count = 0 ∨ ∀ v ∈ h, v.night = s.night)) s
    (by simp [NObsCount.bulk, NObsCount.maxNight])
  · rintro h v ⟨h1, h2, h3⟩
    refine ⟨(chrono_snoc h1).1, ⟨h2.1, fun u hu => h2.2 u (by simp [hu])⟩, fun hp => (h3 hp).imp_right ?_⟩
    exact fun h2 u hu => h2 u (by simp [hu])
  · rintro h v ⟨h1, h2, h3⟩
    obtain ⟨hch, hle⟩ := chrono_snoc h1
    have hb : NObsCount.bandOne c v = NObsCount.bandBulk c v := nObsCount_band h2 (by simp)
    have hmax : NObsCount.maxNight (h ++ [v]) = some v.night := maxNight_snoc (fun u hu => (hle u hu).2)
    cases hp : c.perNight with
    | false =>
      cases hm : NObsCount.maxNight h with
      | none =>
        have : h = [] := by simpa [NObsCount.maxNight] using hm
        subst this
        rw [List.nil_append] at hmax ⊢
        by_cases hw : (NObsCount.bandBulk c v && NObsCount.noteOk c v) = true <;>
          simp [NObsCount.bulk, NObsCount.one, hmax, hm, hb, hw, hp]
      | some m =>
        by_cases hw : (NObsCount.bandBulk c v && NObsCount.noteOk c v) = true <;>
          simp [NObsCount.bulk, NObsCount.one, hmax, hm, hb, hw, hp, Nat.add_assoc]
    | true =>
      have h3 := h3 hp
      cases h using List.reverseRecOn with
      | nil =>
        have hm : NObsCount.maxNight [] = none := rfl
        rw [List.nil_append] at hmax ⊢
        obtain ⟨sn, sc⟩ := s
        simp only at h3
        rcases h3 with h3 | h3
        · subst h3
          by_cases hw : (NObsCount.bandBulk c v && NObsCount.noteOk c v) = true <;>
          by_cases hn : v.night = sn <;>
          simp [NObsCount.bulk, NObsCount.one, hm, hmax, hb, hw, hp, hn]
        · have hn := h3 v (by simp)
          by_cases hw : (NObsCount.bandBulk c v && NObsCount.noteOk c v) = true <;>
          simp [NObsCount.bulk, NObsCount.one, hm, hmax, hb, hw, hp, hn]
      | append_singleton g l =>
        have hm : NObsCount.maxNight (g ++ [l]) = some l.night := maxNight_snoc (fun u hu => ((chrono_snoc hch).2 u hu).2)
        by_cases hv : l.night = v.night
        · have : NObsCount.bulk c s (g ++ [l] ++ [v]) = NObsCount.one c (NObsCount.bulk c s (g ++ [l])) v := by
            unfold NObsCount.bulk NObsCount.one
            rw [hmax, hm]
            simp only [hp, if_true, hv, Bool.true_and, ne_eq, decide_eq_true_eq, not_true, if_false, hb]
            by_cases hw : (NObsCount.bandBulk c v && NObsCount.noteOk c v) = true <;>
              simp [List.filter_append, hw, hv, List.countP_cons] <;> omega
          exact this
        · have hlt : l.night < v.night := lt_of_le_of_ne (hle l (by simp)).2 hv
          have h0 : s.count = 0 := by
            rcases h3 with h3 | h3
            · exact h3
            · have e1 := h3 l (by simp)
              have e2 := h3 v (by simp)
              omega
          have hnone : (g ++ [l]).filter (fun u => u.night == v.night) = [] := by
            rw [List.filter_eq_nil_iff]
            intro u hu
            have : u.night ≤ l.night := by
              rcases List.mem_append.1 hu with hu | hu
              · exact ((chrono_snoc hch).2 u hu).2
              · rw [List.mem_singleton.1 hu]
            simp; omega
          have : NObsCount.bulk c s (g ++ [l] ++ [v]) = NObsCount.one c (NObsCount.bulk c s (g ++ [l])) v := by
            unfold NObsCount.bulk NObsCount.one
            rw [hmax, hm]
            have hv' : ¬ v.night = l.night := fun h => hv h.symm
            simp only [hp, if_true, Bool.true_and, ne_eq, decide_eq_true_eq, hv', not_false_eq_true, hb]
            rw [List.filter_append, hnone]
            by_cases hw : (NObsCount.bandBulk c v && NObsCount.noteOk c v) = true <;> simp [hw, h0]
          exact this
  · exact ⟨hc, hl, hs⟩

theorem nObsCount_night (c : NObsCount.Cfg) (hp : c.perNight = true) (s : NObsCount) (v : Vis) :
    (NObsCount.one c s v).night = v.night := by
  unfold NObsCount.one
  by_cases h : v.night = s.night <;> by_cases hw : (NObsCount.bandOne c v && NObsCount.noteOk c v) = true <;>
    simp [h, hw, hp]

/-- C33, number of visits (whole sky). Missing: counting per night when earlier nights were
reported before (`C33_count_per_night_violated`), and band names that are not single letters
(`C33_count_bands_violated`). -/
theorem C33_count_partial (c : NObsCount.Cfg) (h1 h2 : List Vis) (hc : Chrono (h1 ++ h2)) (hl : Letters c.band h2)
    (hn : c.perNight = true → ∀ u ∈ h1, ∀ v ∈ h2, u.night = v.night) :
    NObsCount.bulk c (h1.foldl (NObsCount.one c) NObsCount.init) h2 =
      (h1 ++ h2).foldl (NObsCount.one c) NObsCount.init := by
  rw [List.foldl_append]
  apply nObsCount_bulk c _ _ (chrono_pair hc) hl
  intro hp
  cases h1 using List.reverseRecOn with
  | nil => left; rfl
  | append_singleton h u =>
    right
    intro v hv
    rw [List.foldl_append]
    simp only [List.foldl_cons, List.foldl_nil, nObsCount_night c hp]
    exact (hn hp u (by simp) v hv).symm

/-- A visit for the examples. -/
def vis (id : ℕ) (mjd : ℚ) (night : ℤ) (band note : String) (pix : List ℕ) : Vis :=
  ⟨id, mjd, night, band, note, "", some 1, 24, 0, 0, pix⟩

/-- C33 fails for the code when counting per night: the count of an earlier night is kept. -/
theorem C33_count_per_night_violated :
    NObsCount.bulk ⟨none, none, true⟩
      ([vis 1 10 1 "r" "a" [], vis 2 10.1 1 "r" "a" []].foldl (NObsCount.one ⟨none, none, true⟩) NObsCount.init)
      [vis 3 11 2 "r" "a" [], vis 4 11.1 2 "r" "a" []] = ⟨2, 4⟩ ∧
    [vis 1 10 1 "r" "a" [], vis 2 10.1 1 "r" "a" [], vis 3 11 2 "r" "a" [], vis 4 11.1 2 "r" "a" []].foldl
      (NObsCount.one ⟨none, none, true⟩) NObsCount.init = ⟨2, 2⟩ := by
  decide +kernel

/-- C33 fails for the code with a string of several bands: one path looks for the band in the
string, the other compares. -/
theorem C33_count_bands_violated :
    NObsCount.bulk ⟨none, some "gr", false⟩ NObsCount.init [vis 1 10 1 "r" "a" [], vis 2 10.1 1 "g" "a" []] = ⟨-1, 0⟩ ∧
    [vis 1 10 1 "r" "a" [], vis 2 10.1 1 "g" "a" []].foldl (NObsCount.one ⟨none, some "gr", false⟩) NObsCount.init =
      ⟨-1, 2⟩ := by
  decide +kernel

/-! ### NObservations -/

/-- The seeing is not at the limit (within the tolerance), if there is one; the limit is one
number. -/
def SeeingClear (c : NObservations.Cfg) (h : List Vis) : Prop :=
  match c.limit with
  | none => True
  | some (.scalar x) => x ≠ 0 ∧ ∀ v ∈ h, Clear x (v.seeing.getD c.fill)
  | some (.map _) => False

/-- The visits that count for a pixel: in the band, with seeing better than the limit, with a
note that is part of the wanted note, covering the pixel. -/
def Counts (c : NObservations.Cfg) (p : ℕ) (v : Vis) : Prop :=
  InBand c.band v ∧ (∀ x, c.limit = some (.scalar x) → v.seeing.getD c.fill < x) ∧ (∀ n ∈ c.note, isIn v.note n) ∧
  p ∈ v.pix

theorem clear_ne {g x : ℚ} (h : Clear g x) : x ≠ g := by
  rintro rfl
  unfold Clear at h
  rw [sub_self, abs_zero] at h
  have : (0 : ℚ) ≤ Tol.default.limit * |x| := mul_nonneg (by norm_num [Tol.default]) (abs_nonneg _)
  linarith

open Classical in
theorem nObservations_one (c : NObservations.Cfg) (v : Vis) (hl : Letters c.band [v]) (hs : SeeingClear c [v]) (s : ℕ → ℕ)
    (p : ℕ) : NObservations.one c s v p = s p + if Counts c p v then 1 else 0 := by
  have hband : NObservations.bandOne c v = true ↔ InBand c.band v := by
    unfold NObservations.bandOne InBand
    cases hb : c.band with
    | none => simp
    | some b =>
      simp only [Option.mem_def, Option.some.injEq, forall_eq']
      rw [isIn_letters (hl.2 v (by simp)) (hl.1 b (by rw [hb]; rfl))]; simp
  have hsee : NObservations.seeOne c v = true ↔ ∀ x, c.limit = some (.scalar x) → v.seeing.getD c.fill < x := by
    unfold NObservations.seeOne
    unfold SeeingClear at hs
    cases hlim : c.limit with
    | none => simp
    | some l =>
      rw [hlim] at hs
      cases l with
      | map f => exact hs.elim
      | scalar x =>
        obtain ⟨h0, h1⟩ := hs
        have := h1 v (by simp)
        have hc := leS_const x h0 _ this
        have hne := clear_ne this
        simp only [NObservations.see, hc, decide_eq_true_eq, Option.some.injEq, NObservations.Limit.scalar.injEq, forall_eq']
        exact ⟨fun h => lt_of_le_of_ne h hne, le_of_lt⟩
  have hnote : NObservations.noteOk c v = true ↔ ∀ n ∈ c.note, isIn v.note n = true := by
    unfold NObservations.noteOk
    cases c.note <;> simp
  unfold NObservations.one
  by_cases hall : (NObservations.bandOne c v && NObservations.seeOne c v && NObservations.noteOk c v) = true
  · rw [if_pos hall]
    simp only [Bool.and_eq_true] at hall
    by_cases hp : p ∈ v.pix
    · rw [if_pos hp, if_pos ⟨hband.1 hall.1.1, hsee.1 hall.1.2, hnote.1 hall.2, hp⟩]
    · rw [if_neg hp, if_neg (fun h => hp h.2.2.2)]; simp
  · rw [if_neg hall, if_neg]
    · simp
    · intro h
      apply hall
      simp only [Bool.and_eq_true]
      exact ⟨⟨hband.2 h.1, hsee.2 h.2.1⟩, hnote.2 h.2.2.1⟩

open Classical in
/-- What the single path counts: exactly the visits that count. -/
theorem nObservations_foldl (c : NObservations.Cfg) (p : ℕ) : ∀ (h : List Vis) (s : ℕ → ℕ), Letters c.band h →
    SeeingClear c h → h.foldl (NObservations.one c) s p = s p + h.countP (fun v => decide (Counts c p v)) := by
  intro h
  induction h with
  | nil => intro s _ _; simp
  | cons v h ih =>
    intro s hl hs
    have hl1 : Letters c.band [v] := ⟨hl.1, fun u hu => hl.2 u (by simp at hu; simp [hu])⟩
    have hl2 : Letters c.band h := ⟨hl.1, fun u hu => hl.2 u (by simp [hu])⟩
    have hs1 : SeeingClear c [v] := by
      unfold SeeingClear at hs ⊢
      cases hlim : c.limit with
      | none => trivial
      | some l =>
        rw [hlim] at hs
        cases l with
        | map f => exact hs
        | scalar x => exact ⟨hs.1, fun u hu => hs.2 u (by simp at hu; simp [hu])⟩
    have hs2 : SeeingClear c h := by
      unfold SeeingClear at hs ⊢
      cases hlim : c.limit with
      | none => trivial
      | some l =>
        rw [hlim] at hs
        cases l with
        | map f => exact hs
        | scalar x => exact ⟨hs.1, fun u hu => hs.2 u (by simp [hu])⟩
    rw [List.foldl_cons, ih _ hl2 hs2, nObservations_one c v hl1 hs1, List.countP_cons]
    by_cases hcv : Counts c p v <;> simp [hcv] <;> omega

open Classical in
/-- What the bulk path counts: exactly the visits that count. -/
theorem nObservations_bulk (c : NObservations.Cfg) (h : List Vis) (s : ℕ → ℕ) (hf : Footprints h)
    (hs : SeeingClear c h) (p : ℕ) :
    NObservations.bulk c s h p = s p + h.countP (fun v => decide (Counts c p v)) := by
  have hbad : NObservations.bad c (rows h) =
      (rows h).map (fun r => decide (∃ x, c.limit = some (.scalar x) ∧ x ≤ r.2.seeing.getD c.fill)) := by
    unfold NObservations.bad
    unfold SeeingClear at hs
    cases hlim : c.limit with
    | none => simp
    | some l =>
      rw [hlim] at hs
      cases l with
      | map f => exact hs.elim
      | scalar x =>
        simp only
        have : (rows h).map (fun r => (NObservations.see c r.2, x)) =
            ((rows h).map (fun r => NObservations.see c r.2)).map (fun d => (d, x)) := by rw [List.map_map]; rfl
        rw [this, geA_const x hs.1, List.map_map]
        · apply List.map_congr_left
          intro r _
          simp only [Function.comp, NObservations.see, Option.some.injEq, NObservations.Limit.scalar.injEq,
            exists_eq_left']
          congr
        · intro d hd
          obtain ⟨r, hr, rfl⟩ := List.mem_map.1 hd
          exact hs.2 r.2 (mem_rows.1 hr).1
  unfold NObservations.bulk
  congr 1
  rw [hbad]
  have hz : ∀ (f : ℕ × Vis → Bool) (l : List (ℕ × Vis)), l.zip (l.map f) = l.map (fun r => (r, f r)) := by
    intro f l
    induction l with
    | nil => rfl
    | cons a l ih => simp [ih]
  rw [hz, List.filter_map, List.map_map]
  simp only [Function.comp_def, List.map_id']
  rw [binCount_rows (fun _ v => !decide (∃ x, c.limit = some (.scalar x) ∧ x ≤ v.seeing.getD c.fill) &&
    NObservations.bandBulk c v && NObservations.noteOk c v) p h hf]
  apply List.countP_congr
  intro v hv
  have hband : NObservations.bandBulk c v = true ↔ InBand c.band v := by
    unfold NObservations.bandBulk InBand
    cases hb : c.band with
    | none => simp
    | some b => simp
  have hnote : NObservations.noteOk c v = true ↔ ∀ n ∈ c.note, isIn v.note n = true := by
    unfold NObservations.noteOk
    cases c.note <;> simp
  simp only [Bool.and_eq_true, Bool.not_eq_true', decide_eq_false_iff_not, decide_eq_true_eq, hband, hnote,
    not_exists, not_and, not_le]
  unfold Counts
  tauto

/-- C33, number of visits of each pixel: the batch gives the same as single visits, and both
are the number of visits that count. Missing: seeing exactly at the limit and limits that
vary over the sky (`C33_seeing_limit_violated`, `C33_seeing_map_violated`), band names of
several letters. -/
theorem C33_per_pixel_partial (c : NObservations.Cfg) (h1 h2 : List Vis) (hl : Letters c.band (h1 ++ h2))
    (hf : Footprints h2) (hs : SeeingClear c (h1 ++ h2)) :
    NObservations.bulk c (h1.foldl (NObservations.one c) (fun _ => 0)) h2 =
      (h1 ++ h2).foldl (NObservations.one c) (fun _ => 0) ∧
    ∀ p, ∀ _dec : DecidablePred (Counts c p),
      (h1 ++ h2).foldl (NObservations.one c) (fun _ => 0) p = (h1 ++ h2).countP (fun v => decide (Counts c p v)) := by
  have hl2 : Letters c.band h2 := ⟨hl.1, fun u hu => hl.2 u (by simp [hu])⟩
  have hs2 : SeeingClear c h2 := by
    unfold SeeingClear at hs ⊢
    cases hlim : c.limit with
    | none => trivial
    | some l =>
      rw [hlim] at hs
      cases l with
      | map f => exact hs
      | scalar x => exact ⟨hs.1, fun u hu => hs.2 u (by simp [hu])⟩
  constructor
  · funext p
    rw [nObservations_bulk c h2 _ hf hs2, List.foldl_append, nObservations_foldl c p h2 _ hl2 hs2]
  · intro p dec
    rw [nObservations_foldl c p _ _ hl hs, Nat.zero_add]
    congr 1
    funext v
    congr

/-- C33 fails for the code at the seeing limit: a visit with exactly that seeing is counted
when reported by itself and not in a batch. -/
theorem C33_seeing_limit_violated :
    NObservations.one ⟨none, none, some (.scalar 1), 100⟩ (fun _ => 0) (vis 1 10 1 "r" "a" [7]) 7 = 1 ∧
    NObservations.bulk ⟨none, none, some (.scalar 1), 100⟩ (fun _ => 0) [vis 1 10 1 "r" "a" [7]] 7 = 0 := by
  decide +kernel

/-- C33 fails for the code with a map of limits: reported by itself, a visit that is good enough for one
of its pixels is counted for all of them. -/
theorem C33_seeing_map_violated :
    let c : NObservations.Cfg := ⟨none, none, some (.map (fun p => if p = 7 then 2 else 0.5)), 100⟩
    NObservations.one c (fun _ => 0) (vis 1 10 1 "r" "a" [7, 8]) 8 = 1 ∧
    NObservations.bulk c (fun _ => 0) [vis 1 10 1 "r" "a" [7, 8]] 8 = 0 := by
  decide +kernel

/-- C33 fails for the code with a string of all the bands that can count: a batch counts none of
them. -/
theorem C33_per_pixel_bands_violated :
    NObservations.one ⟨some "gr", none, none, 100⟩ (fun _ => 0) (vis 1 10 1 "r" "a" [7]) 7 = 1 ∧
    NObservations.bulk ⟨some "gr", none, none, 100⟩ (fun _ => 0) [vis 1 10 1 "r" "a" [7]] 7 = 0 := by
  decide +kernel

/-! ### NObsNight -/

theorem nObsNight_band {b : Option String} {h : List Vis} (hl : Letters b h) {v : Vis} (hv : v ∈ h) :
    NObsNight.bandOne b v = NObsNight.bandBulk b v := by
  unfold NObsNight.bandOne NObsNight.bandBulk
  cases hb : b with
  | none => rfl
  | some x =>
    have hx := hl.1 x (by rw [hb]; rfl)
    have : (x == "") = false := by
      rw [beq_eq_false_iff_ne]
      rintro rfl
      obtain ⟨c, hc⟩ := hx
      simp at hc
    simp only [this, Bool.false_or]
    exact isIn_letters (hl.2 v hv) hx

theorem binCount_append (a b : List (ℕ × Vis)) (p : ℕ) : binCount (a ++ b) p = binCount a p + binCount b p := by
  simp [binCount]

theorem turn_same {s : NObsNight} {n : ℤ} (h : s.night = some n) : NObsNight.turn s n = s := by
  unfold NObsNight.turn
  rw [if_neg]
  simp [h]

theorem turn_new {s : NObsNight} {n : ℤ} (h : s.night ≠ some n) : NObsNight.turn s n = ⟨some n, fun _ => 0⟩ := by
  unfold NObsNight.turn
  rw [if_pos]
  exact fun e => h e.symm

theorem nObsNight_bulk (b : Option String) (s : NObsNight) (h : List Vis) (hc : Chrono h) (hl : Letters b h)
    (hf : Footprints h) (hs : s.night = none ∧ s.count = (fun _ => 0) ∨ ∀ v ∈ h, ∃ n, s.night = some n ∧ n ≤ v.night) :
    NObsNight.bulk b s h = h.foldl (NObsNight.one b) s := by
  apply bulk_eq_foldl (NObsNight.one b) (NObsNight.bulk b)
    (fun h => Chrono h ∧ Letters b h ∧ Footprints h ∧
      (s.night = none ∧ s.count = (fun _ => 0) ∨ ∀ v ∈ h, ∃ n, s.night = some n ∧ n ≤ v.night)) s
    (by simp [NObsNight.bulk])
  · rintro h v ⟨h1, h2, h3, h4⟩
    exact ⟨(chrono_snoc h1).1, ⟨h2.1, fun u hu => h2.2 u (by simp [hu])⟩, fun u hu => h3 u (by simp [hu]),
      h4.imp_right (fun h4 u hu => h4 u (by simp [hu]))⟩
  · rintro h v ⟨h1, h2, h3, h4⟩
    obtain ⟨hch, hle⟩ := chrono_snoc h1
    have hb : NObsNight.bandOne b v = NObsNight.bandBulk b v := nObsNight_band h2 (by simp)
    have hmax : ((h ++ [v]).map Vis.night).max? = some v.night := maxNight_snoc (fun u hu => (hle u hu).2)
    have hlast : ∀ p, binCount ((rows [v]).filter (fun r => NObsNight.bandBulk b r.2 && r.2.night == v.night)) p =
        if NObsNight.bandBulk b v = true ∧ p ∈ v.pix then 1 else 0 := by
      intro p
      rw [binCount_rows (fun _ u => NObsNight.bandBulk b u && u.night == v.night) p [v]
        (fun u hu => h3 u (by simp at hu; simp [hu]))]
      simp only [List.countP_cons, List.countP_nil, Nat.zero_add]
      by_cases hw : NObsNight.bandBulk b v = true <;> by_cases hp : p ∈ v.pix <;> simp [hw, hp]
    cases h using List.reverseRecOn with
    | nil =>
      have e : NObsNight.bulk b s [] = s := by simp [NObsNight.bulk]
      rw [e]
      unfold NObsNight.bulk NObsNight.one
      rw [hmax, hb]
      simp only [List.nil_append]
      by_cases hw : NObsNight.bandBulk b v = true
      · rw [if_pos hw]
        congr 1
        funext p
        rw [hlast]
        by_cases hp : p ∈ v.pix <;> simp [hw, hp]
      · rw [if_neg hw]
        have : (fun p => (NObsNight.turn s v.night).count p + binCount ((rows [v]).filter
            (fun r => NObsNight.bandBulk b r.2 && r.2.night == v.night)) p) = (NObsNight.turn s v.night).count := by
          funext p; rw [hlast]; simp [hw]
        rw [this]
    | append_singleton g l =>
      have hm : ((g ++ [l]).map Vis.night).max? = some l.night := maxNight_snoc (fun u hu => ((chrono_snoc hch).2 u hu).2)
      have hB : NObsNight.bulk b s (g ++ [l]) = ⟨(NObsNight.turn s l.night).night, fun p => (NObsNight.turn s l.night).count p +
          binCount ((rows (g ++ [l])).filter (fun r => NObsNight.bandBulk b r.2 && r.2.night == l.night)) p⟩ := by
        unfold NObsNight.bulk; rw [hm]
      have hB' : NObsNight.bulk b s (g ++ [l] ++ [v]) = ⟨(NObsNight.turn s v.night).night, fun p => (NObsNight.turn s v.night).count p +
          binCount ((rows (g ++ [l] ++ [v])).filter (fun r => NObsNight.bandBulk b r.2 && r.2.night == v.night)) p⟩ := by
        unfold NObsNight.bulk; rw [hmax]
      have hturn : ∀ n, (NObsNight.turn s n).night = some n := by
        intro n
        unfold NObsNight.turn
        by_cases hn : some n = s.night <;> simp [hn]
      rw [hB, hB']
      by_cases hv : l.night = v.night
      · have ht : NObsNight.turn (⟨(NObsNight.turn s l.night).night, fun p => (NObsNight.turn s l.night).count p +
            binCount ((rows (g ++ [l])).filter (fun r => NObsNight.bandBulk b r.2 && r.2.night == l.night)) p⟩ : NObsNight)
            v.night = ⟨(NObsNight.turn s l.night).night, fun p => (NObsNight.turn s l.night).count p +
            binCount ((rows (g ++ [l])).filter (fun r => NObsNight.bandBulk b r.2 && r.2.night == l.night)) p⟩ := by
          exact turn_same (by rw [← hv]; exact hturn l.night)
        unfold NObsNight.one
        simp only [ht]
        rw [hb, hv]
        by_cases hw : NObsNight.bandBulk b v = true
        · rw [if_pos hw]
          congr 1
          funext p
          rw [rows_append, List.filter_append, binCount_append, hlast]
          by_cases hp : p ∈ v.pix <;> simp [hw, hp, Nat.add_assoc]
        · rw [if_neg hw]
          congr 1
          funext p
          rw [rows_append, List.filter_append, binCount_append, hlast]
          simp [hw]
      · have hlt : l.night < v.night := lt_of_le_of_ne (hle l (by simp)).2 hv
        have ht : NObsNight.turn (⟨(NObsNight.turn s l.night).night, fun p => (NObsNight.turn s l.night).count p +
            binCount ((rows (g ++ [l])).filter (fun r => NObsNight.bandBulk b r.2 && r.2.night == l.night)) p⟩ : NObsNight)
            v.night = ⟨some v.night, fun _ => 0⟩ := by
          exact turn_new (by rw [hturn l.night]; simpa using hv)
        have hnew : NObsNight.turn s v.night = ⟨some v.night, fun _ => 0⟩ := by
          unfold NObsNight.turn
          rcases h4 with h4 | h4
          · rw [if_pos]; rw [h4.1]; simp
          · obtain ⟨n, hn, hle'⟩ := h4 l (by simp)
            rw [if_pos]; rw [hn]; simp; omega
        have hold : (rows (g ++ [l])).filter (fun r => NObsNight.bandBulk b r.2 && r.2.night == v.night) = [] := by
          rw [List.filter_eq_nil_iff]
          intro r hr
          have : r.2.night ≤ l.night := by
            rcases List.mem_append.1 (mem_rows.1 hr).1 with hu | hu
            · exact ((chrono_snoc hch).2 _ hu).2
            · rw [List.mem_singleton.1 hu]
          simp; omega
        unfold NObsNight.one
        simp only [ht]
        rw [hb, hnew]
        simp only [Nat.zero_add]
        by_cases hw : NObsNight.bandBulk b v = true
        · rw [if_pos hw]
          congr 1
          funext p
          rw [rows_append, List.filter_append, hold, List.nil_append, hlast]
          by_cases hp : p ∈ v.pix <;> simp [hw, hp]
        · rw [if_neg hw]
          congr 1
          funext p
          rw [rows_append, List.filter_append, hold, List.nil_append, hlast]
          simp [hw]
  · exact ⟨hc, hl, hf, hs⟩

theorem nObsNight_night (b : Option String) (s : NObsNight) (v : Vis) : (NObsNight.one b s v).night = some v.night := by
  have hturn : (NObsNight.turn s v.night).night = some v.night := by
    unfold NObsNight.turn
    by_cases hn : some v.night = s.night <;> simp [hn]
  unfold NObsNight.one
  simp only
  split <;> exact hturn

/-- C33, visits of each pixel in the current night. Missing: band names that are not single
letters (`C33_night_bands_violated`). -/
theorem C33_night_partial (b : Option String) (h1 h2 : List Vis) (hc : Chrono (h1 ++ h2)) (hl : Letters b h2)
    (hf : Footprints h2) :
    NObsNight.bulk b (h1.foldl (NObsNight.one b) NObsNight.init) h2 =
      (h1 ++ h2).foldl (NObsNight.one b) NObsNight.init := by
  rw [List.foldl_append]
  apply nObsNight_bulk b _ _ (chrono_pair hc) hl hf
  cases h1 using List.reverseRecOn with
  | nil => left; exact ⟨rfl, rfl⟩
  | append_singleton h v =>
    right
    intro u hu
    refine ⟨v.night, ?_, ((List.pairwise_append.1 hc).2.2 v (by simp) u hu).2⟩
    rw [List.foldl_append]
    simp only [List.foldl_cons, List.foldl_nil, nObsNight_night]

/-- C33 fails for the code with an empty band name: it stands for all bands in one path and for no
band in the other. -/
theorem C33_night_bands_violated :
    (NObsNight.one (some "") NObsNight.init (vis 1 10 1 "r" "a" [7])).count 7 = 1 ∧
    (NObsNight.bulk (some "") NObsNight.init [vis 1 10 1 "r" "a" [7]]).count 7 = 0 := by
  decide +kernel

/-! ### NObservationsCurrentSeason -/

/-- The visit counts for a pixel, whatever its season. -/
def SeasonGood (c : Season.Cfg) (p : ℕ) (v : Vis) : Prop :=
  InBand c.band v ∧ (∀ x ∈ c.seeing, v.seeing.getD 0 ≤ x) ∧ (∀ m ∈ c.m5, m.2 p - v.depth ≤ m.1) ∧ p ∈ v.pix

def fineSeeing (c : Season.Cfg) (v : Vis) : Bool :=
  match c.seeing with | none => true | some x => decide (v.seeing.getD 0 ≤ x)

instance (c : Season.Cfg) (p : ℕ) (v : Vis) : Decidable (SeasonGood c p v) :=
  decidable_of_iff ((Season.bandOk c v && fineSeeing c v &&
    Season.deep c p v && decide (p ∈ v.pix)) = true) (by
    unfold SeasonGood InBand Season.bandOk Season.deep fineSeeing
    cases c.band <;> cases c.seeing <;> cases c.m5 <;> simp [and_assoc])

theorem seasonGood_iff (c : Season.Cfg) (p : ℕ) (v : Vis) : SeasonGood c p v ↔
    (Season.bandOk c v && fineSeeing c v &&
    Season.deep c p v && decide (p ∈ v.pix)) = true := by
  unfold SeasonGood InBand Season.bandOk Season.deep fineSeeing
  cases c.band <;> cases c.seeing <;> cases c.m5 <;> simp [and_assoc]

/-- The time of the latest visit (the start of the survey before the first). -/
def lastTime (c : Season.Cfg) (h : List Vis) : ℚ := (h.getLast?.map Vis.mjd).getD c.mjdStart

/-- What the feature should be: for each pixel the good visits in the season it is in at the
time of the latest visit. -/
def seasonOfM (c : Season.Cfg) (h : List Vis) : Season :=
  ⟨lastTime c h, fun p => Season.at_ c p (lastTime c h), fun p =>
    h.countP (fun v => decide (SeasonGood c p v) && decide (Season.at_ c p v.mjd = Season.at_ c p (lastTime c h)))⟩

/-- What the theorem asks of a history: the season at the centre of the visit is that of each pixel it
covers, seeing is clear of the limit, pixel 0 is not covered, nothing is before the start. -/
def SeasonPlainM (c : Season.Cfg) (h : List Vis) : Prop :=
  (∀ v ∈ h, c.mjdStart ≤ v.mjd ∧ v.pix.Nodup ∧ ∀ p ∈ v.pix, 0 < p ∧ ⌊c.ofVisit v⌋ = Season.at_ c p v.mjd) ∧
  ∀ x ∈ c.seeing, x ≠ 0 ∧ ∀ v ∈ h, Clear x (v.seeing.getD 0)

theorem season_mono (c : Season.Cfg) (p : ℕ) {t u : ℚ} (h : t ≤ u) : Season.at_ c p t ≤ Season.at_ c p u := by
  unfold Season.at_
  apply Int.floor_le_floor
  have : (t - c.mjdStart) / 365.25 ≤ (u - c.mjdStart) / 365.25 :=
    div_le_div_of_nonneg_right (by linarith) (by norm_num)
  linarith

theorem lastTime_snoc (c : Season.Cfg) (h : List Vis) (v : Vis) : lastTime c (h ++ [v]) = v.mjd := by
  simp [lastTime]

theorem le_lastTime (c : Season.Cfg) {h : List Vis} (hc : Chrono h) {v : Vis} (hv : v ∈ h) : v.mjd ≤ lastTime c h := by
  cases h using List.reverseRecOn with
  | nil => simp at hv
  | append_singleton g l =>
    rw [lastTime_snoc]
    rcases List.mem_append.1 hv with hv | hv
    · exact ((chrono_snoc hc).2 v hv).1
    · rw [List.mem_singleton.1 hv]

/-- Bringing the season up to date forgets the visits of pixels whose season has changed. -/
theorem season_update (c : Season.Cfg) {h : List Vis} (hc : Chrono h) {t : ℚ} (ht : lastTime c h ≤ t) :
    Season.update c (seasonOfM c h) t = ⟨t, fun p => Season.at_ c p t, fun p =>
      h.countP (fun v => decide (SeasonGood c p v) && decide (Season.at_ c p v.mjd = Season.at_ c p t))⟩ := by
  unfold Season.update
  have : ¬ t < (seasonOfM c h).mjd := not_lt.2 ht
  rw [if_neg this]
  congr 1
  funext p
  by_cases hs : (seasonOfM c h).season p < Season.at_ c p t
  · rw [if_pos hs]
    symm
    rw [List.countP_eq_zero]
    intro v hv
    have h1 := season_mono c p (le_lastTime c hc hv)
    have h2 : Season.at_ c p (lastTime c h) < Season.at_ c p t := hs
    simp only [Bool.and_eq_true, decide_eq_true_eq, not_and]
    intro _ h3
    omega
  · rw [if_neg hs]
    have h1 := season_mono c p ht
    have h2 : ¬ Season.at_ c p (lastTime c h) < Season.at_ c p t := hs
    have : Season.at_ c p (lastTime c h) = Season.at_ c p t := by omega
    simp only [seasonOfM, this]

theorem season_one (c : Season.Cfg) {h : List Vis} {v : Vis} (hc : Chrono (h ++ [v])) (hs : SeasonPlainM c (h ++ [v])) :
    Season.one c (seasonOfM c h) v = seasonOfM c (h ++ [v]) := by
  obtain ⟨hch, hle⟩ := chrono_snoc hc
  have ht : lastTime c h ≤ v.mjd := by
    cases h using List.reverseRecOn with
    | nil => exact (hs.1 v (by simp)).1
    | append_singleton g l => rw [lastTime_snoc]; exact (hle l (by simp)).1
  have hsee : Season.seeOk c v =
      fineSeeing c v := by
    unfold Season.seeOk fineSeeing
    cases hx : c.seeing with
    | none => rfl
    | some x =>
      obtain ⟨h0, h1⟩ := hs.2 x (by rw [hx]; rfl)
      exact leS_const x h0 _ (h1 v (by simp))
  unfold Season.one
  rw [season_update c hch ht]
  simp only [hsee]
  unfold seasonOfM
  simp only [lastTime_snoc, List.countP_append, List.countP_cons, List.countP_nil, Nat.zero_add, decide_true, Bool.and_true,
    List.filter_filter, List.mem_filter, Bool.and_eq_true, decide_eq_true_eq, and_true, seasonGood_iff]
  by_cases hw : (fineSeeing c v && Season.bandOk c v) = true
  · have hw' := hw
    rw [Bool.and_eq_true] at hw'
    rw [if_pos hw']
    congr 1
    funext p
    by_cases hp : p ∈ v.pix ∧ Season.deep c p v = true
    · rw [if_pos hp, if_pos]; simp [hw', hp]
    · rw [if_neg hp, if_neg]
      · rfl
      · simp only [hw', true_and]; tauto
  · have hw' := hw
    rw [Bool.and_eq_true] at hw'
    rw [if_neg hw']
    congr 1
    funext p
    rw [if_neg]
    · rfl
    · tauto

theorem seasonPlain_left {c : Season.Cfg} {a b : List Vis} (h : SeasonPlainM c (a ++ b)) : SeasonPlainM c a :=
  ⟨fun v hv => h.1 v (by simp [hv]), fun x hx => ⟨(h.2 x hx).1, fun v hv => (h.2 x hx).2 v (by simp [hv])⟩⟩

theorem seasonPlain_right {c : Season.Cfg} {a b : List Vis} (h : SeasonPlainM c (a ++ b)) : SeasonPlainM c b :=
  ⟨fun v hv => h.1 v (by simp [hv]), fun x hx => ⟨(h.2 x hx).1, fun v hv => (h.2 x hx).2 v (by simp [hv])⟩⟩

theorem season_foldl (c : Season.Cfg) (h : List Vis) (hc : Chrono h) (hs : SeasonPlainM c h) :
    h.foldl (Season.one c) (Season.init c) = seasonOfM c h := by
  induction h using List.reverseRecOn with
  | nil => simp [seasonOfM, Season.init, lastTime, Season.at_]
  | append_singleton h v ih =>
    rw [List.foldl_append, ih (chrono_snoc hc).1 (seasonPlain_left hs)]
    exact season_one c hc hs

theorem season_bulk (c : Season.Cfg) {h1 h2 : List Vis} (hc : Chrono (h1 ++ h2)) (hs : SeasonPlainM c (h1 ++ h2)) :
    Season.bulk c (seasonOfM c h1) h2 = seasonOfM c (h1 ++ h2) := by
  cases h2 using List.reverseRecOn with
  | nil => simp [Season.bulk]
  | append_singleton g l =>
    obtain ⟨hch, hch2, hcross⟩ := List.pairwise_append.1 hc
    have ht : lastTime c h1 ≤ l.mjd := by
      cases h1 using List.reverseRecOn with
      | nil => exact (hs.1 l (by simp)).1
      | append_singleton a u => rw [lastTime_snoc]; exact (hcross u (by simp) l (by simp)).1
    set h2 := g ++ [l] with hh2
    have hlast : h2.getLast? = some l := by simp [hh2]
    have hl : lastTime c (h1 ++ h2) = l.mjd := by rw [hh2, ← List.append_assoc, lastTime_snoc]
    have hs2 := seasonPlain_right hs
    have hbad : Season.bad c (rows h2) =
        (rows h2).map (fun r => !fineSeeing c r.2) := by
      unfold Season.bad fineSeeing
      cases hx : c.seeing with
      | none => simp
      | some x =>
        obtain ⟨h0, hclear⟩ := hs2.2 x (by rw [hx]; rfl)
        have : (rows h2).map (fun r => (r.2.seeing.getD 0, x)) =
            ((rows h2).map (fun r => r.2.seeing.getD 0)).map (fun d => (d, x)) := by rw [List.map_map]; rfl
        simp only
        rw [this, gtA_const x h0, List.map_map]
        · apply List.map_congr_left
          intro r _
          simp only [Function.comp]
          rw [Bool.eq_iff_iff]; simp
        · intro d hd
          obtain ⟨r, hr, rfl⟩ := List.mem_map.1 hd
          exact hclear r.2 (mem_rows.1 hr).1
    have hz : ∀ (f : ℕ × Vis → Bool) (l : List (ℕ × Vis)), l.zip (l.map f) = l.map (fun r => (r, f r)) := by
      intro f l
      induction l with
      | nil => rfl
      | cons a l ih => simp [ih]
    unfold Season.bulk
    rw [hlast]
    simp only
    rw [season_update c hch ht, hbad, hz, List.filter_map]
    simp only [List.map_map, Function.comp_def, List.map_id']
    set good := (rows h2).filter (fun x => !(!fineSeeing c x.2) &&
      Season.bandOk c x.2 && decide (Season.at_ c x.1 l.mjd = ⌊c.ofVisit x.2⌋) && Season.deep c x.1 x.2) with hgood
    have hcount : ∀ p, binCount good p = h2.countP (fun v => decide (SeasonGood c p v) &&
        decide (Season.at_ c p v.mjd = Season.at_ c p l.mjd)) := by
      intro p
      rw [hgood, binCount_rows (fun q v => !(!fineSeeing c v) &&
        Season.bandOk c v && decide (Season.at_ c q l.mjd = ⌊c.ofVisit v⌋) && Season.deep c q v) p h2
        (fun v hv => (hs2.1 v hv).2.1)]
      apply List.countP_congr
      intro v hv
      simp only [Bool.and_eq_true, decide_eq_true_eq, Bool.not_not, seasonGood_iff]
      constructor
      · rintro ⟨⟨⟨⟨a1, a2⟩, a3⟩, a4⟩, a5⟩
        refine ⟨⟨⟨⟨a2, a1⟩, a4⟩, a5⟩, ?_⟩
        rw [a3, ((hs2.1 v hv).2.2 p a5).2]
      · rintro ⟨⟨⟨⟨a2, a1⟩, a4⟩, a5⟩, a6⟩
        refine ⟨⟨⟨⟨a1, a2⟩, ?_⟩, a4⟩, a5⟩
        rw [← a6, ((hs2.1 v hv).2.2 p a5).2]
    have hval : seasonOfM c (h1 ++ h2) = ⟨l.mjd, fun p => Season.at_ c p l.mjd, fun p =>
        h1.countP (fun v => decide (SeasonGood c p v) && decide (Season.at_ c p v.mjd = Season.at_ c p l.mjd)) +
        binCount good p⟩ := by
      unfold seasonOfM
      rw [hl]
      congr 1
      funext p
      rw [List.countP_append, hcount]
    rw [hval]
    by_cases hpos : 0 < (good.map (fun x => x.1)).sum
    · rw [if_pos hpos]
    · rw [if_neg hpos]
      have hempty : good = [] := by
        by_contra hne
        obtain ⟨r, hr⟩ := List.exists_mem_of_ne_nil _ hne
        apply hpos
        have hr0 : r.1 ∈ good.map Prod.fst := List.mem_map.2 ⟨r, hr, rfl⟩
        have hrow := mem_rows.1 (List.mem_of_mem_filter hr)
        have := (hs2.1 r.2 hrow.1).2.2 r.1 hrow.2
        exact lt_of_lt_of_le this.1 (List.single_le_sum (by simp) _ hr0)
      rw [hempty]
      simp [binCount]

/-- The season of a pixel: its season at the start, and one more for each year of 365.25 days. -/
def seasonNumber (c : Season.Cfg) (p : ℕ) (t : ℚ) : ℤ := ⌊c.map p + (t - c.mjdStart) / (365 + 1 / 4)⌋

theorem seasonNumber_eq : seasonNumber = Season.at_ := by
  funext c p t; unfold seasonNumber Season.at_; norm_num

/-- What the feature should be: for each pixel the good visits in the season it is in at the
time of the latest visit. -/
def seasonOf (c : Season.Cfg) (h : List Vis) : Season :=
  ⟨lastTime c h, fun p => seasonNumber c p (lastTime c h), fun p =>
    h.countP (fun v => decide (SeasonGood c p v) && decide (seasonNumber c p v.mjd = seasonNumber c p (lastTime c h)))⟩

/-- What the theorem asks of a history: the season at the centre of the visit is that of each pixel it
covers, seeing is clear of the limit, pixel 0 is not covered, nothing is before the start. -/
def SeasonPlain (c : Season.Cfg) (h : List Vis) : Prop :=
  (∀ v ∈ h, c.mjdStart ≤ v.mjd ∧ v.pix.Nodup ∧ ∀ p ∈ v.pix, 0 < p ∧ ⌊c.ofVisit v⌋ = seasonNumber c p v.mjd) ∧
  ∀ x ∈ c.seeing, x ≠ 0 ∧ ∀ v ∈ h, Clear x (v.seeing.getD 0)

theorem seasonOf_eq (c : Season.Cfg) (h : List Vis) : seasonOf c h = seasonOfM c h := by
  unfold seasonOf seasonOfM; simp only [seasonNumber_eq]

theorem SeasonPlain_eq (c : Season.Cfg) (h : List Vis) : SeasonPlain c h = SeasonPlainM c h := by
  unfold SeasonPlain SeasonPlainM; simp only [seasonNumber_eq]

/-- C33, visits in the current season: both paths give, for each pixel, the number of good
visits in the season the pixel is in at the time of the latest visit. Missing: pixels whose season differs from that
of the centre of the visit, pixel 0, seeing at the limit. -/
theorem C33_season_partial (c : Season.Cfg) (h1 h2 : List Vis) (hc : Chrono (h1 ++ h2)) (hs : SeasonPlain c (h1 ++ h2)) :
    Season.bulk c (h1.foldl (Season.one c) (Season.init c)) h2 = seasonOf c (h1 ++ h2) ∧
    (h1 ++ h2).foldl (Season.one c) (Season.init c) = seasonOf c (h1 ++ h2) := by
  rw [seasonOf_eq]
  rw [SeasonPlain_eq] at hs
  refine ⟨?_, season_foldl c _ hc hs⟩
  rw [season_foldl c h1 (List.pairwise_append.1 hc).1 (seasonPlain_left hs)]
  exact season_bulk c hc hs

/-- C33 fails for the code when only pixel 0 was visited: the batch is forgotten. -/
theorem C33_season_pixel_zero_violated :
    let c : Season.Cfg := ⟨none, none, none, 0, fun _ => 0, fun _ => 0⟩
    (Season.one c (Season.init c) (vis 1 10 1 "r" "a" [0])).count 0 = 1 ∧
    (Season.bulk c (Season.init c) [vis 1 10 1 "r" "a" [0]]).count 0 = 0 := by
  decide +kernel

/-- C33 fails for the code at the border of two seasons: the batch looks at the centre of the visit,
the single path at the pixel. -/
theorem C33_season_border_violated :
    let c : Season.Cfg := ⟨none, none, none, 0, fun p => if p = 7 then 0.99 else 0.5, fun v => if v.pix = [7, 8] then 0.99 else 2⟩
    let v := vis 1 100 1 "r" "a" [7, 8]
    (Season.one c (Season.init c) v).count 8 = 1 ∧ (Season.one c (Season.init c) v).count 7 = 1 ∧
    (Season.bulk c (Season.init c) [v]).count 8 = 1 ∧ (Season.bulk c (Season.init c) [v]).count 7 = 0 := by
  decide +kernel

/-! ### The hypotheses are met -/

/-- Two nights, two bands, two pixels. -/
def night12 : List Vis :=
  [vis 1 10 1 "r" "a" [7], vis 2 10.1 1 "g" "b" [7, 8], vis 3 11 2 "r" "a" [8, 7], vis 4 11.1 2 "r" "b" [8]]

theorem oneLetter_r : OneLetter "r" := ⟨'r', rfl⟩
theorem oneLetter_g : OneLetter "g" := ⟨'g', rfl⟩

example : Chrono night12 ∧ Letters (some "r") night12 ∧ Footprints night12 ∧
    SeeingClear ⟨some "r", none, some (.scalar 2), 100⟩ night12 := by
  refine ⟨?_, ⟨?_, ?_⟩, ?_, ?_, ?_⟩
  · unfold Chrono night12 vis; decide +kernel
  · intro b hb; simp at hb; rw [← hb]; exact oneLetter_r
  · intro v hv
    simp only [night12, List.mem_cons, List.not_mem_nil, or_false] at hv
    rcases hv with rfl | rfl | rfl | rfl
    · exact oneLetter_r
    · exact oneLetter_g
    · exact oneLetter_r
    · exact oneLetter_r
  · unfold Footprints night12 vis; decide +kernel
  · norm_num
  · unfold Clear night12 vis; decide +kernel

example : (night12.foldl (NObsNight.one (some "r")) NObsNight.init).count 8 = 2 ∧
    night12.foldl (NObservations.one ⟨some "r", none, some (.scalar 2), 100⟩) (fun _ => 0) 7 = 2 := by
  decide +kernel

end Verif
