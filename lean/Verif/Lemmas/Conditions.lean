import Verif.Spec.Conditions
import Mathlib.Data.List.Induction

namespace Verif.Cond
variable {V : Type}

/-- The quantities read since the time was last set, after one more call. -/
def nextReads (rs : List Q) : Op V → List Q
  | .setMjd _ => []
  | .read q => q :: rs
  | _ => rs

/-- The quantities read since the time was last set. -/
def readsSince (h : List (Op V)) : List Q := h.foldl nextReads []

/-- The time set by a call. -/
def newTimes : Op V → List V
  | .setMjd (some m) => [m]
  | _ => []

theorem readsSince_snoc (h : List (Op V)) (op : Op V) :
    readsSince (h ++ [op]) = nextReads (readsSince h) op := by
  unfold readsSince
  rw [List.foldl_append]
  rfl

theorem inputs_snoc (h : List (Op V)) (op : Op V) : inputs (h ++ [op]) = (inputs h).next op := by
  unfold inputs
  rw [List.foldl_append]
  rfl

theorem times_snoc (h : List (Op V)) (op : Op V) :
    times (h ++ [op]) = times h ++ newTimes op := by
  unfold times
  rw [List.filterMap_append]
  congr 1
  cases op <;> try rfl
  rename_i m
  cases m <;> rfl

theorem mem_readsSince {q : Q} (h : List (Op V)) (hq : q ∈ readsSince h) :
    ∃ a b, h = a ++ Op.read q :: b ∧ ∀ m, Op.setMjd m ∉ b := by
  induction h using List.reverseRecOn with
  | nil => simp [readsSince] at hq
  | append_singleton h op ih =>
    have key : q ∈ readsSince h → (∀ m, op ≠ Op.setMjd m) → ∃ a b, h ++ [op] = a ++ Op.read q :: b ∧ ∀ m, Op.setMjd m ∉ b := by
      intro h1 h2
      obtain ⟨a, b, e, hb⟩ := ih h1
      refine ⟨a, b ++ [op], by rw [e]; simp, ?_⟩
      intro m hm
      rcases List.mem_append.1 hm with hm | hm
      · exact hb m hm
      · exact h2 m (List.mem_singleton.1 hm).symm
    rw [readsSince_snoc] at hq
    cases op with
    | setMjd m => simp [nextReads] at hq
    | read q' =>
      simp only [nextReads, List.mem_cons] at hq
      rcases hq with rfl | hq
      · exact ⟨h, [], rfl, by simp⟩
      · exact key hq (by intro m; simp)
    | _ => exact key hq (by intro m; simp)

theorem Settled.init {h : List (Op V)} {op : Op V} (hs : Settled (h ++ [op])) : Settled h := by
  intro a q b op' c e hu
  exact hs a q b op' (c ++ [op]) (by rw [e]; simp) hu

theorem Settled.last {h : List (Op V)} {op : Op V} (hs : Settled (h ++ [op])) {q : Q} (hq : q ∈ readsSince h) : ¬Uses q op := by
  intro hu
  obtain ⟨a, b, e, hb⟩ := mem_readsSince h hq
  obtain ⟨m, hm⟩ := hs a q b op [] (by rw [e]) hu
  exact hb m hm

/-- A check of `Settled` from the start. -/
def okFrom (rs : List Q) : List (Op V) → Prop
  | [] => True
  | op :: h => (∀ q ∈ rs, ¬Uses q op) ∧ okFrom (nextReads rs op) h

theorem okFrom_append (x y : List (Op V)) : ∀ rs, okFrom rs (x ++ y) → okFrom (x.foldl nextReads rs) y := by
  induction x with
  | nil => intro rs h; exact h
  | cons op x ih => intro rs h; exact ih _ h.2

theorem mem_foldl_nextReads {q : Q} (b : List (Op V)) (hb : ∀ m, Op.setMjd m ∉ b) : ∀ rs, q ∈ rs → q ∈ b.foldl nextReads rs := by
  induction b with
  | nil => intro rs h; exact h
  | cons op b ih =>
    intro rs h
    refine ih (fun m hm => hb m (List.mem_cons_of_mem _ hm)) _ ?_
    cases op with
    | setMjd m => exact absurd List.mem_cons_self (hb m)
    | read q' => exact List.mem_cons_of_mem _ h
    | _ => exact h

theorem settled_of_okFrom {h : List (Op V)} (hk : okFrom [] h) : Settled h := by
  intro a q b op c e hu
  by_contra hc
  have hb : ∀ m, Op.setMjd m ∉ b := fun m hm => hc ⟨m, hm⟩
  rw [e] at hk
  have h1 := okFrom_append _ _ _ hk
  refine h1.1 q ?_ hu
  rw [List.foldl_append, List.foldl_cons]
  exact mem_foldl_nextReads b hb _ List.mem_cons_self

theorem run_snoc [DecidableEq V] (F : Fns V) (h : List (Op V)) (op : Op V) : ∀ s s' : St V,
    run F s (h ++ [op]) = some s' → ∃ s1, run F s h = some s1 ∧ (step F s1 op).2 = true ∧ s' = (step F s1 op).1 := by
  induction h with
  | nil =>
    intro s s' hr
    simp only [List.nil_append, run] at hr
    split_ifs at hr with h1
    exact ⟨s, rfl, h1, by simpa using hr.symm⟩
  | cons o h ih =>
    intro s s' hr
    simp only [List.cons_append, run] at hr ⊢
    split_ifs at hr with h1
    rw [if_pos h1]
    exact ih _ _ hr

/-! ### Values that depend on the time and the sidereal time only -/

structure TCoh (F : Fns V) (s : St V) (i : Inputs V) : Prop where
  mjd : s.mjd = i.mjd
  lmstN : s.lmst = none → i.lmst = none
  lmst : ∀ v, s.lmst = some v → i.sidereal F = some v
  ha : ∀ v, s.ha = some v → (i.sidereal F).map F.ha = some v
  altAz : ∀ p, s.altAz = some p → ∃ m, i.mjd = some m ∧ p = (F.alt m, F.az m)
  pa : ∀ v, s.pa = some v → ∃ m, i.mjd = some m ∧ v = F.pa (F.alt m) (F.az m)

theorem TCoh.congr {F : Fns V} {s s' : St V} {i i' : Inputs V} (h : TCoh F s i) (h1 : s'.mjd = s.mjd) (h2 : s'.lmst = s.lmst) (h3 : s'.ha = s.ha)
    (h4 : s'.altAz = s.altAz) (h5 : s'.pa = s.pa) (h6 : i'.mjd = i.mjd) (h7 : i'.lmst = i.lmst) : TCoh F s' i' := by
  have e : i'.sidereal F = i.sidereal F := by unfold Inputs.sidereal; rw [h6, h7]
  exact ⟨by rw [h1, h6]; exact h.mjd, by rw [h2, h7]; exact h.lmstN, by rw [h2, e]; exact h.lmst, by rw [h3, e]; exact h.ha,
    by rw [h4, h6]; exact h.altAz, by rw [h5, h6]; exact h.pa⟩

theorem readAltAz_spec {F : Fns V} {s : St V} {i : Inputs V} (h : TCoh F s i) :
    TCoh F (readAltAz F s).1 i ∧ (readAltAz F s).2 = i.mjd.map (fun m => (F.alt m, F.az m)) ∧
      (∃ x, (readAltAz F s).1 = { s with altAz := x }) := by
  rcases Option.eq_none_or_eq_some s.altAz with ha | ⟨p, ha⟩
  · rcases Option.eq_none_or_eq_some s.mjd with hm | ⟨m, hm⟩
    · have e : readAltAz F s = (s, none) := by unfold readAltAz; simp only [ha, hm]
      rw [e]
      exact ⟨h, by rw [← h.mjd, hm]; rfl, s.altAz, rfl⟩
    · have e : readAltAz F s = ({ s with altAz := some (F.alt m, F.az m) }, some (F.alt m, F.az m)) := by
        unfold readAltAz; simp only [ha, hm]
      have hi : i.mjd = some m := by rw [← h.mjd, hm]
      rw [e]
      refine ⟨?_, by rw [hi]; rfl, ⟨_, rfl⟩⟩
      exact ⟨h.mjd, h.lmstN, h.lmst, h.ha, fun p hp => ⟨m, hi, by simpa using hp.symm⟩, h.pa⟩
  · have e : readAltAz F s = (s, some p) := by unfold readAltAz; simp only [ha]
    obtain ⟨m, hi, rfl⟩ := h.altAz p ha
    rw [e]
    exact ⟨h, by rw [hi]; rfl, s.altAz, rfl⟩

theorem readLmst_spec {F : Fns V} {s : St V} {i : Inputs V} (h : TCoh F s i) :
    TCoh F (readLmst F s).1 i ∧ (readLmst F s).2 = i.sidereal F ∧ (∃ x, (readLmst F s).1 = { s with lmst := x }) := by
  rcases Option.eq_none_or_eq_some s.lmst with hl | ⟨l, hl⟩
  · have hn := h.lmstN hl
    rcases Option.eq_none_or_eq_some s.mjd with hm | ⟨m, hm⟩
    · have e : readLmst F s = (s, none) := by unfold readLmst; simp only [hl, hm]
      rw [e]
      exact ⟨h, by unfold Inputs.sidereal; rw [hn, ← h.mjd, hm]; rfl, s.lmst, rfl⟩
    · have e : readLmst F s = ({ s with lmst := some (F.lmst m) }, some (F.lmst m)) := by unfold readLmst; simp only [hl, hm]
      have hi : i.mjd = some m := by rw [← h.mjd, hm]
      have hs : i.sidereal F = some (F.lmst m) := by unfold Inputs.sidereal; rw [hn, hi]; rfl
      rw [e]
      refine ⟨⟨h.mjd, fun _ => hn, ?_, h.ha, h.altAz, h.pa⟩, hs.symm, ⟨_, rfl⟩⟩
      intro v hv
      rw [hs]; exact hv
  · have e : readLmst F s = (s, some l) := by unfold readLmst; simp only [hl]
    rw [e]
    exact ⟨h, (h.lmst l hl).symm, s.lmst, rfl⟩

theorem readHa_spec {F : Fns V} {s : St V} {i : Inputs V} (h : TCoh F s i) :
    TCoh F (readHa F s).1 i ∧ (readHa F s).2 = (i.sidereal F).map F.ha ∧ (∃ x y, (readHa F s).1 = { s with lmst := x, ha := y }) := by
  unfold readHa
  rcases hl : s.ha with _ | l
  · dsimp only
    obtain ⟨a1, a2, x, a3⟩ := readLmst_spec h
    rcases hr : readLmst F s with ⟨s1, _ | l⟩ <;> rw [hr] at a1 a2 a3 <;> dsimp only at a1 a2 a3 ⊢
    · refine ⟨a1, by rw [← a2]; rfl, ⟨x, s.ha, a3⟩⟩
    · refine ⟨⟨a1.mjd, a1.lmstN, a1.lmst, ?_, a1.altAz, a1.pa⟩, by rw [← a2]; rfl, ⟨x, _, by rw [a3]⟩⟩
      intro v hv
      rw [← a2]; exact hv
  · exact ⟨h, (h.ha l hl).symm, ⟨s.lmst, s.ha, rfl⟩⟩

theorem readPa_spec {F : Fns V} {s : St V} {i : Inputs V} (h : TCoh F s i) :
    TCoh F (readPa F s).1 i ∧ (readPa F s).2 = i.mjd.map (fun m => F.pa (F.alt m) (F.az m)) ∧
      (∃ x y, (readPa F s).1 = { s with altAz := x, pa := y }) := by
  unfold readPa
  rcases hl : s.pa with _ | l
  · dsimp only
    obtain ⟨a1, a2, x, a3⟩ := readAltAz_spec h
    rcases hr : readAltAz F s with ⟨s1, _ | p⟩ <;> rw [hr] at a1 a2 a3 <;> dsimp only at a1 a2 a3 ⊢
    · refine ⟨a1, ?_, ⟨x, s.pa, a3⟩⟩
      cases hm : i.mjd with
      | none => rfl
      | some m => rw [hm] at a2; cases a2
    · cases hm : i.mjd with
      | none => rw [hm] at a2; cases a2
      | some m =>
        rw [hm] at a2
        simp only [Option.map_some, Option.some.injEq] at a2
        subst a2
        refine ⟨⟨a1.mjd, a1.lmstN, a1.lmst, a1.ha, a1.altAz, ?_⟩, rfl, ⟨x, _, by rw [a3]⟩⟩
        intro v hv
        exact ⟨m, hm, by simpa using hv.symm⟩
  · obtain ⟨m, hm, rfl⟩ := h.pa l hl
    exact ⟨h, by rw [hm]; rfl, ⟨s.altAz, s.pa, rfl⟩⟩

/-- The other reads change only caches that do not depend on the time alone. -/
theorem readAirmass_frame (F : Fns V) (s : St V) : ∃ x, (readAirmass F s).1 = { s with airmass := x } := by
  rcases Option.eq_none_or_eq_some s.airmass with hl | ⟨l, hl⟩
  · rcases Option.eq_none_or_eq_some s.altAz with hp | ⟨p, hp⟩
    · have e : readAirmass F s = (s, none) := by unfold readAirmass; simp only [hl, hp]
      rw [e]; exact ⟨s.airmass, rfl⟩
    · have e : readAirmass F s = ({ s with airmass := some (F.air p.1 s.telAlt) }, some (F.air p.1 s.telAlt)) := by
        unfold readAirmass; simp only [hl, hp]
      rw [e]; exact ⟨_, rfl⟩
  · have e : readAirmass F s = (s, some l) := by unfold readAirmass; simp only [hl]
    rw [e]; exact ⟨s.airmass, rfl⟩

theorem readM5_frame (F : Fns V) (s : St V) : ∃ x, (readM5 F s).1 = { s with m5 := x } := by
  unfold readM5
  rcases hl : s.m5 with _ | l
  · exact ⟨_, rfl⟩
  · exact ⟨s.m5, rfl⟩

theorem readElong_frame (F : Fns V) (s : St V) : ∃ x, (readElong F s).1 = { s with elong := x } := by
  rcases Option.eq_none_or_eq_some s.elong with hl | ⟨l, hl⟩
  · rcases Option.eq_none_or_eq_some s.sunRa with hr | ⟨r, hr⟩
    · have e : readElong F s = (s, none) := by unfold readElong; simp only [hl, hr]
      rw [e]; exact ⟨s.elong, rfl⟩
    · rcases Option.eq_none_or_eq_some s.sunDec with hd | ⟨d, hd⟩
      · have e : readElong F s = (s, none) := by unfold readElong; simp only [hl, hr, hd]
        rw [e]; exact ⟨s.elong, rfl⟩
      · have e : readElong F s = ({ s with elong := some (F.elong r d) }, some (F.elong r d)) := by
          unfold readElong; simp only [hl, hr, hd]
        rw [e]; exact ⟨_, rfl⟩
  · have e : readElong F s = (s, some l) := by unfold readElong; simp only [hl]
    rw [e]; exact ⟨s.elong, rfl⟩

theorem readAzSun_frame (F : Fns V) (s : St V) : ∃ x, (readAzSun F s).1 = { s with azSun := x } := by
  rcases Option.eq_none_or_eq_some s.azSun with hl | ⟨l, hl⟩
  · rcases Option.eq_none_or_eq_some s.sunRa with hr | ⟨r, hr⟩
    · have e : readAzSun F s = (s, none) := by unfold readAzSun; simp only [hl, hr]
      rw [e]; exact ⟨s.azSun, rfl⟩
    · have e : readAzSun F s = ({ s with azSun := some (F.azSun r) }, some (F.azSun r)) := by unfold readAzSun; simp only [hl, hr]
      rw [e]; exact ⟨_, rfl⟩
  · have e : readAzSun F s = (s, some l) := by unfold readAzSun; simp only [hl]
    rw [e]; exact ⟨s.azSun, rfl⟩

theorem readAzAnti_frame (F : Fns V) (s : St V) : ∃ x, (readAzAnti F s).1 = { s with azAnti := x } := by
  rcases Option.eq_none_or_eq_some s.azAnti with hl | ⟨l, hl⟩
  · rcases Option.eq_none_or_eq_some s.sunRa with hr | ⟨r, hr⟩
    · have e : readAzAnti F s = (s, none) := by unfold readAzAnti; simp only [hl, hr]
      rw [e]; exact ⟨s.azAnti, rfl⟩
    · have e : readAzAnti F s = ({ s with azAnti := some (F.azAnti r) }, some (F.azAnti r)) := by unfold readAzAnti; simp only [hl, hr]
      rw [e]; exact ⟨_, rfl⟩
  · have e : readAzAnti F s = (s, some l) := by unfold readAzAnti; simp only [hl]
    rw [e]; exact ⟨s.azAnti, rfl⟩

theorem readWind_frame {F : Fns V} {s : St V} {i : Inputs V} (h : TCoh F s i) :
    TCoh F (readWind F s).1 i ∧ ∃ x y, (readWind F s).1 = { s with altAz := x, wind := y } := by
  unfold readWind
  rcases hl : s.wind with _ | l
  · dsimp only
    obtain ⟨a1, a2, x, a3⟩ := readAltAz_spec h
    rcases hr : readAltAz F s with ⟨s1, _ | p⟩ <;> rw [hr] at a1 a2 a3 <;> dsimp only at a1 a2 a3 ⊢
    · exact ⟨a1, x, s.wind, a3⟩
    · split
      · exact ⟨a1.congr rfl rfl rfl rfl rfl rfl rfl, x, _, by rw [a3]⟩
      · exact ⟨a1, x, s.wind, a3⟩
  · exact ⟨h, s.altAz, s.wind, rfl⟩

theorem readShadow_frame [DecidableEq V] {F : Fns V} {s : St V} {i : Inputs V} (h : TCoh F s i) (n : ℕ) :
    TCoh F (readShadow F s n).1 i ∧ ∃ x y, (readShadow F s n).1 = { s with altAz := x, masks := y } := by
  unfold readShadow
  split
  · exact ⟨h, s.altAz, s.masks, rfl⟩
  · split
    · exact ⟨h.congr rfl rfl rfl rfl rfl rfl rfl, s.altAz, _, rfl⟩
    · obtain ⟨a1, a2, x, a3⟩ := readAltAz_spec h
      split
      · rename_i s1 hr
        rw [hr] at a1 a3
        exact ⟨a1, x, s.masks, a3⟩
      · rename_i s1 p hr
        rw [hr] at a1 a3
        dsimp only at a1 a3 ⊢
        exact ⟨a1.congr rfl rfl rfl rfl rfl rfl rfl, x, _, by rw [a3]⟩

theorem TCoh.step [DecidableEq V] {F : Fns V} {s : St V} {i : Inputs V} (h : TCoh F s i) (op : Op V) :
    TCoh F (step F s op).1 (i.next op) := by
  cases op with
  | setMjd m => exact ⟨rfl, fun _ => rfl, (by intro v hv; cases hv), (by intro v hv; cases hv), (by intro v hv; cases hv), (by intro v hv; cases hv)⟩
  | setLmst v =>
    refine ⟨h.mjd, ?_, ?_, ?_, h.altAz, h.pa⟩
    · intro hn; cases hn
    · intro w hw; exact hw
    · intro w hw; cases hw
  | read q =>
    cases q with
    | alt => exact (readAltAz_spec h).1
    | az => exact (readAltAz_spec h).1
    | pa => exact (readPa_spec h).1
    | lmst => exact (readLmst_spec h).1
    | ha => exact (readHa_spec h).1
    | airmass => obtain ⟨x, e⟩ := readAirmass_frame F s; show TCoh F (readAirmass F s).1 i; rw [e]; exact h.congr rfl rfl rfl rfl rfl rfl rfl
    | m5 => obtain ⟨x, e⟩ := readM5_frame F s; show TCoh F (readM5 F s).1 i; rw [e]; exact h.congr rfl rfl rfl rfl rfl rfl rfl
    | elong => obtain ⟨x, e⟩ := readElong_frame F s; show TCoh F (readElong F s).1 i; rw [e]; exact h.congr rfl rfl rfl rfl rfl rfl rfl
    | azSun => obtain ⟨x, e⟩ := readAzSun_frame F s; show TCoh F (readAzSun F s).1 i; rw [e]; exact h.congr rfl rfl rfl rfl rfl rfl rfl
    | azAnti => obtain ⟨x, e⟩ := readAzAnti_frame F s; show TCoh F (readAzAnti F s).1 i; rw [e]; exact h.congr rfl rfl rfl rfl rfl rfl rfl
    | wind => exact (readWind_frame h).1
    | night => exact h
    | shadow n => exact (readShadow_frame h n).1
  | _ => exact h.congr rfl rfl rfl rfl rfl rfl rfl

theorem TCoh.empty (F : Fns V) : TCoh F ({} : St V) ({} : Inputs V) :=
  ⟨rfl, fun _ => rfl, (by intro v hv; cases hv), (by intro v hv; cases hv), (by intro v hv; cases hv), (by intro v hv; cases hv)⟩

theorem runAll_tcoh [DecidableEq V] (F : Fns V) (h : List (Op V)) : TCoh F (runAll F {} h) (inputs h) := by
  induction h using List.reverseRecOn with
  | nil => exact TCoh.empty F
  | append_singleton h op ih =>
    rw [inputs_snoc]
    unfold runAll at ih ⊢
    rw [List.foldl_append]
    exact ih.step op

theorem runAll_of_run [DecidableEq V] (F : Fns V) (h : List (Op V)) : ∀ s s' : St V, run F s h = some s' → s' = runAll F s h := by
  induction h with
  | nil => intro s s' e; cases e; rfl
  | cons op h ih =>
    intro s s' e
    unfold run at e
    split_ifs at e
    exact ih _ _ e

/-! ### The depth -/

theorem m5Loop_spec (F : Fns V) (i : Inputs V) (air : Option V) (ha : ∀ a, air = some a → i.air F = some a) :
    ∀ (sky acc : List (String × V)), (m5Loop F i.fwhm air sky acc).2 = true →
      ∃ t, sky.mapM (i.depth F) = some t ∧ (m5Loop F i.fwhm air sky acc).1 = acc ++ t := by
  intro sky
  induction sky with
  | nil => intro acc _; exact ⟨[], rfl, by simp [m5Loop]⟩
  | cons p r ih =>
    intro acc h
    obtain ⟨b, v⟩ := p
    unfold m5Loop at h ⊢
    rcases hm : m5Args i.fwhm air b with _ | fa <;> rw [hm] at h
    · cases h
    · dsimp only at h ⊢
      obtain ⟨t, ht, e⟩ := ih _ h
      have hd : i.depth F (b, v) = some (b, F.m5 b v fa.1 fa.2) := by
        unfold m5Args at hm
        unfold Inputs.depth
        rcases hg : get b i.fwhm with _ | f <;> rw [hg] at hm
        · cases hm
        · rcases hai : air with _ | a <;> rw [hai] at hm
          · cases hm
          · simp only [Option.map_some, Option.some.injEq] at hm
            rw [ha a hai, ← hm]
      refine ⟨(b, F.m5 b v fa.1 fa.2) :: t, ?_, by rw [e]; simp⟩
      rw [List.mapM_cons, hd, ht]
      rfl

theorem m5Loop_complete (F : Fns V) (i : Inputs V) (air : Option V) (ha : ∀ a, i.air F = some a → air = some a) :
    ∀ (sky acc t : List (String × V)), sky.mapM (i.depth F) = some t → m5Loop F i.fwhm air sky acc = (acc ++ t, true) := by
  intro sky
  induction sky with
  | nil => intro acc t h; simp at h; subst h; simp [m5Loop]
  | cons p r ih =>
    intro acc t h
    obtain ⟨b, v⟩ := p
    rw [List.mapM_cons] at h
    rcases hd : i.depth F (b, v) with _ | x <;> rw [hd] at h
    · cases h
    rcases hr : r.mapM (i.depth F) with _ | t' <;> rw [hr] at h
    · cases h
    have ht : t = x :: t' := by simpa using h.symm
    subst ht
    unfold Inputs.depth at hd
    dsimp only at hd
    rcases hg : get b i.fwhm with _ | f <;> rw [hg] at hd
    · cases hd
    rcases hai : i.air F with _ | a <;> rw [hai] at hd
    · cases hd
    have hm : m5Args i.fwhm air b = some (f, a) := by unfold m5Args; rw [hg, ha a hai]; rfl
    unfold m5Loop
    rw [hm]
    dsimp only
    rw [ih _ _ hr]
    have hx : x = (b, F.m5 b v f a) := by simpa using hd.symm
    rw [hx]
    simp

/-! ### All cached values -/

structure Coh (F : Fns V) (s : St V) (i : Inputs V) (rs : List Q) : Prop where
  t : TCoh F s i
  sky : s.sky = i.sky
  fwhm : s.fwhm = i.fwhm
  windSpeed : s.windSpeed = i.windSpeed
  windDir : s.windDir = i.windDir
  sunRa : s.sunRa = i.sunRa
  sunDec : s.sunDec = i.sunDec
  telAlt : s.telAlt = i.telAlt
  lims : s.lims = i.lims
  airmass : ∀ v, s.airmass = some v → Q.airmass ∈ rs ∧ i.air F = some v
  m5 : ∀ v, s.m5 = some v → Q.m5 ∈ rs ∧ i.sky.mapM (i.depth F) = some v
  wind : ∀ v, s.wind = some v → Q.wind ∈ rs ∧ fresh F i .wind = some (.map v)
  elong : ∀ v, s.elong = some v → Q.elong ∈ rs ∧ fresh F i .elong = some (.map v)
  azSun : ∀ v, s.azSun = some v → Q.azSun ∈ rs ∧ fresh F i .azSun = some (.map v)
  azAnti : ∀ v, s.azAnti = some v → Q.azAnti ∈ rs ∧ fresh F i .azAnti = some (.map v)

theorem Coh.empty (F : Fns V) : Coh F ({} : St V) ({} : Inputs V) [] :=
  ⟨TCoh.empty F, rfl, rfl, rfl, rfl, rfl, rfl, rfl, rfl, (by intro v hv; cases hv), (by intro v hv; cases hv), (by intro v hv; cases hv),
   (by intro v hv; cases hv), (by intro v hv; cases hv), (by intro v hv; cases hv)⟩

/-- Reading more, and changes of the values that depend on the time alone, keep it. -/
theorem Coh.more {F : Fns V} {s s' : St V} {i : Inputs V} {rs : List Q} (q : Q) (h : Coh F s i rs) (ht : TCoh F s' i)
    (e : ∃ a b c d m, s' = { s with altAz := a, pa := b, lmst := c, ha := d, masks := m }) : Coh F s' i (q :: rs) := by
  obtain ⟨a, b, c, d, m, rfl⟩ := e
  exact ⟨ht, h.sky, h.fwhm, h.windSpeed, h.windDir, h.sunRa, h.sunDec, h.telAlt, h.lims,
    fun v hv => ⟨List.mem_cons_of_mem _ (h.airmass v hv).1, (h.airmass v hv).2⟩, fun v hv => ⟨List.mem_cons_of_mem _ (h.m5 v hv).1, (h.m5 v hv).2⟩,
    fun v hv => ⟨List.mem_cons_of_mem _ (h.wind v hv).1, (h.wind v hv).2⟩, fun v hv => ⟨List.mem_cons_of_mem _ (h.elong v hv).1, (h.elong v hv).2⟩,
    fun v hv => ⟨List.mem_cons_of_mem _ (h.azSun v hv).1, (h.azSun v hv).2⟩, fun v hv => ⟨List.mem_cons_of_mem _ (h.azAnti v hv).1, (h.azAnti v hv).2⟩⟩

theorem Coh.same {F : Fns V} {s : St V} {i : Inputs V} {rs : List Q} (q : Q) (h : Coh F s i rs) : Coh F s i (q :: rs) :=
  h.more q h.t ⟨_, _, _, _, _, rfl⟩

theorem readAirmass_spec {F : Fns V} {s : St V} {i : Inputs V} {rs : List Q} (h : Coh F s i rs) :
    Coh F (readAirmass F s).1 i (.airmass :: rs) ∧ (∀ v, (readAirmass F s).2 = some v → i.air F = some v) := by
  have h' := h.same .airmass
  rcases Option.eq_none_or_eq_some s.airmass with hl | ⟨l, hl⟩
  · rcases Option.eq_none_or_eq_some s.altAz with hp | ⟨p, hp⟩
    · have e : readAirmass F s = (s, none) := by unfold readAirmass; simp only [hl, hp]
      rw [e]; exact ⟨h', (by intro v hv; cases hv)⟩
    · have e : readAirmass F s = ({ s with airmass := some (F.air p.1 s.telAlt) }, some (F.air p.1 s.telAlt)) := by
        unfold readAirmass; simp only [hl, hp]
      obtain ⟨m, hm, rfl⟩ := h.t.altAz p hp
      have ha : i.air F = some (F.air (F.alt m) s.telAlt) := by unfold Inputs.air; rw [hm, h.telAlt]; rfl
      rw [e]
      refine ⟨{ h' with t := h.t.congr rfl rfl rfl rfl rfl rfl rfl, airmass := ?_ }, ?_⟩
      · intro v hv
        exact ⟨List.mem_cons_self, by rw [ha]; exact hv⟩
      · intro v hv
        rw [ha]; exact hv
  · have e : readAirmass F s = (s, some l) := by unfold readAirmass; simp only [hl]
    rw [e]
    refine ⟨h', ?_⟩
    intro v hv
    cases hv
    exact (h.airmass _ hl).2

theorem readM5_spec {F : Fns V} {s : St V} {i : Inputs V} {rs : List Q} (h : Coh F s i rs) {t : List (String × V)} (hv : (readM5 F s).2 = some t) :
    Coh F (readM5 F s).1 i (.m5 :: rs) ∧ i.sky.mapM (i.depth F) = some t := by
  unfold readM5 at hv ⊢
  have h' := h.same .m5
  rcases hl : s.m5 with _ | l
  · rw [hl] at hv
    dsimp only at hv ⊢
    split_ifs at hv with hc
    have hf : s.fwhm = i.fwhm := h.fwhm
    rw [hf] at hc hv ⊢
    obtain ⟨t', ht', e⟩ := m5Loop_spec F i s.airmass (fun a ha => (h.airmass a ha).2) s.sky [] hc
    have et : t' = t := by
      have := Option.some.inj hv
      rw [e] at this
      simpa using this
    subst et
    rw [h.sky] at ht'
    refine ⟨{ h' with t := h.t.congr rfl rfl rfl rfl rfl rfl rfl, fwhm := rfl, m5 := ?_ }, ht'⟩
    intro v hv'
    refine ⟨List.mem_cons_self, ?_⟩
    rw [ht']
    have : (m5Loop F i.fwhm s.airmass s.sky []).1 = v := Option.some.inj hv'
    rw [← this, e]
    rfl
  · rw [hl] at hv
    refine ⟨h', ?_⟩
    cases hv
    exact (h.m5 _ hl).2

theorem readWind_spec {F : Fns V} {s : St V} {i : Inputs V} {rs : List Q} (h : Coh F s i rs) :
    Coh F (readWind F s).1 i (.wind :: rs) ∧ ∀ v, (readWind F s).2 = some v → fresh F i .wind = some (.map v) := by
  unfold readWind
  have h' := h.same .wind
  rcases hl : s.wind with _ | l
  · dsimp only
    obtain ⟨a1, a2, x, a3⟩ := readAltAz_spec h.t
    have hx : Coh F (readAltAz F s).1 i (.wind :: rs) := h.more _ a1 ⟨x, s.pa, s.lmst, s.ha, s.masks, a3⟩
    rcases hr : readAltAz F s with ⟨s1, _ | p⟩ <;> rw [hr] at a1 a2 a3 hx <;> dsimp only at a1 a2 a3 hx ⊢
    · exact ⟨hx, (by intro v hv; cases hv)⟩
    · split
      rotate_left
      · exact ⟨hx, (by intro v hv; cases hv)⟩
      · rename_i w d hws hwd
        have hf : fresh F i .wind = some (.map (F.wind w d p.2)) := by
          unfold fresh
          rw [← h.windSpeed, hws, ← h.windDir, hwd]
          cases hm : i.mjd with
          | none => rw [hm] at a2; cases a2
          | some m =>
            rw [hm] at a2
            simp only [Option.map_some, Option.some.injEq] at a2
            subst a2
            rfl
        refine ⟨{ hx with t := a1.congr rfl rfl rfl rfl rfl rfl rfl, wind := ?_ }, ?_⟩
        · intro v hv
          cases hv
          exact ⟨List.mem_cons_self, hf⟩
        · intro v hv
          cases hv
          exact hf
  · refine ⟨h', ?_⟩
    intro v hv
    cases hv
    exact (h.wind _ hl).2

theorem readElong_spec {F : Fns V} {s : St V} {i : Inputs V} {rs : List Q} (h : Coh F s i rs) :
    Coh F (readElong F s).1 i (.elong :: rs) ∧ ∀ v, (readElong F s).2 = some v → fresh F i .elong = some (.map v) := by
  have h' := h.same .elong
  rcases Option.eq_none_or_eq_some s.elong with hl | ⟨l, hl⟩
  · rcases Option.eq_none_or_eq_some s.sunRa with hr | ⟨r, hr⟩
    · have e : readElong F s = (s, none) := by unfold readElong; simp only [hl, hr]
      rw [e]; exact ⟨h', (by intro v hv; cases hv)⟩
    · rcases Option.eq_none_or_eq_some s.sunDec with hd | ⟨d, hd⟩
      · have e : readElong F s = (s, none) := by unfold readElong; simp only [hl, hr, hd]
        rw [e]; exact ⟨h', (by intro v hv; cases hv)⟩
      · have e : readElong F s = ({ s with elong := some (F.elong r d) }, some (F.elong r d)) := by
          unfold readElong; simp only [hl, hr, hd]
        have hf : fresh F i .elong = some (.map (F.elong r d)) := by unfold fresh; rw [← h.sunRa, hr, ← h.sunDec, hd]; rfl
        rw [e]
        refine ⟨{ h' with t := h.t.congr rfl rfl rfl rfl rfl rfl rfl, elong := ?_ }, ?_⟩
        · intro v hv; cases hv; exact ⟨List.mem_cons_self, hf⟩
        · intro v hv; cases hv; exact hf
  · have e : readElong F s = (s, some l) := by unfold readElong; simp only [hl]
    rw [e]; exact ⟨h', by intro v hv; cases hv; exact (h.elong _ hl).2⟩

theorem readAzSun_spec {F : Fns V} {s : St V} {i : Inputs V} {rs : List Q} (h : Coh F s i rs) :
    Coh F (readAzSun F s).1 i (.azSun :: rs) ∧ ∀ v, (readAzSun F s).2 = some v → fresh F i .azSun = some (.map v) := by
  have h' := h.same .azSun
  rcases Option.eq_none_or_eq_some s.azSun with hl | ⟨l, hl⟩
  · rcases Option.eq_none_or_eq_some s.sunRa with hr | ⟨r, hr⟩
    · have e : readAzSun F s = (s, none) := by unfold readAzSun; simp only [hl, hr]
      rw [e]; exact ⟨h', (by intro v hv; cases hv)⟩
    · have e : readAzSun F s = ({ s with azSun := some (F.azSun r) }, some (F.azSun r)) := by unfold readAzSun; simp only [hl, hr]
      have hf : fresh F i .azSun = some (.map (F.azSun r)) := by unfold fresh; rw [← h.sunRa, hr]; rfl
      rw [e]
      refine ⟨{ h' with t := h.t.congr rfl rfl rfl rfl rfl rfl rfl, azSun := ?_ }, ?_⟩
      · intro v hv; cases hv; exact ⟨List.mem_cons_self, hf⟩
      · intro v hv; cases hv; exact hf
  · have e : readAzSun F s = (s, some l) := by unfold readAzSun; simp only [hl]
    rw [e]; exact ⟨h', by intro v hv; cases hv; exact (h.azSun _ hl).2⟩

theorem readAzAnti_spec {F : Fns V} {s : St V} {i : Inputs V} {rs : List Q} (h : Coh F s i rs) :
    Coh F (readAzAnti F s).1 i (.azAnti :: rs) ∧ ∀ v, (readAzAnti F s).2 = some v → fresh F i .azAnti = some (.map v) := by
  have h' := h.same .azAnti
  rcases Option.eq_none_or_eq_some s.azAnti with hl | ⟨l, hl⟩
  · rcases Option.eq_none_or_eq_some s.sunRa with hr | ⟨r, hr⟩
    · have e : readAzAnti F s = (s, none) := by unfold readAzAnti; simp only [hl, hr]
      rw [e]; exact ⟨h', (by intro v hv; cases hv)⟩
    · have e : readAzAnti F s = ({ s with azAnti := some (F.azAnti r) }, some (F.azAnti r)) := by unfold readAzAnti; simp only [hl, hr]
      have hf : fresh F i .azAnti = some (.map (F.azAnti r)) := by unfold fresh; rw [← h.sunRa, hr]; rfl
      rw [e]
      refine ⟨{ h' with t := h.t.congr rfl rfl rfl rfl rfl rfl rfl, azAnti := ?_ }, ?_⟩
      · intro v hv; cases hv; exact ⟨List.mem_cons_self, hf⟩
      · intro v hv; cases hv; exact hf
  · have e : readAzAnti F s = (s, some l) := by unfold readAzAnti; simp only [hl]
    rw [e]; exact ⟨h', by intro v hv; cases hv; exact (h.azAnti _ hl).2⟩

/-- A read that does not raise, other than of a shadow mask. -/
theorem Coh.read [DecidableEq V] {F : Fns V} {s : St V} {i : Inputs V} {rs : List Q} (h : Coh F s i rs) (q : Q) {v : Val V}
    (hv : (read F s q).2 = some v) : Coh F (read F s q).1 i (q :: rs) ∧ ((∀ n, q ≠ .shadow n) → fresh F i q = some v) := by
  cases q with
  | alt =>
    obtain ⟨a1, a2, x, a3⟩ := readAltAz_spec h.t
    refine ⟨h.more _ a1 ⟨x, s.pa, s.lmst, s.ha, s.masks, a3⟩, fun _ => ?_⟩
    have : (readAltAz F s).2.map (fun p => Val.map p.1) = some v := hv
    rw [a2, Option.map_map] at this
    exact this
  | az =>
    obtain ⟨a1, a2, x, a3⟩ := readAltAz_spec h.t
    refine ⟨h.more _ a1 ⟨x, s.pa, s.lmst, s.ha, s.masks, a3⟩, fun _ => ?_⟩
    have : (readAltAz F s).2.map (fun p => Val.map p.2) = some v := hv
    rw [a2, Option.map_map] at this
    exact this
  | pa =>
    obtain ⟨a1, a2, x, y, a3⟩ := readPa_spec h.t
    refine ⟨h.more _ a1 ⟨x, y, s.lmst, s.ha, s.masks, a3⟩, fun _ => ?_⟩
    have : (readPa F s).2.map Val.map = some v := hv
    rw [a2, Option.map_map] at this
    exact this
  | lmst =>
    obtain ⟨a1, a2, x, a3⟩ := readLmst_spec h.t
    refine ⟨h.more _ a1 ⟨s.altAz, s.pa, x, s.ha, s.masks, a3⟩, fun _ => ?_⟩
    have : (readLmst F s).2.map Val.map = some v := hv
    rw [a2] at this
    exact this
  | ha =>
    obtain ⟨a1, a2, x, y, a3⟩ := readHa_spec h.t
    refine ⟨h.more _ a1 ⟨s.altAz, s.pa, x, y, s.masks, a3⟩, fun _ => ?_⟩
    have : (readHa F s).2.map Val.map = some v := hv
    rw [a2, Option.map_map] at this
    exact this
  | airmass =>
    obtain ⟨a1, a2⟩ := readAirmass_spec h
    refine ⟨a1, fun _ => ?_⟩
    have : (readAirmass F s).2.map Val.map = some v := hv
    obtain ⟨w, hw, rfl⟩ := Option.map_eq_some_iff.1 this
    show (i.air F).map Val.map = _
    rw [a2 w hw]; rfl
  | m5 =>
    have : (readM5 F s).2.map Val.table = some v := hv
    obtain ⟨w, hw, rfl⟩ := Option.map_eq_some_iff.1 this
    obtain ⟨a1, a2⟩ := readM5_spec h hw
    refine ⟨a1, fun _ => ?_⟩
    show (i.sky.mapM (i.depth F)).map Val.table = _
    rw [a2]; rfl
  | wind =>
    obtain ⟨a1, a2⟩ := readWind_spec h
    have : (readWind F s).2.map Val.map = some v := hv
    obtain ⟨w, hw, rfl⟩ := Option.map_eq_some_iff.1 this
    exact ⟨a1, fun _ => a2 w hw⟩
  | elong =>
    obtain ⟨a1, a2⟩ := readElong_spec h
    have : (readElong F s).2.map Val.map = some v := hv
    obtain ⟨w, hw, rfl⟩ := Option.map_eq_some_iff.1 this
    exact ⟨a1, fun _ => a2 w hw⟩
  | azSun =>
    obtain ⟨a1, a2⟩ := readAzSun_spec h
    have : (readAzSun F s).2.map Val.map = some v := hv
    obtain ⟨w, hw, rfl⟩ := Option.map_eq_some_iff.1 this
    exact ⟨a1, fun _ => a2 w hw⟩
  | azAnti =>
    obtain ⟨a1, a2⟩ := readAzAnti_spec h
    have : (readAzAnti F s).2.map Val.map = some v := hv
    obtain ⟨w, hw, rfl⟩ := Option.map_eq_some_iff.1 this
    exact ⟨a1, fun _ => a2 w hw⟩
  | night =>
    refine ⟨h.same _, fun _ => ?_⟩
    show i.mjd.map _ = _
    rw [← h.t.mjd]
    exact hv
  | shadow n =>
    obtain ⟨a1, x, y, a2⟩ := readShadow_frame h.t n
    exact ⟨h.more _ a1 ⟨x, s.pa, s.lmst, s.ha, y, a2⟩, fun hn => absurd rfl (hn n)⟩

theorem Coh.step [DecidableEq V] {F : Fns V} {s : St V} {i : Inputs V} {rs : List Q} (h : Coh F s i rs) (op : Op V)
    (hu : ∀ q ∈ rs, ¬Uses q op) (hok : (step F s op).2 = true) :
    Coh F (step F s op).1 (i.next op) (nextReads rs op) := by
  have hTel : ∀ v, op = .setTelAlt v → Q.airmass ∉ rs ∧ Q.m5 ∉ rs := by
    rintro v rfl
    exact ⟨fun hq => hu _ hq trivial, fun hq => hu _ hq trivial⟩
  have ht := h.t.step op
  cases op with
  | setMjd m =>
    exact ⟨ht, rfl, rfl, rfl, rfl, rfl, rfl, rfl, rfl, (by intro v hv; cases hv), (by intro v hv; cases hv), (by intro v hv; cases hv),
      (by intro v hv; cases hv), (by intro v hv; cases hv), (by intro v hv; cases hv)⟩
  | setLmst v => exact { h with t := ht }
  | setSky d =>
    exact { h with t := ht, sky := by show merge s.sky d = merge i.sky d; rw [h.sky], m5 := (by intro v hv; cases hv) }
  | setFwhm d =>
    exact { h with t := ht, fwhm := by show merge s.fwhm d = merge i.fwhm d; rw [h.fwhm], m5 := (by intro v hv; cases hv) }
  | setWindSpeed v =>
    exact { h with t := ht, windSpeed := rfl, wind := fun w hw => absurd trivial (hu _ (h.wind w hw).1) }
  | setWindDir v =>
    exact { h with t := ht, windDir := rfl, wind := fun w hw => absurd trivial (hu _ (h.wind w hw).1) }
  | setSunRa v =>
    exact { h with t := ht, sunRa := rfl, elong := fun w hw => absurd trivial (hu _ (h.elong w hw).1),
                   azSun := fun w hw => absurd trivial (hu _ (h.azSun w hw).1), azAnti := fun w hw => absurd trivial (hu _ (h.azAnti w hw).1) }
  | setSunDec v =>
    exact { h with t := ht, sunDec := rfl, elong := fun w hw => absurd trivial (hu _ (h.elong w hw).1) }
  | setTelAlt v =>
    exact { h with t := ht, telAlt := rfl, airmass := fun w hw => absurd (h.airmass w hw).1 (hTel v rfl).1,
                   m5 := fun w hw => absurd (h.m5 w hw).1 (hTel v rfl).2 }
  | setLims v => exact { h with t := ht, lims := rfl }
  | read q =>
    obtain ⟨v, hv⟩ := Option.isSome_iff_exists.1 hok
    exact (h.read q hv).1

/-- The inputs and caches after a history. -/
theorem run_coh [DecidableEq V] (F : Fns V) (h : List (Op V)) : ∀ s, run F {} h = some s → Settled h → Coh F s (inputs h) (readsSince h) := by
  induction h using List.reverseRecOn with
  | nil => intro s e _; cases e; exact Coh.empty F
  | append_singleton h op ih =>
    intro s e hs
    obtain ⟨s1, e1, hok, rfl⟩ := run_snoc F h op _ _ e
    rw [inputs_snoc, readsSince_snoc]
    exact (ih s1 e1 hs.init).step op (fun q hq => hs.last hq) hok

/-! ### Shadow masks -/

/-- The masks in the cache. -/
structure MCoh (F : Fns V) (s : St V) (i : Inputs V) (rs : List Q) (ts : List V) : Prop where
  now : ∀ m, i.mjd = some m → m ∈ ts
  old : ∀ e ∈ s.masks, e.1.1 ∈ ts
  cur : ∀ e ∈ s.masks, i.mjd = some e.1.1 → Q.shadow e.1.2 ∈ rs ∧ fresh F i (.shadow e.1.2) = some (.map e.2)

theorem mem_hit [DecidableEq V] {k : V × ℕ} {l : List ((V × ℕ) × V)} {v : V} (h : hit k l = some v) : (k, v) ∈ l := by
  unfold hit at h
  obtain ⟨e, he, rfl⟩ := Option.map_eq_some_iff.1 h
  have h1 := List.find?_some he
  have h2 := List.mem_of_find?_eq_some he
  have : e.1 = k := by simpa using h1
  rw [← this]
  exact h2

theorem readShadow_spec [DecidableEq V] {F : Fns V} {s : St V} {i : Inputs V} {rs : List Q} {ts : List V} (hc : Coh F s i rs) (h : MCoh F s i rs ts) (n : ℕ) :
    MCoh F (readShadow F s n).1 i (.shadow n :: rs) ts ∧ ∀ v, (readShadow F s n).2 = some v → fresh F i (.shadow n) = some (.map v) := by
  have h' : MCoh F s i (.shadow n :: rs) ts := ⟨h.now, h.old, fun e he hm => ⟨List.mem_cons_of_mem _ (h.cur e he hm).1, (h.cur e he hm).2⟩⟩
  unfold readShadow
  rcases hm : s.mjd with _ | m
  · exact ⟨h', (by intro v hv; cases hv)⟩
  · dsimp only
    have hi : i.mjd = some m := by rw [← hc.t.mjd, hm]
    rcases hh : hit (m, n) s.masks with _ | v
    · dsimp only
      obtain ⟨a1, a2, x, a3⟩ := readAltAz_spec hc.t
      rw [hi] at a2
      rcases hr : readAltAz F s with ⟨s1, _ | p⟩ <;> rw [hr] at a1 a2 a3 <;> dsimp only at a1 a2 a3 ⊢
      · cases a2
      · simp only [Option.map_some, Option.some.injEq] at a2
        subst a2
        have hf : fresh F i (.shadow n) = some (.map (F.shadow n m (F.alt m) (F.az m) s.telAlt s.lims)) := by
          unfold fresh; rw [hi, hc.telAlt, hc.lims]; rfl
        refine ⟨⟨h.now, ?_, ?_⟩, ?_⟩
        · intro e he
          rcases List.mem_cons.1 (List.mem_of_mem_take he) with rfl | he
          · exact h.now m hi
          · exact h.old e he
        · intro e he hm'
          rcases List.mem_cons.1 (List.mem_of_mem_take he) with rfl | he
          · exact ⟨List.mem_cons_self, hf⟩
          · exact h'.cur e he hm'
        · intro v hv
          cases hv
          exact hf
    · have hmem := mem_hit hh
      have hf := (h.cur _ hmem hi).2
      refine ⟨⟨h.now, ?_, ?_⟩, ?_⟩
      · intro e he
        rcases List.mem_cons.1 he with rfl | he
        · exact h.old _ hmem
        · exact h.old e (List.mem_of_mem_filter he)
      · intro e he hm'
        rcases List.mem_cons.1 he with rfl | he
        · exact ⟨List.mem_cons_self, hf⟩
        · exact h'.cur e (List.mem_of_mem_filter he) hm'
      · intro v hv
        cases hv
        exact hf

theorem MCoh.step [DecidableEq V] {F : Fns V} {s : St V} {i : Inputs V} {rs : List Q} {ts : List V} (hc : Coh F s i rs) (h : MCoh F s i rs ts)
    (op : Op V) (hu : ∀ q ∈ rs, ¬Uses q op) (hn : ∀ m, op = .setMjd (some m) → m ∉ ts) :
    MCoh F (step F s op).1 (i.next op) (nextReads rs op)
      (ts ++ newTimes op) := by
  have keep : ∀ q, MCoh F s i (q :: rs) ts :=
    fun q => ⟨h.now, h.old, fun e he hm => ⟨List.mem_cons_of_mem _ (h.cur e he hm).1, (h.cur e he hm).2⟩⟩
  have same : ∀ (q : Q) (s' : St V), s'.masks = s.masks → MCoh F s' i (q :: rs) ts := by
    intro q s' e
    exact ⟨h.now, by rw [e]; exact h.old, by rw [e]; exact (keep q).cur⟩
  cases op with
  | setMjd m =>
    cases m with
    | none =>
      refine ⟨(by intro m hm; cases hm), ?_, (by intro e he hm; cases hm)⟩
      intro e he
      simpa [newTimes] using h.old e he
    | some m =>
      refine ⟨?_, ?_, ?_⟩
      · intro m' hm'
        cases hm'
        simp [newTimes]
      · intro e he
        exact List.mem_append_left _ (h.old e he)
      · intro e he hm
        have e1 : e.1.1 = m := by
          have := Option.some.inj (show some m = some e.1.1 from hm)
          exact this.symm
        exact absurd (h.old e he) (by rw [e1]; exact hn m rfl)
  | setTelAlt v =>
    simp only [newTimes, List.append_nil]
    exact ⟨h.now, h.old, fun e he hm => absurd trivial (hu _ (h.cur e he hm).1)⟩
  | setLims v =>
    simp only [newTimes, List.append_nil]
    exact ⟨h.now, h.old, fun e he hm => absurd trivial (hu _ (h.cur e he hm).1)⟩
  | read q =>
    simp only [newTimes, List.append_nil]
    cases q with
    | alt => obtain ⟨_, _, x, e⟩ := readAltAz_spec hc.t; exact same _ _ (by show (readAltAz F s).1.masks = _; rw [e])
    | az => obtain ⟨_, _, x, e⟩ := readAltAz_spec hc.t; exact same _ _ (by show (readAltAz F s).1.masks = _; rw [e])
    | pa => obtain ⟨_, _, x, y, e⟩ := readPa_spec hc.t; exact same _ _ (by show (readPa F s).1.masks = _; rw [e])
    | lmst => obtain ⟨_, _, x, e⟩ := readLmst_spec hc.t; exact same _ _ (by show (readLmst F s).1.masks = _; rw [e])
    | ha => obtain ⟨_, _, x, y, e⟩ := readHa_spec hc.t; exact same _ _ (by show (readHa F s).1.masks = _; rw [e])
    | airmass => obtain ⟨x, e⟩ := readAirmass_frame F s; exact same _ _ (by show (readAirmass F s).1.masks = _; rw [e])
    | m5 => obtain ⟨x, e⟩ := readM5_frame F s; exact same _ _ (by show (readM5 F s).1.masks = _; rw [e])
    | elong => obtain ⟨x, e⟩ := readElong_frame F s; exact same _ _ (by show (readElong F s).1.masks = _; rw [e])
    | azSun => obtain ⟨x, e⟩ := readAzSun_frame F s; exact same _ _ (by show (readAzSun F s).1.masks = _; rw [e])
    | azAnti => obtain ⟨x, e⟩ := readAzAnti_frame F s; exact same _ _ (by show (readAzAnti F s).1.masks = _; rw [e])
    | wind => obtain ⟨_, x, y, e⟩ := readWind_frame hc.t; exact same _ _ (by show (readWind F s).1.masks = _; rw [e])
    | night => exact same _ _ rfl
    | shadow n => exact (readShadow_spec hc h n).1
  | setLmst v => simp only [newTimes, List.append_nil]; exact ⟨h.now, h.old, h.cur⟩
  | setSky d => simp only [newTimes, List.append_nil]; exact ⟨h.now, h.old, h.cur⟩
  | setFwhm d => simp only [newTimes, List.append_nil]; exact ⟨h.now, h.old, h.cur⟩
  | setWindSpeed v => simp only [newTimes, List.append_nil]; exact ⟨h.now, h.old, h.cur⟩
  | setWindDir v => simp only [newTimes, List.append_nil]; exact ⟨h.now, h.old, h.cur⟩
  | setSunRa v => simp only [newTimes, List.append_nil]; exact ⟨h.now, h.old, h.cur⟩
  | setSunDec v => simp only [newTimes, List.append_nil]; exact ⟨h.now, h.old, h.cur⟩

theorem run_mcoh [DecidableEq V] (F : Fns V) (h : List (Op V)) : ∀ s, run F {} h = some s → Settled h → (times h).Nodup →
    MCoh F s (inputs h) (readsSince h) (times h) := by
  induction h using List.reverseRecOn with
  | nil =>
    intro s e _ _
    cases e
    exact ⟨(by intro m hm; cases hm), (by intro e he; cases he), (by intro e he; cases he)⟩
  | append_singleton h op ih =>
    intro s e hs hn
    obtain ⟨s1, e1, hok, rfl⟩ := run_snoc F h op _ _ e
    rw [times_snoc] at hn
    have hn1 := (List.nodup_append.1 hn).1
    have hc := run_coh F h s1 e1 hs.init
    rw [inputs_snoc, readsSince_snoc, times_snoc]
    refine (ih s1 e1 hs.init hn1).step hc op (fun q hq => hs.last hq) ?_
    rintro m rfl hm
    exact (List.nodup_append.1 hn).2.2 m hm m (by simp [newTimes]) rfl

end Verif.Cond
