import Verif.Model.ConditionsSet

/-! C205: setting all conditions in one call. -/

namespace Verif

open Cset

/-- Two objects agree on the attributes in `S`. -/
def AgreeOn (S : String → Prop) (a b : Attrs) : Prop := ∀ k, S k → a k = b k

theorem upd_agree {S : String → Prop} {a b : Attrs} (h : AgreeOn S a b) (k : String) (v : PV) :
    AgreeOn (fun x => S x ∨ x = k) (upd a k v) (upd b k v) := by
  intro x hx
  unfold upd
  by_cases e : x = k
  · rw [if_pos e, if_pos e]
  · rw [if_neg e, if_neg e]
    exact h x (hx.resolve_right e)

theorem AgreeOn.mono {S T : String → Prop} {a b : Attrs} (h : AgreeOn T a b) (hs : ∀ k, S k → T k) : AgreeOn S a b :=
  fun k hk => h k (hs k hk)

theorem init_agree {S : String → Prop} {a b : Attrs} (h : AgreeOn S a b) :
    AgreeOn (fun k => S k ∨ (cleared k).isSome) (init a) (init b) := by
  intro k hk
  unfold init
  rcases hc : cleared k with _ | v
  · rw [hc] at hk
    exact h k (hk.resolve_right (by simp))
  · rfl

/-- Both raise, or both end in objects that agree. -/
def AgreeAfter (S : String → Prop) : Option Attrs → Option Attrs → Prop
  | some a, some b => AgreeOn S a b
  | none, none => True
  | _, _ => False

theorem setOne_agree {S : String → Prop} {a b : Attrs} (h : AgreeOn S a b) (hs : S "skybrightness") (hf : S "fwhm_eff")
    (p : String × PV) (hn : p.1 ≠ "night") : AgreeAfter (fun k => S k ∨ k = p.1) (setOne a p) (setOne b p) := by
  unfold setOne
  rw [if_neg hn, if_neg hn]
  by_cases h1 : p.1 = "mjd"
  · rw [if_pos h1, if_pos h1, ← h1]
    exact (upd_agree (init_agree h) p.1 p.2).mono (fun k hk => hk.imp Or.inl id)
  rw [if_neg h1, if_neg h1]
  by_cases h2 : p.1 = "current_filter"
  · rw [if_pos h2, if_pos h2]
    unfold setFilter
    split
    · exact (upd_agree (upd_agree h _ _) _ _).mono (fun k hk => by rw [h2] at hk; exact Or.inl hk)
    · trivial
  rw [if_neg h2, if_neg h2]
  by_cases h3 : p.1 = "mounted_filters"
  · rw [if_pos h3, if_pos h3]
    unfold setMounted
    split
    · exact (upd_agree (upd_agree h _ _) _ _).mono (fun k hk => by rw [h3] at hk; exact Or.inl hk)
    · trivial
  rw [if_neg h3, if_neg h3]
  by_cases h4 : p.1 = "skybrightness" ∨ p.1 = "fwhm_eff"
  · rw [if_pos h4, if_pos h4]
    have hp : S p.1 := by rcases h4 with e | e <;> rw [e] <;> assumption
    rw [h p.1 hp]
    rcases (b p.1).bind (fun old => mergeInto old p.2) with _ | v
    · trivial
    · exact upd_agree h p.1 v
  rw [if_neg h4, if_neg h4]
  by_cases h5 : p.1 ∈ readOnly
  · rw [if_pos h5, if_pos h5]; trivial
  · rw [if_neg h5, if_neg h5]
    exact upd_agree h p.1 p.2

theorem setAll_agree : ∀ (ps : List (String × PV)) {S : String → Prop} {a b : Attrs}, AgreeOn S a b →
    S "skybrightness" → S "fwhm_eff" →
    AgreeAfter (fun k => S k ∨ (k ∈ ps.map Prod.fst ∧ k ≠ "night")) (setAll a ps) (setAll b ps)
  | [], S, a, b, h, _, _ => h.mono (fun k hk => hk.resolve_right (fun e => by simpa using e.1))
  | p :: ps, S, a, b, h, hs, hf => by
    unfold setAll
    rw [List.foldlM_cons, List.foldlM_cons]
    by_cases hn : p.1 = "night"
    · have e : ∀ c : Attrs, setOne c p = some c := by intro c; unfold setOne; rw [if_pos hn]
      rw [e, e]
      have ih := setAll_agree ps h hs hf
      show AgreeAfter _ (setAll a ps) (setAll b ps)
      rcases ha : setAll a ps with _ | a' <;> rcases hb : setAll b ps with _ | b' <;> rw [ha, hb] at ih
      · trivial
      · exact False.elim ih
      · exact False.elim ih
      · refine AgreeOn.mono ih (fun k hk => hk.imp_right (fun e => ⟨?_, e.2⟩))
        rcases List.mem_cons.1 e.1 with e' | e'
        · exact absurd (e'.trans hn) e.2
        · exact e'
    · have h1 := setOne_agree h hs hf p hn
      rcases ha : setOne a p with _ | a1 <;> rcases hb : setOne b p with _ | b1 <;> rw [ha, hb] at h1
      · trivial
      · exact False.elim h1
      · exact False.elim h1
      · have ih := setAll_agree ps h1 (Or.inl hs) (Or.inl hf)
        show AgreeAfter _ (setAll a1 ps) (setAll b1 ps)
        rcases ha : setAll a1 ps with _ | a' <;> rcases hb : setAll b1 ps with _ | b' <;> rw [ha, hb] at ih
        · trivial
        · exact False.elim ih
        · exact False.elim ih
        · refine AgreeOn.mono ih (fun k hk => ?_)
          rcases hk with hk | ⟨hk, hk'⟩
          · exact Or.inl (Or.inl hk)
          · rcases List.mem_cons.1 hk with e | e
            · exact Or.inl (Or.inr e)
            · exact Or.inr ⟨e, hk'⟩

/-- The attributes whose value after the call is settled by the call: those that are reset,
those that are given, and the extra keywords. -/
def Settles (params : List String) (kwargs : List (String × PV)) (k : String) : Prop :=
  (cleared k).isSome ∨ ((k ∈ params ∨ k ∈ kwargs.map Prod.fst) ∧ k ≠ "night")

/-- C205, the part that holds: whether the call succeeds, and the value of every attribute that
it resets or sets, does not depend on what the object was before. Missing: attributes outside
this list, which stay (`C205_extra_violated`). -/
theorem C205_forgets_partial (params : List String) (vals : List PV) (kwargs : List (String × PV)) (a b : Attrs) :
    AgreeAfter (Settles params kwargs) (setInfo params vals kwargs a) (setInfo params vals kwargs b) := by
  unfold setInfo
  by_cases hl : vals.length = params.length
  · rw [if_pos hl, if_pos hl]
    have h0 : AgreeOn (fun k => (cleared k).isSome = true) (init a) (init b) :=
      (init_agree (S := fun _ => False) (fun _ h => h.elim)).mono (fun k hk => Or.inr hk)
    have h1 := setAll_agree (params.zip vals) h0 rfl rfl
    rcases ha : setAll (init a) (params.zip vals) with _ | a1 <;>
      rcases hb : setAll (init b) (params.zip vals) with _ | b1 <;> rw [ha, hb] at h1
    · trivial
    · exact False.elim h1
    · exact False.elim h1
    · have h2 := setAll_agree kwargs (upd_agree h1 "kwargs" (.dict (kwargs.map Prod.fst)))
        (Or.inl (Or.inl rfl)) (Or.inl (Or.inl rfl))
      show AgreeAfter _ (setAll _ kwargs) (setAll _ kwargs)
      rcases ha : setAll (upd a1 "kwargs" (.dict (kwargs.map Prod.fst))) kwargs with _ | a2 <;>
        rcases hb : setAll (upd b1 "kwargs" (.dict (kwargs.map Prod.fst))) kwargs with _ | b2 <;> rw [ha, hb] at h2
      · trivial
      · exact False.elim h2
      · exact False.elim h2
      · refine AgreeOn.mono h2 (fun k hk => ?_)
        rcases hk with hk | ⟨hk | hk, hn⟩
        · exact Or.inl (Or.inl (Or.inl hk))
        · refine Or.inl (Or.inl (Or.inr ⟨?_, hn⟩))
          rw [List.map_fst_zip (Nat.le_of_eq hl.symm)]
          exact hk
        · exact Or.inr ⟨hk, hn⟩
  · rw [if_neg hl, if_neg hl]; trivial

/-! ### The values -/

/-- The attributes that an assignment may change. -/
def touches (k : String) : List String :=
  if k = "current_filter" then ["current_filter", "current_band"]
  else if k = "mounted_filters" then ["mounted_filters", "mounted_bands"]
  else [k]

theorem upd_at (a : Attrs) (k : String) (v : PV) : upd a k v k = some v := if_pos rfl

theorem upd_off (a : Attrs) (k x : String) (v : PV) (h : x ≠ k) : upd a k v x = a x := if_neg h

theorem setOne_off (a b : Attrs) (p : String × PV) (h : setOne a p = some b) (hm : p.1 ≠ "mjd") (x : String)
    (hx : x ∉ touches p.1) : b x = a x := by
  unfold setOne at h
  unfold touches at hx
  by_cases h0 : p.1 = "night"
  · rw [if_pos h0, Option.some.injEq] at h; rw [h]
  rw [if_neg h0, if_neg hm] at h
  by_cases h2 : p.1 = "current_filter"
  · rw [if_pos h2] at h hx
    unfold setFilter at h
    split at h
    · rw [Option.some.injEq] at h
      rw [← h, upd_off _ _ _ _ (fun e => hx (by rw [e]; simp)), upd_off _ _ _ _ (fun e => hx (by rw [e]; simp))]
    · exact absurd h (by simp)
  rw [if_neg h2] at h hx
  by_cases h3 : p.1 = "mounted_filters"
  · rw [if_pos h3] at h hx
    unfold setMounted at h
    split at h
    · rw [Option.some.injEq] at h
      rw [← h, upd_off _ _ _ _ (fun e => hx (by rw [e]; simp)), upd_off _ _ _ _ (fun e => hx (by rw [e]; simp))]
    · exact absurd h (by simp)
  rw [if_neg h3] at h hx
  rw [List.mem_singleton] at hx
  by_cases h4 : p.1 = "skybrightness" ∨ p.1 = "fwhm_eff"
  · rw [if_pos h4] at h
    rcases hm : (a p.1).bind (fun old => mergeInto old p.2) with _ | v
    · rw [hm] at h; exact absurd h (by simp)
    · rw [hm, Option.map_some, Option.some.injEq] at h
      rw [← h, upd_off _ _ _ _ hx]
  rw [if_neg h4] at h
  by_cases h5 : p.1 ∈ readOnly
  · rw [if_pos h5] at h; exact absurd h (by simp)
  · rw [if_neg h5, Option.some.injEq] at h
    rw [← h, upd_off _ _ _ _ hx]

theorem setAll_off : ∀ (ps : List (String × PV)) (a b : Attrs), setAll a ps = some b → (∀ p ∈ ps, p.1 ≠ "mjd") →
    ∀ x, (∀ p ∈ ps, x ∉ touches p.1) → b x = a x
  | [], a, b, h, _, x, _ => by
    rw [show setAll a [] = some a from rfl, Option.some.injEq] at h; rw [h]
  | p :: ps, a, b, h, hm, x, hx => by
    unfold setAll at h
    rw [List.foldlM_cons] at h
    rcases h1 : setOne a p with _ | a1
    · rw [h1] at h; exact absurd h (by simp)
    · rw [h1] at h
      rw [setAll_off ps a1 b h (fun q hq => hm q (List.mem_cons_of_mem _ hq)) x
        (fun q hq => hx q (List.mem_cons_of_mem _ hq)),
        setOne_off a a1 p h1 (hm p List.mem_cons_self) x (hx p List.mem_cons_self)]

theorem put_fold : ∀ (e d : List (String × ℕ)), ((d ++ e).map Prod.fst).Nodup → e.foldl put d = d ++ e
  | [], d, _ => by simp
  | p :: e, d, h => by
    rw [List.foldl_cons]
    have hp : p.1 ∉ d.map Prod.fst := by
      rw [List.map_append, List.map_cons] at h
      have := List.nodup_append.1 h
      intro hm
      exact this.2.2 p.1 hm p.1 List.mem_cons_self rfl
    have hput : put d p = d ++ [p] := if_neg hp
    rw [hput, put_fold e (d ++ [p]) (by simpa using h), List.append_assoc]
    rfl

/-- A value fits its parameter: the filter in use is a name, those mounted are names, and the
two tables of maps are tables in which no band is twice. -/
def FitsParam (p : String × PV) : Prop :=
  (p.1 = "current_filter" → ∃ s, p.2 = .text s) ∧ (p.1 = "mounted_filters" → ∃ l, p.2 = .texts l) ∧
    (p.1 = "skybrightness" ∨ p.1 = "fwhm_eff" → ∃ d, p.2 = .maps d ∧ (d.map Prod.fst).Nodup)

theorem setOne_fits (a : Attrs) (p : String × PV) (hf : FitsParam p) (hr : p.1 ∉ readOnly)
    (ht : p.1 = "skybrightness" ∨ p.1 = "fwhm_eff" → a p.1 = some (.maps [])) :
    ∃ b, setOne a p = some b ∧ (p.1 ≠ "night" → b p.1 = some p.2) ∧
      (p.1 = "current_filter" → ∀ s, p.2 = .text s → b "current_band" = some (.text (bandOf s))) ∧
      (p.1 = "mounted_filters" → ∀ l, p.2 = .texts l → b "mounted_bands" = some (.texts (l.map bandOf))) := by
  unfold setOne
  by_cases h0 : p.1 = "night"
  · rw [if_pos h0, h0]
    exact ⟨a, rfl, fun h => absurd rfl h, fun h => absurd h (by decide), fun h => absurd h (by decide)⟩
  rw [if_neg h0]
  by_cases h1 : p.1 = "mjd"
  · rw [if_pos h1, h1]
    exact ⟨_, rfl, fun _ => upd_at _ _ _, fun h => absurd h (by decide), fun h => absurd h (by decide)⟩
  rw [if_neg h1]
  by_cases h2 : p.1 = "current_filter"
  · obtain ⟨s, hs⟩ := hf.1 h2
    rw [if_pos h2, hs, h2]
    refine ⟨_, rfl, fun _ => ?_, fun _ t ht => ?_, fun h => absurd h (by decide)⟩
    · rw [upd_off _ _ _ _ (by decide), upd_at]
    · injection ht with ht
      rw [← ht, upd_at]
  rw [if_neg h2]
  by_cases h3 : p.1 = "mounted_filters"
  · obtain ⟨s, hs⟩ := hf.2.1 h3
    rw [if_pos h3, hs, h3]
    refine ⟨_, rfl, fun _ => ?_, fun h => absurd h (by decide), fun _ t ht => ?_⟩
    · rw [upd_off _ _ _ _ (by decide), upd_at]
    · injection ht with ht
      rw [← ht, upd_at]
  rw [if_neg h3]
  by_cases h4 : p.1 = "skybrightness" ∨ p.1 = "fwhm_eff"
  · obtain ⟨d, hd, hn⟩ := hf.2.2 h4
    rw [if_pos h4, ht h4, hd]
    refine ⟨_, rfl, fun _ => ?_, fun h => absurd h h2, fun h => absurd h h3⟩
    show upd a p.1 (PV.maps (d.foldl put [])) p.1 = _
    rw [upd_at]
    rw [put_fold d [] (by simpa using hn)]
    rfl
  rw [if_neg h4, if_neg hr]
  exact ⟨_, rfl, fun _ => upd_at _ _ _, fun h => absurd h h2, fun h => absurd h h3⟩

/-- What the object should say after values were given for names. -/
def Says (b : Attrs) (ps : List (String × PV)) : Prop :=
  ∀ p ∈ ps, (p.1 ≠ "night" → b p.1 = some p.2) ∧
    (p.1 = "current_filter" → ∀ s, p.2 = .text s → b "current_band" = some (.text (bandOf s))) ∧
    (p.1 = "mounted_filters" → ∀ l, p.2 = .texts l → b "mounted_bands" = some (.texts (l.map bandOf)))

theorem touches_self (k : String) : k ∈ touches k := by
  unfold touches; split_ifs with h h <;> simp [h]

theorem setAll_says : ∀ (ps : List (String × PV)) (a : Attrs), (∀ p ∈ ps, FitsParam p) → (∀ p ∈ ps, p.1 ∉ readOnly) →
    (∀ p ∈ ps, p.1 ≠ "mjd") → (ps.map Prod.fst).Nodup →
    (∀ p ∈ ps, p.1 ≠ "current_band" ∧ p.1 ≠ "mounted_bands") →
    (∀ k, k = "skybrightness" ∨ k = "fwhm_eff" → k ∈ ps.map Prod.fst → a k = some (.maps [])) →
    ∃ b, setAll a ps = some b ∧ Says b ps
  | [], a, _, _, _, _, _, _ => ⟨a, rfl, fun p hp => absurd hp (by simp)⟩
  | p :: ps, a, hf, hr, hm, hn, hb, ht => by
    rw [List.map_cons, List.nodup_cons] at hn
    obtain ⟨a1, e1, v1, v2, v3⟩ := setOne_fits a p (hf p List.mem_cons_self) (hr p List.mem_cons_self)
      (fun h => ht p.1 h (by simp))
    have hoff : ∀ q ∈ ps, ∀ x, x = p.1 ∨ x = "current_band" ∨ x = "mounted_bands" →
        (x = "current_band" → p.1 = "current_filter") → (x = "mounted_bands" → p.1 = "mounted_filters") →
        x ∉ touches q.1 := by
      intro q hq x hx h1 h2 hmem
      have hqp : q.1 ≠ p.1 := fun e => hn.1 (by rw [← e]; exact List.mem_map_of_mem hq)
      have hqb := hb q (List.mem_cons_of_mem _ hq)
      have hpb := hb p List.mem_cons_self
      unfold touches at hmem
      by_cases c1 : q.1 = "current_filter"
      · rw [if_pos c1] at hmem
        have : x = "current_filter" ∨ x = "current_band" := by simpa using hmem
        rcases this with e | e
        · rcases hx with hx | hx | hx
          · exact hqp (by rw [c1, ← hx, e])
          · rw [e] at hx; exact absurd hx (by decide)
          · rw [e] at hx; exact absurd hx (by decide)
        · exact hqp (by rw [c1, h1 e])
      · rw [if_neg c1] at hmem
        by_cases c2 : q.1 = "mounted_filters"
        · rw [if_pos c2] at hmem
          have : x = "mounted_filters" ∨ x = "mounted_bands" := by simpa using hmem
          rcases this with e | e
          · rcases hx with hx | hx | hx
            · exact hqp (by rw [c2, ← hx, e])
            · rw [e] at hx; exact absurd hx (by decide)
            · rw [e] at hx; exact absurd hx (by decide)
          · exact hqp (by rw [c2, h2 e])
        · rw [if_neg c2, List.mem_singleton] at hmem
          rcases hx with hx | hx | hx
          · exact hqp (by rw [← hmem, hx])
          · exact hqb.1 (by rw [← hmem, hx])
          · exact hqb.2 (by rw [← hmem, hx])
    obtain ⟨b, e2, hs⟩ := setAll_says ps a1 (fun q hq => hf q (List.mem_cons_of_mem _ hq))
      (fun q hq => hr q (List.mem_cons_of_mem _ hq)) (fun q hq => hm q (List.mem_cons_of_mem _ hq)) hn.2
      (fun q hq => hb q (List.mem_cons_of_mem _ hq))
      (fun k hk hmem => by
        have hkp : k ≠ p.1 := fun e => hn.1 (by rw [← e]; exact hmem)
        rw [setOne_off a a1 p e1 (hm p List.mem_cons_self) k ?_]
        · exact ht k hk (by rw [List.map_cons]; exact List.mem_cons_of_mem _ hmem)
        · unfold touches
          split_ifs
          · rcases hk with rfl | rfl <;> decide
          · rcases hk with rfl | rfl <;> decide
          · simpa using hkp)
    have keep : ∀ x, (∀ q ∈ ps, x ∉ touches q.1) → b x = a1 x :=
      setAll_off ps a1 b e2 (fun q hq => hm q (List.mem_cons_of_mem _ hq))
    refine ⟨b, ?_, ?_⟩
    · unfold setAll
      rw [List.foldlM_cons, e1]
      exact e2
    · intro q hq
      rcases List.mem_cons.1 hq with rfl | hq
      · have hpb := hb q List.mem_cons_self
        refine ⟨fun h => ?_, fun h s hs => ?_, fun h l hl => ?_⟩
        · rw [keep q.1 (fun r hr => hoff r hr q.1 (Or.inl rfl) (fun e => absurd e hpb.1) (fun e => absurd e hpb.2))]
          exact v1 h
        · rw [keep "current_band" (fun r hr => hoff r hr _ (Or.inr (Or.inl rfl)) (fun _ => h)
            (fun e => absurd e (by decide)))]
          exact v2 h s hs
        · rw [keep "mounted_bands" (fun r hr => hoff r hr _ (Or.inr (Or.inr rfl)) (fun e => absurd e (by decide))
            (fun _ => h))]
          exact v3 h l hl
      · exact hs q hq

/-- Lists of parameters as in the code: the time first and once, no name twice, none of them a
computed quantity or a band. -/
def GoodParams (params : List String) : Prop :=
  params.head? = some "mjd" ∧ params.Nodup ∧ ∀ k ∈ params, k ∉ readOnly ∧ k ≠ "current_band" ∧ k ≠ "mounted_bands"

theorem mainParams_good : GoodParams mainParams := by unfold GoodParams; decide
theorem auxParams_good : GoodParams auxParams := by unfold GoodParams; decide

/-- C205: with values that fit, each attribute reads as it was given, whatever the object was
before, and the bands in use and mounted are the filters' names up to the first underscore; extra
keywords do not change this. -/
theorem C205_values (params : List String) (hp : GoodParams params) (vals : List PV) (hl : vals.length = params.length)
    (kwargs : List (String × PV)) (a : Attrs) (hf : ∀ p ∈ params.zip vals, FitsParam p)
    (hk : ∀ p ∈ kwargs, p.1 ∉ params ∧ p.1 ∉ readOnly ∧ p.1 ≠ "current_band" ∧ p.1 ≠ "mounted_bands")
    (hkf : ∀ p ∈ kwargs, p.1 ≠ "current_filter" ∧ p.1 ≠ "mounted_filters" ∧ p.1 ≠ "skybrightness" ∧ p.1 ≠ "fwhm_eff")
    (hkw : "kwargs" ∉ params) :
    ∃ b, setInfo params vals kwargs a = some b ∧ Says b (params.zip vals) := by
  obtain ⟨h0, hn, hr⟩ := hp
  rcases params with _ | ⟨m, rest⟩
  · exact absurd h0 (by simp)
  rw [List.head?_cons, Option.some.injEq] at h0
  subst h0
  rcases vals with _ | ⟨v, vals⟩
  · exact absurd hl (by simp)
  have hl' : vals.length = rest.length := by simpa using hl
  rw [List.nodup_cons] at hn
  rw [List.zip_cons_cons] at hf
  have hfst : (rest.zip vals).map Prod.fst = rest := List.map_fst_zip (Nat.le_of_eq hl'.symm)
  have hmem : ∀ p ∈ rest.zip vals, p.1 ∈ rest := by
    intro p hp
    rw [← hfst]
    exact List.mem_map_of_mem hp
  obtain ⟨b, hb, hs⟩ := setAll_says (rest.zip vals) (upd (init (init a)) "mjd" v)
    (fun p hp => hf p (List.mem_cons_of_mem _ hp))
    (fun p hp => (hr p.1 (List.mem_cons_of_mem _ (hmem p hp))).1)
    (fun p hp e => hn.1 (by rw [← e]; exact hmem p hp))
    (by rw [hfst]; exact hn.2)
    (fun p hp => (hr p.1 (List.mem_cons_of_mem _ (hmem p hp))).2)
    (fun k hk _ => by rcases hk with rfl | rfl <;> rfl)
  have hbm : b "mjd" = some v := by
    rw [setAll_off (rest.zip vals) _ b hb (fun p hp e => hn.1 (by rw [← e]; exact hmem p hp)) "mjd" ?_, upd_at]
    intro p hp he
    have : p.1 ≠ "mjd" := fun e => hn.1 (by rw [← e]; exact hmem p hp)
    unfold touches at he
    split_ifs at he
    · exact absurd he (by decide)
    · exact absurd he (by decide)
    · exact this (List.mem_singleton.1 he).symm
  have hall : setAll (init a) (("mjd", v) :: rest.zip vals) = some b := by
    unfold setAll
    rw [List.foldlM_cons]
    exact hb
  have hplain : ∀ ps : List (String × PV), (∀ p ∈ ps, p ∈ kwargs) → ∀ c, ∃ d, setAll c ps = some d := by
    intro ps
    induction ps with
    | nil => intro _ c; exact ⟨c, rfl⟩
    | cons p ps ih =>
      intro hsub c
      have hpk := hsub p List.mem_cons_self
      have h1 : ∃ c', setOne c p = some c' := by
        unfold setOne
        by_cases e0 : p.1 = "night"
        · rw [if_pos e0]; exact ⟨_, rfl⟩
        rw [if_neg e0, if_neg (fun e => (hk p hpk).1 (by rw [e]; exact List.mem_cons_self)), if_neg (hkf p hpk).1,
          if_neg (hkf p hpk).2.1, if_neg (fun e => e.elim (hkf p hpk).2.2.1 (hkf p hpk).2.2.2), if_neg (hk p hpk).2.1]
        exact ⟨_, rfl⟩
      obtain ⟨c', hc'⟩ := h1
      obtain ⟨d, hd⟩ := ih (fun q hq => hsub q (List.mem_cons_of_mem _ hq)) c'
      refine ⟨d, ?_⟩
      unfold setAll
      rw [List.foldlM_cons, hc']
      exact hd
  obtain ⟨d, hd⟩ := hplain kwargs (fun p hp => hp) (upd b "kwargs" (.dict (kwargs.map Prod.fst)))
  refine ⟨d, ?_, ?_⟩
  · unfold setInfo
    rw [if_pos hl, List.zip_cons_cons, hall]
    exact hd
  · have keep : ∀ x, x ∈ "mjd" :: rest ∨ x = "current_band" ∨ x = "mounted_bands" → d x = b x := by
      intro x hx
      rw [setAll_off kwargs _ d hd (fun p hp e => (hk p hp).1 (by rw [e]; exact List.mem_cons_self)) x ?_, upd_off]
      · rintro rfl
        rcases hx with hx | hx | hx
        · exact hkw hx
        · exact absurd hx (by decide)
        · exact absurd hx (by decide)
      · intro p hp he
        unfold touches at he
        rw [if_neg (hkf p hp).1, if_neg (hkf p hp).2.1, List.mem_singleton] at he
        rcases hx with hx | hx | hx
        · exact (hk p hp).1 (by rw [← he]; exact hx)
        · exact (hk p hp).2.2.1 (by rw [← he]; exact hx)
        · exact (hk p hp).2.2.2 (by rw [← he]; exact hx)
    rw [List.zip_cons_cons]
    intro p hp
    rcases List.mem_cons.1 hp with rfl | hp
    · exact ⟨fun _ => (keep "mjd" (Or.inl List.mem_cons_self)).trans hbm, fun h => absurd (show "mjd" = "current_filter" from h) (by decide),
        fun h => absurd (show "mjd" = "mounted_filters" from h) (by decide)⟩
    · have := hs p hp
      refine ⟨fun h => (keep p.1 (Or.inl (List.mem_cons_of_mem _ (hmem p hp)))).trans (this.1 h), fun h s e => ?_, fun h l e => ?_⟩
      · exact (keep _ (Or.inr (Or.inl rfl))).trans (this.2.1 h s e)
      · exact (keep _ (Or.inr (Or.inr rfl))).trans (this.2.2 h l e)

/-- Values for `set_maintel_info`. -/
def mainVals : List PV :=
  [.other 60000, .other 1, .text "r_57", .texts ["u_24", "r_57"], .none, .maps [("r", 20)], .maps [("r", 1)]] ++
    List.replicate 26 (.other 3)

/-- They fit. -/
example : mainVals.length = mainParams.length ∧ (∀ p ∈ mainParams.zip mainVals, FitsParam p) ∧ "kwargs" ∉ mainParams := by
  refine ⟨rfl, ?_, by decide⟩
  intro p hp
  have hmap : mainParams.zip mainVals = [("mjd", .other 60000), ("slewtime", .other 1), ("current_filter", .text "r_57"),
      ("mounted_filters", .texts ["u_24", "r_57"]), ("night", .none), ("skybrightness", .maps [("r", 20)]),
      ("fwhm_eff", .maps [("r", 1)])] ++ (mainParams.drop 7).zip (List.replicate 26 (PV.other 3)) := rfl
  rw [hmap, List.mem_append] at hp
  rcases hp with hp | hp
  · simp only [List.mem_cons, List.not_mem_nil, or_false] at hp
    rcases hp with rfl | rfl | rfl | rfl | rfl | rfl | rfl <;> unfold FitsParam <;> simp
  · have h1 := (List.of_mem_zip hp).1
    have : ∀ k ∈ mainParams.drop 7, k ≠ "current_filter" ∧ k ≠ "mounted_filters" ∧ k ≠ "skybrightness" ∧ k ≠ "fwhm_eff" := by
      decide
    have h2 := this p.1 h1
    exact ⟨fun e => absurd e h2.1, fun e => absurd e h2.2.1, fun e => e.elim (fun e => absurd e h2.2.2.1) (fun e => absurd e h2.2.2.2)⟩

/-! ### What fails -/

/-- The full property: nothing of the earlier conditions is left. -/
def ForgetsAll (params : List String) (vals : List PV) (kwargs : List (String × PV)) (a b : Attrs) : Prop :=
  AgreeAfter (fun k => k ≠ "nside" ∧ k ≠ "site" ∧ k ≠ "survey_start_mjd") (setInfo params vals kwargs a)
    (setInfo params vals kwargs b)

/-- Values for `set_auxtel_info`. -/
def auxVals : List PV := List.replicate 12 (.other 3)

/-- An object without attributes. -/
def noAttrs : Attrs := fun _ => none

/-- C205 fails for extra keywords: one given at an earlier call is still there after a call
without it. -/
theorem C205_extra_violated :
    ∃ a, setInfo auxParams auxVals [("seeing_trend", .other 7)] noAttrs = some a ∧
      ¬ ForgetsAll auxParams auxVals [] a noAttrs := by
  have h1 : ((setInfo auxParams auxVals [("seeing_trend", .other 7)] noAttrs).bind
      (fun a => (setInfo auxParams auxVals [] a).bind (fun b => b "seeing_trend"))) = some (.other 7) := by decide
  have h2 : ((setInfo auxParams auxVals [] noAttrs).map (fun b => b "seeing_trend")) = some none := by decide
  rcases ha : setInfo auxParams auxVals [("seeing_trend", .other 7)] noAttrs with _ | a
  · rw [ha] at h1; exact absurd h1 (by simp)
  · refine ⟨a, rfl, ?_⟩
    rw [ha, Option.bind_some] at h1
    unfold ForgetsAll
    rcases hb : setInfo auxParams auxVals [] a with _ | b
    · rw [hb] at h1; exact absurd h1 (by simp)
    · rcases hc : setInfo auxParams auxVals [] noAttrs with _ | c
      · rw [hc] at h2; exact absurd h2 (by simp)
      · rw [hb, Option.bind_some] at h1
        rw [hc, Option.map_some, Option.some.injEq] at h2
        intro h
        have := h "seeing_trend" ⟨by decide, by decide, by decide⟩
        rw [h1, h2] at this
        exact absurd this (by simp)

/-- C205 fails without a filter in use: a main telescope whose filter is unknown (`None`) cannot be
described. -/
theorem C205_no_filter_violated : setInfo mainParams (mainVals.set 2 .none) [] noAttrs = none := by rfl

end Verif
