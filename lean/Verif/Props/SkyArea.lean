import Verif.Spec.SkyArea
import Verif.Props.Sphere
import Mathlib.Data.List.Dedup
import Mathlib.Algebra.BigOperators.Group.List.Basic

/-!
# Survey maps (C139)
-/

namespace Verif

open Real Sky Sph

/-! ### One region after the other -/

/-- What holds of a pixel after some regions. -/
def RegInv (rs : List SkyRegion) (x : Pix × Cell) : Prop :=
  (∃ r, FirstRegion rs x.1 r ∧ CellOf r x.2 ∧ x.2.label ≠ "") ∨ ((∀ r ∈ rs, ¬ r.has x.1) ∧ x.2.label = "" ∧ ∀ b, x.2.w b = 0)

theorem FirstRegion.append {rs : List SkyRegion} {p : Pix} {r : SkyRegion} (h : FirstRegion rs p r) (more : List SkyRegion) : FirstRegion (rs ++ more) p r := by
  obtain ⟨pre, post, e, h1, h2⟩ := h
  exact ⟨pre, post ++ more, by rw [e]; simp, h1, h2⟩

theorem FirstRegion.unique {rs : List SkyRegion} {p : Pix} {r r' : SkyRegion} (h : FirstRegion rs p r) (h' : FirstRegion rs p r') : r = r' := by
  obtain ⟨pre, post, e, h1, h2⟩ := h
  obtain ⟨pre', post', e', h1', h2'⟩ := h'
  rw [e] at e'
  rcases List.append_eq_append_iff.1 e' with ⟨l, e1, e2⟩ | ⟨l, e1, e2⟩
  · cases l with
    | nil => simp at e2; exact e2.1
    | cons a l =>
      simp only [List.cons_append, List.cons.injEq] at e2
      exact absurd (e2.1 ▸ h1) (h2' a (by rw [e1]; simp))
  · cases l with
    | nil => simp at e2; exact e2.1.symm
    | cons a l =>
      simp only [List.cons_append, List.cons.injEq] at e2
      exact absurd (e2.1 ▸ h1') (h2 a (by rw [e1]; simp))

theorem setAll_other {ws : Weights} {w : String → ℝ} {b : String} (h : ∀ e ∈ ws, e.1 ≠ b) : setAll w ws b = w b := by
  unfold setAll
  induction ws generalizing w with
  | nil => rfl
  | cons e ws ih =>
    rw [List.foldl_cons, ih (fun e' he' => h e' (List.mem_cons_of_mem _ he'))]
    exact if_neg (fun hb => h e List.mem_cons_self hb.symm)

theorem setAll_mem {ws : Weights} (hd : IsDict ws) {w : String → ℝ} {e : String × ℝ} (he : e ∈ ws) : setAll w ws e.1 = e.2 := by
  unfold IsDict at hd
  induction ws generalizing w with
  | nil => simp at he
  | cons a ws ih =>
    simp only [List.map_cons, List.nodup_cons] at hd
    rcases List.mem_cons.1 he with rfl | he
    · have : setAll w (e :: ws) e.1 = setAll (fun b => if b = e.1 then e.2 else w b) ws e.1 := rfl
      rw [this, setAll_other]
      · simp
      · intro x hx h
        exact hd.1 (h ▸ List.mem_map_of_mem hx)
    · exact ih hd.2 he

theorem take_label {s : String} (h : s.toList.length ≤ 20) : String.ofList (s.toList.take 20) = s := by
  rw [List.take_of_length_le h]
  exact String.ofList_toList

theorem addRegion_spec {name : String} {ws : Weights} {sel : Pix → Prop} {s s' : List (Pix × Cell)} (h : addRegion name ws sel s = some s') :
    s'.map Prod.fst = s.map Prod.fst ∧ ∀ x ∈ s', ∃ y ∈ s, x.1 = y.1 ∧
      ((sel y.1 ∧ y.2.label = "" ∧ x.2 = ⟨String.ofList (name.toList.take 20), setAll y.2.w ws⟩) ∨ (¬ (sel y.1 ∧ y.2.label = "") ∧ x = y)) := by
  classical
  unfold addRegion at h
  split_ifs at h with hb
  rw [Option.some.injEq] at h
  subst h
  constructor
  · rw [List.map_map]
    apply List.map_congr_left
    intro x _
    simp only [Function.comp]
    split_ifs <;> rfl
  · intro x hx
    obtain ⟨y, hy, rfl⟩ := List.mem_map.1 hx
    refine ⟨y, hy, ?_⟩
    split_ifs with c
    · exact ⟨rfl, Or.inl ⟨c.1, c.2, rfl⟩⟩
    · exact ⟨rfl, Or.inr ⟨c, rfl⟩⟩

theorem add_inv {rs : List SkyRegion} {r : SkyRegion} {sel : Pix → Prop} (name : String) (hname : r.name = name) (hn : name ≠ "") (hl : name.toList.length ≤ 20) (hd : IsDict r.ws)
    (hsel : ∀ p, sel p ↔ r.has p) {s s' : List (Pix × Cell)} (hs : ∀ x ∈ s, RegInv rs x) (h : addRegion r.name r.ws sel s = some s') :
    s'.map Prod.fst = s.map Prod.fst ∧ ∀ x ∈ s', RegInv (rs ++ [r]) x := by
  rw [← hname] at hn hl
  obtain ⟨h1, h2⟩ := addRegion_spec h
  refine ⟨h1, ?_⟩
  intro x hx
  obtain ⟨y, hy, e, hc⟩ := h2 x hx
  rcases hs y hy with ⟨q, f, co, ne⟩ | ⟨hno, hlab, hw⟩
  · rcases hc with ⟨-, he, -⟩ | ⟨-, rfl⟩
    · exact absurd he ne
    · exact Or.inl ⟨q, f.append _, co, ne⟩
  · rcases hc with ⟨hin, -, ex⟩ | ⟨hnot, rfl⟩
    · refine Or.inl ⟨r, ⟨rs, [], rfl, ?_, ?_⟩, ?_, ?_⟩
      · rw [e]; exact (hsel _).1 hin
      · intro q hq; rw [e]; exact hno q hq
      · rw [ex]
        refine ⟨take_label hl, fun e' he' => setAll_mem hd he', fun b hb => ?_⟩
        simp only
        rw [setAll_other hb, hw]
      · rw [ex]
        simp only
        rw [take_label hl]
        exact hn
    · refine Or.inr ⟨?_, hlab, hw⟩
      intro q hq
      rcases List.mem_append.1 hq with hq | hq
      · exact hno q hq
      · rw [List.mem_singleton] at hq
        subst hq
        intro hh
        exact hnot ⟨(hsel _).2 hh, hlab⟩

theorem rad_pos : 0 < π / 180 := by positivity

theorem near_circle (ra dec r : ℝ) (p : Pix) : circle ra dec r p ↔ NearPlace p ra dec r := by
  unfold circle NearPlace
  rw [C121_symm]

theorem near_bulgy (x : ℝ × ℝ × ℝ) (p : Pix) : bulgyCircle x p ↔ NearPlace p x.1 x.2.1 x.2.2 := by
  unfold bulgyCircle NearPlace deg
  have e : x.2.2 = rad x.2.2 * (180 / π) := by
    unfold rad
    field_simp
  conv_lhs => rw [e]
  exact mul_lt_mul_iff_left₀ (by positivity)

theorem bulgy_inv {rs : List SkyRegion} {ws : Weights} (hd : IsDict ws) (pts : List (ℝ × ℝ × ℝ)) : ∀ (pre : List (ℝ × ℝ × ℝ)) {s s' : List (Pix × Cell)},
    (∀ x ∈ s, RegInv (rs ++ [bulgyRegion pre ws]) x) → addBulgy pts ws s = some s' →
      s'.map Prod.fst = s.map Prod.fst ∧ ∀ x ∈ s', RegInv (rs ++ [bulgyRegion (pre ++ pts) ws]) x := by
  induction pts with
  | nil =>
    intro pre s s' hs h
    unfold addBulgy at h
    simp only [List.foldl_nil, Option.some.injEq] at h
    subst h
    exact ⟨rfl, by simpa using hs⟩
  | cons pt pts ih =>
    intro pre s s' hs h
    have hstep : addBulgy (pt :: pts) ws s = (addRegion "bulgy" ws (bulgyCircle pt) s).bind (addBulgy pts ws) := by
      unfold addBulgy
      rw [List.foldl_cons, Option.bind_some]
      cases addRegion "bulgy" ws (bulgyCircle pt) s with
      | some t => rfl
      | none =>
        simp only [Option.bind_none]
        clear ih hs h
        induction pts with
        | nil => rfl
        | cons a l ih => rw [List.foldl_cons, Option.bind_none, ih]
    rw [hstep] at h
    cases ht : addRegion "bulgy" ws (bulgyCircle pt) s with
    | none => rw [ht] at h; simp at h
    | some t =>
      rw [ht, Option.bind_some] at h
      obtain ⟨h1, h2⟩ := addRegion_spec ht
      have hinv : ∀ x ∈ t, RegInv (rs ++ [bulgyRegion (pre ++ [pt]) ws]) x := by
        intro x hx
        obtain ⟨y, hy, e, hc⟩ := h2 x hx
        have hmore : ∀ p, (bulgyRegion (pre ++ [pt]) ws).has p ↔ (bulgyRegion pre ws).has p ∨ bulgyCircle pt p := by
          intro p
          rw [near_bulgy]
          unfold bulgyRegion
          simp only [List.mem_append, List.mem_singleton]
          constructor
          · rintro ⟨z, hz | rfl, hzz⟩
            · exact Or.inl ⟨z, hz, hzz⟩
            · exact Or.inr hzz
          · rintro (⟨z, hz, hzz⟩ | hzz)
            · exact ⟨z, Or.inl hz, hzz⟩
            · exact ⟨pt, Or.inr rfl, hzz⟩
        rcases hs y hy with ⟨q, f, co, ne⟩ | ⟨hno, hlab, hw⟩
        · rcases hc with ⟨-, he, -⟩ | ⟨-, rfl⟩
          · exact absurd he ne
          · obtain ⟨pr, po, ee, g1, g2⟩ := f
            rcases List.eq_nil_or_concat po with rfl | ⟨po', z, rfl⟩
            · have := List.append_inj' ee rfl
              simp only [List.cons.injEq, and_true] at this
              obtain ⟨rfl, rfl⟩ := this
              exact Or.inl ⟨bulgyRegion (pre ++ [pt]) ws, ⟨rs, [], rfl, (hmore _).2 (Or.inl g1), g2⟩, co, ne⟩
            · have ee' : rs ++ [bulgyRegion pre ws] = (pr ++ q :: po') ++ [z] := by rw [ee]; simp
              have := List.append_inj' ee' rfl
              refine Or.inl ⟨q, ⟨pr, po' ++ [bulgyRegion (pre ++ [pt]) ws], ?_, g1, g2⟩, co, ne⟩
              rw [this.1]; simp
        · have hpre : ¬ (bulgyRegion pre ws).has y.1 := hno _ (by simp)
          rcases hc with ⟨hin, -, ex⟩ | ⟨hnot, rfl⟩
          · refine Or.inl ⟨bulgyRegion (pre ++ [pt]) ws, ⟨rs, [], rfl, ?_, ?_⟩, ?_, ?_⟩
            · rw [e, hmore]; exact Or.inr hin
            · intro q hq; rw [e]; exact hno q (List.mem_append_left _ hq)
            · rw [ex]
              refine ⟨take_label (by decide), fun e' he' => setAll_mem hd he', fun b hb => ?_⟩
              exact (setAll_other hb).trans (hw b)
            · rw [ex]
              simp only
              rw [take_label (by decide)]
              decide
          · refine Or.inr ⟨?_, hlab, hw⟩
            intro q hq
            rcases List.mem_append.1 hq with hq | hq
            · exact hno q (List.mem_append_left _ hq)
            · rw [List.mem_singleton] at hq
              subst hq
              rw [hmore]
              rintro (hh | hh)
              · exact hpre hh
              · exact hnot ⟨hh, hlab⟩
      obtain ⟨k1, k2⟩ := ih (pre ++ [pt]) hinv h
      refine ⟨k1.trans h1, ?_⟩
      simpa using k2

theorem bulgy_start {rs : List SkyRegion} {ws : Weights} {x : Pix × Cell} (h : RegInv rs x) : RegInv (rs ++ [bulgyRegion [] ws]) x := by
  rcases h with ⟨q, f, co, ne⟩ | ⟨hno, hlab, hw⟩
  · exact Or.inl ⟨q, f.append _, co, ne⟩
  · refine Or.inr ⟨?_, hlab, hw⟩
    intro q hq
    rcases List.mem_append.1 hq with hq | hq
    · exact hno q hq
    · rw [List.mem_singleton] at hq
      subst hq
      rintro ⟨z, hz, -⟩
      simp at hz

/-! ### The regions -/

theorem fmod_spec (x : ℝ) {m : ℝ} (hm : 0 < m) : 0 ≤ fmod x m ∧ fmod x m < m ∧ ∃ k : ℤ, x = fmod x m + m * k := by
  unfold fmod
  have h1 := Int.floor_le (x / m)
  have h2 := Int.lt_floor_add_one (x / m)
  rw [le_div_iff₀ hm] at h1
  rw [div_lt_iff₀ hm] at h2
  refine ⟨by linarith, by linarith, ⟨⌊x / m⌋, by ring⟩⟩

theorem fmod_unique {x m y : ℝ} (hm : 0 < m) (h0 : 0 ≤ y) (h1 : y < m) {k : ℤ} (e : x = y + m * k) : fmod x m = y := by
  unfold fmod
  have : ⌊x / m⌋ = k := by
    rw [Int.floor_eq_iff]
    constructor
    · rw [le_div_iff₀ hm]; linarith
    · rw [div_lt_iff₀ hm]; linarith
  rw [this]
  linarith

/-- The distance along the circle from the middle. -/
theorem middle_dist {l1 lon L t : ℝ} (hL : 0 < L) (hL' : L < 360) (ht : 0 ≤ t) (ht' : t < L) {k : ℤ} (e : lon = l1 + t + 360 * k) :
    |if 180 < fmod (lon - fmod (l1 + L / 2) 360) 360 then fmod (180 - fmod (lon - fmod (l1 + L / 2) 360) 360) 180 else fmod (lon - fmod (l1 + L / 2) 360) 360| = |t - L / 2| := by
  obtain ⟨-, -, j, hj⟩ := fmod_spec (l1 + L / 2) (m := 360) (by norm_num)
  by_cases hc : L / 2 ≤ t
  · have : fmod (lon - fmod (l1 + L / 2) 360) 360 = t - L / 2 := by
      apply fmod_unique (k := k + j) (by norm_num) (by linarith) (by linarith)
      push_cast
      rw [e]
      linarith
    rw [this, if_neg (by linarith)]
  · push Not at hc
    have : fmod (lon - fmod (l1 + L / 2) 360) 360 = t - L / 2 + 360 := by
      apply fmod_unique (k := k + j - 1) (by norm_num) (by linarith) (by linarith)
      push_cast
      rw [e]
      linarith
    rw [this, if_pos (by linarith)]
    have h2 : fmod (180 - (t - L / 2 + 360)) 180 = L / 2 - t := by
      apply fmod_unique (k := -1) (by norm_num) (by linarith) (by linarith)
      push_cast
      ring
    rw [h2, abs_sub_comm]

/-- The bulge of the code is that of the specification. -/
theorem bulge_region (c : Cfg) (he : 0 ≤ c.endWidth) (hw : c.endWidth ≤ c.centerWidth) (hl : ∀ k : ℤ, c.galLong2 ≠ c.galLong1 + 360 * k) (p : Pix) :
    bulge c p ↔ InBulge c p := by
  obtain ⟨a1, a2, ka, ea⟩ := fmod_spec (c.galLong2 - c.galLong1) (m := 360) (by norm_num)
  have hpos : 0 < fmod (c.galLong2 - c.galLong1) 360 := by
    refine lt_of_le_of_ne a1 ?_
    intro h0
    rw [← h0] at ea
    exact hl ka (by linarith)
  obtain ⟨b1, b2, kb, eb⟩ := fmod_spec (p.galLon - c.galLong1) (m := 360) (by norm_num)
  have hin : ∀ L t, Along c.galLong1 c.galLong2 p.galLon L t ↔ L = fmod (c.galLong2 - c.galLong1) 360 ∧ t = fmod (p.galLon - c.galLong1) 360 ∧
      fmod (p.galLon - c.galLong1) 360 < fmod (c.galLong2 - c.galLong1) 360 := by
    intro L t
    constructor
    · rintro ⟨h1, h2, ⟨k, ek⟩, h3, h4, ⟨j, ej⟩⟩
      have e1 : fmod (c.galLong2 - c.galLong1) 360 = L := fmod_unique (k := k) (by norm_num) h1.le h2 (by linarith)
      have e2 : fmod (p.galLon - c.galLong1) 360 = t := fmod_unique (k := j) (by norm_num) h3 (by linarith) (by linarith)
      rw [e1, e2]
      exact ⟨rfl, rfl, h4⟩
    · rintro ⟨rfl, rfl, h⟩
      exact ⟨hpos, a2, ⟨ka, by linarith⟩, b1, h, ⟨kb, by linarith⟩⟩
  unfold bulge InBulge diamond rectangle
  simp only [hin]
  rw [if_pos hpos, if_pos hpos]
  generalize hL : fmod (c.galLong2 - c.galLong1) 360 = L at *
  generalize ht : fmod (p.galLon - c.galLong1) 360 = t at *
  by_cases hlt : t < L
  · rw [middle_dist hpos a2 b1 hlt (show p.galLon = c.galLong1 + t + 360 * kb by linarith)]
    have hr : 0 ≤ |t - L / 2| / (L / 2) ∧ |t - L / 2| / (L / 2) ≤ 1 := by
      constructor
      · positivity
      · rw [div_le_one (by linarith), abs_le]
        constructor <;> linarith
    have hlim : abs (c.centerWidth - (c.centerWidth - c.endWidth) / (L / 2) * |t - L / 2|) = c.centerWidth - (c.centerWidth - c.endWidth) * (|t - L / 2| / (L / 2)) := by
      rw [abs_of_nonneg]
      · ring
      · have : (c.centerWidth - c.endWidth) / (L / 2) * |t - L / 2| = (c.centerWidth - c.endWidth) * (|t - L / 2| / (L / 2)) := by ring
        rw [this]
        nlinarith [hr.1, hr.2]
    rw [hlim]
    have hle : (c.centerWidth - c.endWidth) * (|t - L / 2| / (L / 2)) ≥ 0 := mul_nonneg (by linarith) hr.1
    constructor
    · rintro ⟨h1, h2⟩
      refine ⟨not_lt.1 h2, L, t, ⟨rfl, rfl, hlt⟩, ?_⟩
      rcases h1 with h1 | h1
      · exact Or.inl h1.2
      · exact Or.inr ⟨not_lt.1 h1.2, h1.1.1⟩
    · rintro ⟨h2, L', t', ⟨rfl, rfl, -⟩, h1⟩
      refine ⟨?_, not_lt.2 h2⟩
      rcases h1 with h1 | h1
      · exact Or.inl ⟨⟨by linarith, hlt⟩, h1⟩
      · exact Or.inr ⟨⟨h1.2, hlt⟩, not_lt.2 h1.1⟩
  · constructor
    · rintro ⟨h1 | h1, -⟩
      · exact absurd h1.1.2 hlt
      · exact absurd h1.1.2 hlt
    · rintro ⟨-, L', t', ⟨-, -, h⟩, -⟩
      exact absurd h hlt

theorem foldl_min_mem (d : ℝ) (ds : List ℝ) : ds.foldl min d ∈ d :: ds ∧ ∀ x ∈ d :: ds, ds.foldl min d ≤ x := by
  induction ds generalizing d with
  | nil => simp
  | cons a ds ih =>
    rw [List.foldl_cons]
    obtain ⟨h1, h2⟩ := ih (min d a)
    constructor
    · rcases List.mem_cons.1 h1 with h | h
      · rw [h]
        rcases min_choice d a with e | e <;> rw [e] <;> simp
      · simp [h]
    · intro x hx
      have hm := h2 (min d a) List.mem_cons_self
      rcases List.mem_cons.1 hx with rfl | hx
      · exact hm.trans (min_le_left _ _)
      · rcases List.mem_cons.1 hx with rfl | hx
        · exact hm.trans (min_le_right _ _)
        · exact h2 x (List.mem_cons_of_mem _ hx)

theorem foldl_max_mem (d : ℝ) (ds : List ℝ) : ds.foldl max d ∈ d :: ds ∧ ∀ x ∈ d :: ds, x ≤ ds.foldl max d := by
  induction ds generalizing d with
  | nil => simp
  | cons a ds ih =>
    rw [List.foldl_cons]
    obtain ⟨h1, h2⟩ := ih (max d a)
    constructor
    · rcases List.mem_cons.1 h1 with h | h
      · rw [h]
        rcases max_choice d a with e | e <;> rw [e] <;> simp
      · simp [h]
    · intro x hx
      have hm := h2 (max d a) List.mem_cons_self
      rcases List.mem_cons.1 hx with rfl | hx
      · exact (le_max_left _ _).trans hm
      · rcases List.mem_cons.1 hx with rfl | hx
        · exact (le_max_right _ _).trans hm
        · exact h2 x (List.mem_cons_of_mem _ hx)

theorem clouds_region (c : Cfg) (p : Pix) : clouds c p ↔ InClouds c p := by
  unfold clouds InClouds
  rw [near_circle, near_circle]

theorem bridge_region (c : Cfg) (ps : List Pix) :
    ((∃ q ∈ ps, InClouds c q) → ∃ cb, cloudsBridge c ps = some cb ∧ ∀ p, cb p ↔ InBridge c ps p) ∧ ((¬ ∃ q ∈ ps, InClouds c q) → cloudsBridge c ps = none) := by
  classical
  have hmem : ∀ d, d ∈ (ps.filter (fun p => clouds c p)).map (·.dec) ↔ ∃ q ∈ ps, InClouds c q ∧ q.dec = d := by
    intro d
    simp only [List.mem_map, List.mem_filter, decide_eq_true_eq, clouds_region]
    constructor
    · rintro ⟨q, ⟨a, b⟩, e⟩; exact ⟨q, a, b, e⟩
    · rintro ⟨q, a, b, e⟩; exact ⟨q, ⟨a, b⟩, e⟩
  unfold cloudsBridge
  simp only
  have hdec : (fun p : Pix => @decide (clouds c p) (Classical.propDecidable _)) = fun p => decide (clouds c p) := by
    funext p; congr
  generalize hl : (ps.filter (fun p => clouds c p)).map (·.dec) = l at *
  constructor
  · rintro ⟨q, hq, hc⟩
    cases l with
    | nil => exact absurd ((hmem q.dec).2 ⟨q, hq, hc, rfl⟩) (by simp)
    | cons d ds =>
      refine ⟨_, rfl, ?_⟩
      intro p
      obtain ⟨m1, m2⟩ := foldl_min_mem d ds
      obtain ⟨x1, x2⟩ := foldl_max_mem d ds
      unfold InBridge
      rw [clouds_region]
      constructor
      · rintro (h | ⟨⟨h1, h2⟩, h3, h4⟩)
        · exact Or.inl h
        · obtain ⟨q1, a1, a2, a3⟩ := (hmem _).1 m1
          obtain ⟨q2, b1, b2, b3⟩ := (hmem _).1 x1
          exact Or.inr ⟨h1, h2, ⟨q1, a1, a2, by rw [a3]; exact h3⟩, ⟨q2, b1, b2, by rw [b3]; exact h4⟩⟩
      · rintro (h | ⟨h1, h2, ⟨q1, a1, a2, a3⟩, ⟨q2, b1, b2, b3⟩⟩)
        · exact Or.inl h
        · exact Or.inr ⟨⟨h1, h2⟩, lt_of_le_of_lt (m2 _ ((hmem _).2 ⟨q1, a1, a2, rfl⟩)) a3, lt_of_lt_of_le b3 (x2 _ ((hmem _).2 ⟨q2, b1, b2, rfl⟩))⟩
  · intro hno
    cases l with
    | nil => rfl
    | cons d ds =>
      obtain ⟨q, a, b, -⟩ := (hmem d).1 List.mem_cons_self
      exact absurd ⟨q, a, b⟩ hno

/-- All dictionaries of weights give each band once. -/
def DictsOk (r : Ratios) : Prop :=
  IsDict r.clouds ∧ IsDict r.lowdust ∧ IsDict r.virgo ∧ IsDict r.bulge ∧ IsDict r.nes ∧ IsDict r.dusty ∧ IsDict r.euclid ∧ IsDict r.scp

/-- The widths of the bulge fall to the ends, and its longitudes are not the same. -/
def BulgeOk (c : Cfg) : Prop := 0 ≤ c.endWidth ∧ c.endWidth ≤ c.centerWidth ∧ ∀ k : ℤ, c.galLong2 ≠ c.galLong1 + 360 * k

theorem bind_some_iff' {α β : Type} {o : Option α} {f : α → Option β} {b : β} (h : o.bind f = some b) : ∃ a, o = some a ∧ f a = some b := by
  cases o with
  | none => simp at h
  | some a => exact ⟨a, rfl, h⟩

theorem maps_inv (g : Gen) (c : Cfg) (r : Ratios) (ps : List Pix) (hr : DictsOk r) (hb : g = .base → BulgeOk c) (out : List (Pix × Cell))
    (h : returnMaps g c r ps = some out) : out.map Prod.fst = ps ∧ ∀ x ∈ out, RegInv (skyRegions g c r ps) x := by
  obtain ⟨d1, d2, d3, d4, d5, d6, d7, d8⟩ := hr
  unfold returnMaps at h
  cases hcb : cloudsBridge c ps with
  | none => rw [hcb] at h; simp at h
  | some cb =>
    rw [hcb] at h
    simp only at h
    have hcloud : ∀ p, cb p ↔ InBridge c ps p := by
      by_cases hq : ∃ q ∈ ps, InClouds c q
      · obtain ⟨cb', e, hh⟩ := (bridge_region c ps).1 hq
        rw [hcb, Option.some.injEq] at e
        exact e ▸ hh
      · rw [(bridge_region c ps).2 hq] at hcb
        simp at hcb
    obtain ⟨s7, h, f8⟩ := bind_some_iff' h
    obtain ⟨s6, h, f7⟩ := bind_some_iff' h
    obtain ⟨s5, h, f6⟩ := bind_some_iff' h
    obtain ⟨s4, h, f5⟩ := bind_some_iff' h
    obtain ⟨s3, h, f4⟩ := bind_some_iff' h
    obtain ⟨s2, h, f3⟩ := bind_some_iff' h
    obtain ⟨s1, f1, f2⟩ := bind_some_iff' h
    have i0 : ∀ x ∈ blank ps, RegInv [] x := by
      intro x hx
      obtain ⟨p, -, rfl⟩ := List.mem_map.1 hx
      exact Or.inr ⟨by simp, rfl, fun _ => rfl⟩
    have e0 : (blank ps).map Prod.fst = ps := by
      unfold blank
      rw [List.map_map]
      exact List.map_id _
    obtain ⟨e1, i1⟩ := add_inv (r := ⟨"LMC_SMC", r.clouds, InBridge c ps⟩) "LMC_SMC" rfl (by decide) (by decide) d1 hcloud i0 f1
    obtain ⟨e2, i2⟩ := add_inv (r := lowdustRegion c r.lowdust) "lowdust" rfl (by decide) (by decide) d2
      (fun p => by unfold lowdust lowdustRegion; simp only; constructor
                   · rintro ⟨⟨a, b, e⟩, n⟩
                     exact ⟨e, a, b, fun h1 h2 => not_lt.1 fun h3 => n ⟨h1, h2, h3⟩⟩
                   · rintro ⟨e, a, b, n⟩
                     exact ⟨⟨a, b, e⟩, fun hh => absurd hh.2.2 (not_lt.2 (n hh.1 hh.2.1))⟩) i1 f2
    obtain ⟨e3, i3⟩ := add_inv (r := virgoRegion c r.virgo) "virgo" rfl (by decide) (by decide) d3 (fun p => near_circle _ _ _ p) i2 f3
    have h4 : ∃ R, s4.map Prod.fst = s3.map Prod.fst ∧ (∀ x ∈ s4, RegInv ([⟨"LMC_SMC", r.clouds, InBridge c ps⟩, lowdustRegion c r.lowdust, virgoRegion c r.virgo] ++ [R]) x) ∧
        [R] = bulgeRegions g c r.bulge := by
      cases g with
      | base =>
        obtain ⟨b1, b2, b3⟩ := hb rfl
        obtain ⟨e4, i4⟩ := add_inv (r := ⟨"bulge", r.bulge, InBulge c⟩) "bulge" rfl (by decide) (by decide) d4 (fun p => bulge_region c b1 b2 b3 p) i3 f4
        exact ⟨_, e4, i4, rfl⟩
      | galplane =>
        obtain ⟨e4, i4⟩ := bulgy_inv d4 points [] (fun x hx => bulgy_start (i3 x hx)) f4
        exact ⟨_, e4, i4, rfl⟩
      | euclid =>
        obtain ⟨e4, i4⟩ := bulgy_inv d4 points [] (fun x hx => bulgy_start (i3 x hx)) f4
        exact ⟨_, e4, i4, rfl⟩
      | phase3 =>
        obtain ⟨e4, i4⟩ := bulgy_inv d4 points3 [] (fun x hx => bulgy_start (i3 x hx)) f4
        exact ⟨_, e4, i4, rfl⟩
    obtain ⟨R, e4, i4, hR⟩ := h4
    obtain ⟨e5, i5⟩ := add_inv (r := nesRegion c r.nes) "nes" rfl (by decide) (by decide) d5
      (fun p => by unfold nes nesRegion; simp only [not_lt]; tauto) i4 f5
    obtain ⟨e6, i6⟩ := add_inv (r := dustyRegion c r.dusty) "dusty_plane" rfl (by decide) (by decide) d6
      (fun p => by unfold dusty dustyRegion; simp only; tauto) i5 f6
    have h7 : ∃ Rs : List SkyRegion, s7.map Prod.fst = s6.map Prod.fst ∧ (∀ x ∈ s7, RegInv (([⟨"LMC_SMC", r.clouds, InBridge c ps⟩, lowdustRegion c r.lowdust, virgoRegion c r.virgo] ++ [R]) ++
        [nesRegion c r.nes] ++ [dustyRegion c r.dusty] ++ Rs) x) ∧ Rs = euclidRegions g c r.euclid := by
      have hE : ∀ p, Sky.euclid c p ↔ (euclidRegion c r.euclid).has p := by
        intro p
        unfold Sky.euclid euclidRegion
        simp only
        split_ifs with h180
        · constructor
          · intro hh; exact Or.inr ⟨h180, hh⟩
          · rintro (⟨a, -⟩ | ⟨-, b⟩)
            · exact absurd a (not_le.2 h180)
            · exact b
        · constructor
          · intro hh; exact Or.inl ⟨not_lt.1 h180, hh⟩
          · rintro (⟨-, b⟩ | ⟨a, -⟩)
            · exact b
            · exact absurd a h180
      cases g with
      | base =>
        rw [addEuclid, Option.some.injEq] at f7
        subst f7
        exact ⟨[], rfl, by simpa using i6, rfl⟩
      | galplane =>
        rw [addEuclid, Option.some.injEq] at f7
        subst f7
        exact ⟨[], rfl, by simpa using i6, rfl⟩
      | euclid =>
        obtain ⟨e7, i7⟩ := add_inv (r := euclidRegion c r.euclid) "euclid_overlap" rfl (by decide) (by decide) d7 hE i6 f7
        exact ⟨_, e7, i7, rfl⟩
      | phase3 =>
        obtain ⟨e7, i7⟩ := add_inv (r := euclidRegion c r.euclid) "euclid_overlap" rfl (by decide) (by decide) d7 hE i6 f7
        exact ⟨_, e7, i7, rfl⟩
    obtain ⟨Rs, e7, i7, hRs⟩ := h7
    obtain ⟨e8, i8⟩ := add_inv (r := scpRegion c r.scp) "scp" rfl (by decide) (by decide) d8 (fun p => Iff.rfl) i7 f8
    refine ⟨by rw [e8, e7, e6, e5, e4, e3, e2, e1, e0], ?_⟩
    intro x hx
    have hh := i8 x hx
    unfold skyRegions
    rw [← hR, ← hRs]
    simpa using hh

/-- C139. The pixels of a map are those of the sky in their order; a pixel gets the name and the weights of the first region that has it, and a
pixel in no region has no name and no weight. -/
theorem C139_first (g : Gen) (c : Cfg) (r : Ratios) (ps : List Pix) (hr : DictsOk r) (hb : g = .base → BulgeOk c) (out : List (Pix × Cell))
    (h : returnMaps g c r ps = some out) : out.map Prod.fst = ps ∧
      ∀ x ∈ out, (∀ R, FirstRegion (skyRegions g c r ps) x.1 R → CellOf R x.2) ∧
        ((∀ R ∈ skyRegions g c r ps, ¬ R.has x.1) → x.2.label = "" ∧ ∀ b, x.2.w b = 0) := by
  obtain ⟨h1, h2⟩ := maps_inv g c r ps hr hb out h
  refine ⟨h1, fun x hx => ⟨fun R hR => ?_, fun hno => ?_⟩⟩
  · rcases h2 x hx with ⟨R', f, co, -⟩ | ⟨hno, -⟩
    · rw [hR.unique f]; exact co
    · obtain ⟨pre, post, e, hh, -⟩ := hR
      exact absurd hh (hno R (by rw [e]; simp))
  · rcases h2 x hx with ⟨R', ⟨pre, post, e, hh, -⟩, -⟩ | ⟨-, k⟩
    · exact absurd hh (hno R' (by rw [e]; simp))
    · exact k

theorem first_exists {rs : List SkyRegion} {p : Pix} (h : ∃ R ∈ rs, R.has p) : ∃ R, FirstRegion rs p R := by
  classical
  induction rs with
  | nil => obtain ⟨R, hR, -⟩ := h; simp at hR
  | cons a rs ih =>
    by_cases ha : a.has p
    · exact ⟨a, [], rs, rfl, ha, by simp⟩
    · obtain ⟨R, hR, hh⟩ := h
      rcases List.mem_cons.1 hR with rfl | hR
      · exact absurd hh ha
      · obtain ⟨R', pre, post, e, k1, k2⟩ := ih ⟨R, hR, hh⟩
        refine ⟨R', a :: pre, post, by rw [e]; rfl, k1, ?_⟩
        intro q hq
        rcases List.mem_cons.1 hq with rfl | hq
        · exact ha
        · exact k2 q hq

/-- C139. A map has no holes: when the part of the sky with little dust reaches to the region around the pole, every pixel up to the
northern limit has a region. -/
theorem C139_no_hole (g : Gen) (c : Cfg) (r : Ratios) (ps : List Pix) (hr : DictsOk r) (hb : g = .base → BulgeOk c) (out : List (Pix × Cell))
    (h : returnMaps g c r ps = some out) (hpole : c.lowDustDecMin < c.scpDecMax) (x : Pix × Cell) (hx : x ∈ out)
    (hs : c.dustyDecMin < x.1.dec) (hn : x.1.dec < c.dustyDecMax) (hn' : x.1.dec < c.lowDustDecMax) (ha : x.1.galLat < 0 → x.1.dec ≤ c.lowDustDecMax - c.adjustHalves) :
    ∃ R, FirstRegion (skyRegions g c r ps) x.1 R ∧ CellOf R x.2 := by
  have hex : ∃ R ∈ skyRegions g c r ps, R.has x.1 := by
    by_cases hd : x.1.lowDust = true
    · by_cases hl : c.lowDustDecMin < x.1.dec
      · exact ⟨lowdustRegion c r.lowdust, by simp [skyRegions], hd, hl, hn', fun _ => ha⟩
      · exact ⟨scpRegion c r.scp, by simp [skyRegions], lt_of_le_of_lt (not_lt.1 hl) hpole⟩
    · exact ⟨dustyRegion c r.dusty, by simp [skyRegions], by simpa using hd, hs, hn⟩
  obtain ⟨R, hR⟩ := first_exists hex
  exact ⟨R, hR, (((C139_first g c r ps hr hb out h).2 x hx).1 R hR)⟩

theorem addRegion_some {name : String} {ws : Weights} {sel : Pix → Prop} {s : List (Pix × Cell)} :
    (∃ s', addRegion name ws sel s = some s') ↔ ∀ e ∈ ws, e.1 ∈ bands := by
  unfold addRegion
  split_ifs with h
  · exact ⟨fun _ => h, fun _ => ⟨_, rfl⟩⟩
  · exact ⟨fun ⟨_, e⟩ => by simp at e, fun hh => absurd hh h⟩

theorem addBulgy_some {pts : List (ℝ × ℝ × ℝ)} {ws : Weights} (h : ∀ e ∈ ws, e.1 ∈ bands) : ∀ (s : List (Pix × Cell)), ∃ s', addBulgy pts ws s = some s' := by
  unfold addBulgy
  induction pts with
  | nil => intro s; exact ⟨s, rfl⟩
  | cons pt pts ih =>
    intro s
    obtain ⟨t, ht⟩ := (addRegion_some (name := "bulgy") (sel := bulgyCircle pt) (s := s)).2 h
    rw [List.foldl_cons, Option.bind_some, ht]
    exact ih t

/-- Weights for bands only. -/
def BandsOk (r : Ratios) : Prop :=
  ∀ ws ∈ [r.clouds, r.lowdust, r.virgo, r.bulge, r.nes, r.dusty, r.euclid, r.scp], ∀ e ∈ ws, e.1 ∈ bands

/-- C139 in part. With weights for the six bands only, and with a pixel in the clouds, a map is returned. Missing: a map
without a pixel in the clouds. -/
theorem C139_returns_partial (g : Gen) (c : Cfg) (r : Ratios) (ps : List Pix) (hr : BandsOk r) (hc : ∃ p ∈ ps, InClouds c p) :
    ∃ out, returnMaps g c r ps = some out := by
  obtain ⟨cb, e, -⟩ := (bridge_region c ps).1 hc
  have ok : ∀ ws ∈ [r.clouds, r.lowdust, r.virgo, r.bulge, r.nes, r.dusty, r.euclid, r.scp], ∀ (name : String) (sel : Pix → Prop) (s : List (Pix × Cell)),
      ∃ s', addRegion name ws sel s = some s' := fun ws hws name sel s => addRegion_some.2 (hr ws hws)
  unfold returnMaps
  rw [e]
  simp only
  obtain ⟨s1, e1⟩ := ok r.clouds (by simp) "LMC_SMC" cb (blank ps)
  obtain ⟨s2, e2⟩ := ok r.lowdust (by simp) "lowdust" (lowdust c) s1
  obtain ⟨s3, e3⟩ := ok r.virgo (by simp) "virgo" (virgo c) s2
  have h4 : ∃ s4, addBulge g c r.bulge s3 = some s4 := by
    have hb : ∀ e ∈ r.bulge, e.1 ∈ bands := hr r.bulge (by simp)
    cases g with
    | base => exact ok r.bulge (by simp) _ _ _
    | galplane => exact addBulgy_some hb _
    | euclid => exact addBulgy_some hb _
    | phase3 => exact addBulgy_some hb _
  obtain ⟨s4, e4⟩ := h4
  obtain ⟨s5, e5⟩ := ok r.nes (by simp) "nes" (nes c) s4
  obtain ⟨s6, e6⟩ := ok r.dusty (by simp) "dusty_plane" (dusty c) s5
  have h7 : ∃ s7, addEuclid g c r.euclid s6 = some s7 := by
    cases g with
    | base => exact ⟨_, rfl⟩
    | galplane => exact ⟨_, rfl⟩
    | euclid => exact ok r.euclid (by simp) _ _ _
    | phase3 => exact ok r.euclid (by simp) _ _ _
  obtain ⟨s7, e7⟩ := h7
  obtain ⟨s8, e8⟩ := ok r.scp (by simp) "scp" (scp c) s7
  exact ⟨s8, by rw [e1, Option.bind_some, e2, Option.bind_some, e3, Option.bind_some, e4, Option.bind_some, e5, Option.bind_some, e6, Option.bind_some, e7, Option.bind_some, e8]⟩

/-- C139 does not hold in full: no map is returned when no pixel has its centre in the clouds, as in a coarse map. -/
theorem C139_coarse_violated (g : Gen) (c : Cfg) (r : Ratios) (ps : List Pix) (hc : ¬ ∃ p ∈ ps, InClouds c p) : returnMaps g c r ps = none := by
  unfold returnMaps
  rw [(bridge_region c ps).2 hc]

/-- A radius of zero leaves a cloud out, and with both left out there is no map. -/
example (r : Ratios) (ps : List Pix) : returnMaps .phase3 { lmcRadius := 0, smcRadius := 0 } r ps = none := by
  apply C139_coarse_violated
  rintro ⟨p, -, h | h⟩ <;>
  · unfold NearPlace rad at h
    simp only [zero_mul] at h
    exact absurd (C121_angle _ _ _ _).2.1 (not_le.2 h)

/-- The weights for the part with little dust and for all other parts. -/
noncomputable def toyRatios : Ratios :=
  ⟨[("r", 1)], [("u", 7 / 20), ("r", 1)], [("r", 1)], [("r", 1)], [("g", 1 / 4), ("r", 33 / 100)], [("r", 1 / 4)], [("r", 1)], [("r", 1 / 10)]⟩

/-- A pixel at the centre of the large cloud, and one at the equator with little dust. -/
noncomputable def toyPixels : List Pix := [⟨80.893860, -69.756126, 280, -33, -85, false⟩, ⟨40, 0, 170, -50, -15, true⟩]

example : (∃ out, returnMaps .phase3 {} toyRatios toyPixels = some out) ∧ DictsOk toyRatios ∧ BulgeOk {} := by
  refine ⟨?_, ?_, ?_⟩
  · apply C139_returns_partial
    · intro ws hws e he
      simp only [toyRatios, List.mem_cons, List.not_mem_nil, or_false] at hws
      rcases hws with rfl | rfl | rfl | rfl | rfl | rfl | rfl | rfl <;> simp only [List.mem_cons, List.not_mem_nil, or_false] at he
      all_goals first
        | (subst he; decide)
        | (rcases he with rfl | rfl <;> decide)
    · refine ⟨⟨80.893860, -69.756126, 280, -33, -85, false⟩, by simp [toyPixels], Or.inl ?_⟩
      unfold NearPlace
      simp only
      have h0 : sep (rad 80.893860) (rad (-69.756126)) (rad 80.893860) (rad (-69.756126)) = 0 := by
        unfold sep
        simp
      rw [h0]
      unfold rad
      positivity
  · unfold DictsOk IsDict toyRatios
    refine ⟨?_, ?_, ?_, ?_, ?_, ?_, ?_, ?_⟩ <;> simp
  · refine ⟨by norm_num, by norm_num, ?_⟩
    intro k hk
    simp only at hk
    have h1 : (25 : ℝ) = ((335 + 360 * k : ℤ) : ℝ) := by push_cast; linarith
    have h2 : (25 : ℤ) = 335 + 360 * k := by exact_mod_cast h1
    omega

end Verif
