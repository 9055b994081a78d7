import Verif.Model.Made
import Verif.Props.Generators
import Verif.Props.Shadow
import Verif.Props.WholeMarkov

/-!
Property C239: in a simulation with generated surveys, visits are made where the safety masks allowed them.
-/

namespace Verif

open Sim Whole Rew Blob Gen Made Shadow

variable {C F ι T A K H B : Type}

/-! ### What is claimed -/

/-- Now and at the times looked at up to so many minutes ahead, the pixel is between the two altitudes (in degrees) and within the limits of the telescope and an open range of altitude
and of azimuth, if there are any; now it is between the two azimuths. -/
def StaysWithin (h : Heaven C) (c : C) (minAlt maxAlt minAz maxAz minutes : ℚ) (k : ℕ) : Prop :=
  Sector (360 * h.rad) (minAz * h.rad, maxAz * h.rad) ((h.sky c).az k) ∧
  ∀ t ∈ times (minutes / 60 / 24) (10 / 60 / 24), ∀ s ∈ [h.sky c, h.later c t],
    (minAlt * h.rad ≤ s.alt k ∧ s.alt k ≤ maxAlt * h.rad)
    ∧ (h.skyAlt c = [] ∨ ∃ l ∈ h.skyAlt c, AltWithin l (s.alt k)) ∧ (∀ l ∈ h.telAlt c, AltWithin l (s.alt k))
    ∧ (h.skyAz c = [] ∨ ∃ l ∈ h.skyAz c, Sector (360 * h.rad) l (s.az k)) ∧ ∀ l ∈ h.telAz c, Sector (360 * h.rad) l (s.az k)

/-- What the caller of a generator asks of the pixels observed, for a block that needs so many minutes: they are far enough from the moon, not near a planet and not too much
into the wind; they and all pixels close by stay within the limits for the time needed and for the time asked for, and near sunrise they are also on the side of the sky asked for. -/
structure Allowed (a : Params) (need : ℚ) (h : Heaven C) (c : C) (p : ℕ) : Prop where
  moon : ∃ d, (h.moon c)[p]? = some d ∧ a.moon.getD 30 * h.rad ≤ d
  planets : ∀ q ∈ h.planets c, p ∉ h.found q
  wind : ∀ xs, h.wind c = some xs → ∃ x, xs[p]? = some x ∧ x ≤ a.wind.getD 20
  inside : p < h.npix
  sky : ∃ minutes, need ≤ minutes ∧ (∀ s, a.shadow = some s → s ≤ minutes) ∧ ∀ k < h.npix, h.close k p = true →
    StaysWithin h c (a.minAlt.getD 20) (a.maxAlt.getD (173 / 2)) (a.minAz.getD 0) (a.maxAz.getD 360) minutes k
  sunrise : a.limited.getD true = true → |h.mjd c - h.sunrise c| < (a.timeSun.getD 3 + need / 60) / 24 → ∃ minutes, need ≤ minutes ∧ (∀ s, a.shadow = some s → s ≤ minutes)
    ∧ ∀ k < h.npix, h.close k p = true →
      StaysWithin h c (a.minAlt.getD 20) (a.maxAlt.getD (173 / 2)) (a.minAzSun.getD 120) (a.maxAzSun.getD 290) minutes k

/-- No number compared with a limit of the basis function is within the tolerance of the comparison. -/
def Untouched (h : Heaven C) (c : C) : Term → Prop
  | .moon _ d => ClearOf (d * h.rad) (h.moon c)
  | .altAz _ a b z y m | .sunrise _ a b z y m _ =>
    AltClear h.npix (limits h c a b z y) (h.sky c) ∧ ∀ t ∈ times (m / 60 / 24) (10 / 60 / 24), AltClear h.npix (limits h c a b z y) (h.later c t)
  | _ => True

/-- The terms of surveys made by the generators, with the caller's parameters, the resolution and the minutes that the block needs. -/
inductive Generated : Option Params → ℕ → ℚ → List (Term × ℚ) → Prop
  | template (p nside w seeing pairTime haMin haMax maxAlt shown dark nObs uNexp bl b) :
    Generated p nside pairTime (template nside w seeing pairTime haMin haMax maxAlt shown dark nObs uNexp bl p b).terms
  | long (c : LongCfg) (reason band1s band2s s) : s ∈ blobForLong c reason band1s band2s → Generated c.params c.nside (c.pairTime * 2 + c.pad) s.terms
  | blob (c : BlobCfg) (band1s band2s s) : s ∈ blobs c band1s band2s → Generated c.params c.nside (c.pairTime * 2 + c.pad) s.terms
  | nearSun (p nside w dist pairTime airmass elong sunAlt to12 pattern b) :
    Generated p nside (pairTime * 4) (nearSun nside w dist pairTime airmass elong sunAlt to12 pattern p b).terms
  | greedy (nside w rw shadow top u bands b) : Generated none nside shadow (greedy nside w rw shadow top u bands none b).terms

theorem generated_safe {p : Option Params} {nside : ℕ} {need : ℚ} {ts : List (Term × ℚ)} (h : Generated p nside need ts)
    (hp : ∀ q, p = some q → q.nside = some nside) : Safe p nside need ts := by
  cases h with
  | template => exact (C169_masks_partial p nside hp).1 _ _ _ _ _ _ _ _ _ _ _ _
  | long c reason b1 b2 s hs => exact (C169_masks_partial _ _ hp).2.1 c reason b1 b2 rfl rfl s hs
  | blob c b1 b2 s hs => exact (C169_masks_partial _ _ hp).2.2.1 c b1 b2 rfl rfl s hs
  | nearSun => exact (C169_masks_partial p nside hp).2.2.2.1 _ _ _ _ _ _ _ _ _
  | greedy => exact (C169_others_partial (demoBlob none) _ none (by rintro q ⟨⟩) (by rintro q s ⟨⟩) _ _ _ _ _ _ _).2

/-! ### The masks -/

theorem nanned_eq (o : Option ℚ) : nanned o = .nan ↔ o = none := by
  cases o <;> simp [nanned]

theorem valueAt_nanned {l : List (Option ℚ)} {p : ℕ} (h : valueAt p (.map (l.map nanned)) ≠ .nan) : ∃ q, l[p]? = some (some q) := by
  unfold valueAt at h
  dsimp only at h
  rw [List.getD_eq_getElem?_getD, List.getElem?_map] at h
  rcases hl : l[p]? with _ | _ | q
  · rw [hl] at h; simp at h
  · rw [hl] at h; simp [nanned] at h
  · exact ⟨q, rfl⟩

theorem valueAt_flags {m : List Bool} {p : ℕ} (h : valueAt p (flags m) ≠ .nan) : Unmasked m p := by
  unfold valueAt flags at h
  dsimp only at h
  rw [List.getD_eq_getElem?_getD, List.getElem?_map] at h
  unfold Unmasked
  rcases hl : m[p]? with _ | _ | _
  · rw [hl] at h; simp at h
  · rfl
  · rw [hl] at h; simp at h

theorem sets_length (is : List ℕ) : ∀ m : List (Option ℚ), (is.foldl (fun m i => m.set i none) m).length = m.length := by
  induction is with
  | nil => intro m; rfl
  | cons i is ih => intro m; rw [List.foldl_cons, ih, List.length_set]

theorem sets_some (is : List ℕ) (p : ℕ) (q : ℚ) : ∀ m : List (Option ℚ), (is.foldl (fun m i => m.set i none) m)[p]? = some (some q) → m[p]? = some (some q) ∧ p ∉ is := by
  induction is with
  | nil => intro m h; exact ⟨h, List.not_mem_nil⟩
  | cons i is ih =>
    intro m h
    obtain ⟨h1, h2⟩ := ih _ h
    rw [List.getElem?_set] at h1
    split_ifs at h1 with hi hlt
    · cases h1
    · exact ⟨h1, by simp only [List.mem_cons, not_or]; exact ⟨fun e => hi e.symm, h2⟩⟩

theorem planets_some (h : Heaven C) (c : C) (p : ℕ) (q : ℚ) (hq : (planetMask h c)[p]? = some (some q)) : p < h.npix ∧ ∀ x ∈ h.planets c, p ∉ h.found x := by
  have key : ∀ (ps : List ℕ) (m : List (Option ℚ)),
      (ps.foldl (fun m p => (h.found p).foldl (fun m i => m.set i none) m) m)[p]? = some (some q) → m[p]? = some (some q) ∧ ∀ x ∈ ps, p ∉ h.found x := by
    intro ps
    induction ps with
    | nil => intro m hm; exact ⟨hm, by simp⟩
    | cons x ps ih =>
      intro m hm
      obtain ⟨h1, h2⟩ := ih _ hm
      obtain ⟨h3, h4⟩ := sets_some _ _ _ _ h1
      refine ⟨h3, fun y hy => ?_⟩
      rcases List.mem_cons.1 hy with rfl | hy
      · exact h4
      · exact h2 y hy
  obtain ⟨h1, h2⟩ := key _ _ hq
  refine ⟨?_, h2⟩
  by_contra hge
  rw [List.getElem?_replicate, if_neg hge] at h1
  cases h1

theorem shadow_within (h : Heaven C) (c : C) (hr : 0 < h.rad) (hc : ∀ i, h.close i i = true) {lo hi z y minutes : ℚ} {m : List Bool}
    (hm : Made.shadow h c lo hi z y minutes = some m) (h1 : AltClear h.npix (limits h c lo hi z y) (h.sky c))
    (h2 : ∀ t ∈ times (minutes / 60 / 24) (10 / 60 / 24), AltClear h.npix (limits h c lo hi z y) (h.later c t))
    (p : ℕ) (hp : p < h.npix) (hu : Unmasked m p) : ∀ k < h.npix, h.close k p = true → StaysWithin h c lo hi z y minutes k := by
  have hT : (0 : ℚ) < 360 * h.rad := by positivity
  have hpad := (C113_pad h.npix h.close hc (3 * h.rad) (by positivity) _ m (leaves_length (mask_leaves hT h.npix _ (h.sky c) (h.later c) _ _ h1 h2)) hm p hp).1 hu
  intro k hk hcl
  obtain ⟨a, b⟩ := C113_safe hT h.npix (limits h c lo hi z y) (h.sky c) (h.later c) _ _ h1 h2 k hk (hpad k hk hcl)
  exact ⟨a, b⟩

theorem staysWithin_top {h : Heaven C} {c : C} {lo hi hi' z y minutes : ℚ} {k : ℕ} (hr : 0 < h.rad) (hle : hi ≤ hi') (hs : StaysWithin h c lo hi z y minutes k) :
    StaysWithin h c lo hi' z y minutes k :=
  ⟨hs.1, fun t ht s hs' => ⟨⟨((hs.2 t ht s hs').1).1, ((hs.2 t ht s hs').1).2.trans (mul_le_mul_of_nonneg_right hle hr.le)⟩, (hs.2 t ht s hs').2⟩⟩

theorem allowed_of_values {p : Option Params} {nside : ℕ} {need : ℚ} {ts : List (Term × ℚ)} (hs : Safe p nside need ts) (H : ℕ → Heaven C) (c : C)
    (hr : 0 < (H nside).rad) (hcl : ∀ i, (H nside).close i i = true) (hclear : ∀ t ∈ ts, grid t.1 = nside → Untouched (H nside) c t.1)
    (x : ℕ) (hv : ∀ t ∈ ts, grid t.1 = nside → ∀ v, value (H nside) c t.1 = some v → valueAt x v ≠ .nan)
    (hsome : ∀ t ∈ ts, ∀ a b z y m, (t.1 = .altAz nside a b z y m ∨ ∃ u, t.1 = .sunrise nside a b z y m u) → (Made.shadow (H nside) c a b z y m).isSome) :
    Allowed (askedFor p) need (H nside) c x := by
  obtain ⟨sh, top, h1, h2, -, h4, hm, hpl, hw, ha, hsu⟩ := hs
  have hU : ∀ t w, (t, w) ∈ ts → grid t = nside → Untouched (H nside) c t := fun t w ht hg => hclear _ ht hg
  obtain ⟨q, hq⟩ := valueAt_nanned (hv _ hpl rfl _ rfl)
  obtain ⟨hx, hplan⟩ := planets_some _ _ _ _ hq
  refine ⟨?_, hplan, ?_, hx, ?_, ?_⟩
  · obtain ⟨q, hq⟩ := valueAt_nanned (hv _ hm rfl _ rfl)
    rw [(C93_tolerant_partial (H nside).rad ((askedFor p).moon.getD 30) 0 none ((H nside).moon c) (hU _ _ hm rfl) (Or.inl (zero_mul _))).2.2, List.getElem?_map] at hq
    rcases hd : ((H nside).moon c)[x]? with _ | d
    · rw [hd] at hq; cases hq
    · rw [hd] at hq
      simp only [Option.map_some, Option.some.injEq] at hq
      split_ifs at hq with hlt
      exact ⟨d, rfl, not_lt.1 hlt⟩
  · intro xs hxs
    obtain ⟨q, hq⟩ := valueAt_nanned (hv _ hw rfl _ rfl)
    unfold windMask at hq
    rw [hxs] at hq
    dsimp only at hq
    rw [List.getElem?_map] at hq
    rcases hd : xs[x]? with _ | d
    · rw [hd] at hq; cases hq
    · rw [hd] at hq
      simp only [Option.map_some, Option.some.injEq] at hq
      split_ifs at hq with hlt
      exact ⟨d, rfl, not_lt.1 hlt⟩
  · obtain ⟨m, hmm⟩ := Option.isSome_iff_exists.1 (hsome _ ha _ _ _ _ _ (Or.inl rfl))
    have hu := hU _ _ ha rfl
    have hval := hv _ ha rfl (flags m) (by show (Made.shadow _ _ _ _ _ _ _).map flags = _; rw [hmm]; rfl)
    exact ⟨sh, h1, h2, fun k hk hk' => staysWithin_top hr h4 (shadow_within _ c hr hcl hmm hu.1 hu.2 x hx (valueAt_flags hval) k hk hk')⟩
  · intro hlim hnear
    obtain ⟨hours, hh, hsun⟩ := hsu hlim
    obtain ⟨m, hmm⟩ := Option.isSome_iff_exists.1 (hsome _ hsun _ _ _ _ _ (Or.inr ⟨_, rfl⟩))
    have hu := hU _ _ hsun rfl
    have hval := hv _ hsun rfl (flags m) (by
      have : timeLimited (hours / 24) ((H nside).mjd c) [(H nside).sunrise c] () = some (some ()) := by
        obtain ⟨o, ho, -, hiff⟩ := C113_limited (hours / 24) ((H nside).mjd c) [(H nside).sunrise c] (by simp) ()
        rw [ho, hiff.2 ⟨_, List.mem_singleton.2 rfl, lt_of_lt_of_le hnear (by linarith)⟩]
      unfold value
      dsimp only
      rw [this]
      dsimp only
      rw [hmm]
      rfl)
    exact ⟨sh, h1, h2, fun k hk hk' => staysWithin_top hr h4 (shadow_within _ c hr hcl hmm hu.1 hu.2 x hx (valueAt_flags hval) k hk hk')⟩

/-! ### In a simulation -/

/-- The safety masks of a survey can be computed: `_hp_grow_mask` raises when there is nothing to grow (`C113_nothing_masked_violated`). -/
def Computes (h : Heaven C) (nside : ℕ) (ts : List (Term × ℚ)) (c : C) : Prop :=
  ∀ t ∈ ts, ∀ a b z y m, (t.1 = .altAz nside a b z y m ∨ ∃ u, t.1 = .sunrise nside a b z y m u) → (Made.shadow h c a b z y m).isSome

section

variable (S : Obs.Site) (M : Obs.Kin K Obs) (fuel : ℕ) (conds : Obs.St K → C) (mount : K → B → K) (cfgs : ι → Mrk.Cfg C F) (other : SurveyOps C T)

/-- C239: let the surveys have the basis functions that the generators give them for the parameters of the caller. Then every visit that a simulation returns with the note of one of them is
in a band of a survey with that note and at the field of a pixel that was allowed to this survey under conditions that the scheduler had been given, not later than the visit
began: far enough from the moon, away from planets and from the wind, and with all pixels close by within the limits of altitude and azimuth now and ahead (for numbers not within the
tolerance of a limit). Missing: as in C212, the field may have its centre in a pixel that is not allowed for the moon, planets or wind, and the visit may be later than the time looked ahead. -/
theorem C239_safe_partial (hn : Obs.Nights S.nights) (hd : Down.Ordered S.downs) (hM : Obs.NonNeg M) (hw : ∀ i, WellMade (cfgs i))
    (E : Env C ((ι × Mrk.St F) ⊕ T) A) (hE : MapsBeside E cfgs other)
    (hkey : KeptColumns E M (fun o => (o.ra, o.dec, o.band, o.schedulerNote)))
    (X : Rest H C B) (hX : ∀ h v, 0 ≤ (X.overhead h v).2)
    (cfg : Sim.Cfg) (hstep : 0 ≤ cfg.stepNone) (h1 : 0 < cfg.startSize) (h2 : 0 < cfg.appendSize) (n : ℕ)
    (w : World (Core C ((ι × Mrk.St F) ⊕ T) A × H) K)
    (hc : w.sched.1.conditions = none) (hq : w.sched.1.qm.desired = [])
    (params : ι → Option Params) (nside : ι → ℕ) (need : ι → ℚ) (terms : ι → List (Term × ℚ))
    (hgen : ∀ i, Generated (params i) (nside i) (need i) (terms i)) (hp : ∀ i q, params i = some q → q.nside = some (nside i))
    (G : ℕ → Heaven C) (hrad : ∀ i, 0 < (G (nside i)).rad) (hclose : ∀ i k, (G (nside i)).close k k = true)
    (rest : F → C → Term → Basis) (hmade : ∀ i f c, (cfgs i).basis f c = Made.basis G rest (terms i) f c)
    (hcalc : ∀ i c, Computes (G (nside i)) (nside i) (terms i) c) :
    ∃ vs : List (Obs.Visit Obs), (Sim.run (V := Obs.Visit Obs) (env S M fuel conds mount (coreSched E X)) cfg n w).st.result = vs.map some
      ∧ ∀ v ∈ vs, (∃ i, (cfgs i).note = v.target.schedulerNote) → ∃ st : Obs.St K, st.mjd ≤ v.mjd - v.slewtime / 24 / 3600
        ∧ .update st.mjd (conds st) ∈ (Sim.run (V := Obs.Visit Obs) (env S M fuel conds mount (coreSched E X)).recorded cfg n (w, [])).st.w.2
        ∧ ∃ i p, (cfgs i).note = v.target.schedulerNote ∧ v.target.band ∈ bandsOf (cfgs i) ∧ PixelField (cfgs i) p (v.target.ra, v.target.dec)
          ∧ ((∀ t ∈ terms i, grid t.1 = nside i → Untouched (G (nside i)) (conds st) t.1) →
            Allowed (askedFor (params i)) (need i) (G (nside i)) (conds st) p) := by
  obtain ⟨vs, hr, hv⟩ := C212_unmasked_partial S M fuel conds mount cfgs other hn hd hM hw E hE hkey X hX cfg hstep h1 h2 n w hc hq
    (fun i c p => ¬ ((∀ t ∈ terms i, grid t.1 = nside i → Untouched (G (nside i)) c t.1) → Allowed (askedFor (params i)) (need i) (G (nside i)) c p)) (by
      intro i f c p hb
      by_contra hcon
      apply hb
      intro hclear
      refine allowed_of_values (generated_safe (hgen i) (hp i)) G c (hrad i) (hclose i) hclear p ?_ (hcalc i c)
      intro t ht hg v hv hnan
      apply hcon
      rw [hmade]
      refine ⟨(⟨true, v⟩, t.2), ?_, hnan⟩
      unfold Made.basis
      refine List.mem_map.2 ⟨t, ht, ?_⟩
      rw [hg, hv])
  refine ⟨vs, hr, fun v hvm hi => ?_⟩
  obtain ⟨st, a, b, i, p, hnote, hband, hnb, hf⟩ := hv v hvm hi
  exact ⟨st, a, b, i, p, hnote, hband, hf, not_not.1 hnb⟩

/-- C239 for the place itself: if fields are not farther from their pixels than the pad, the pixel in which a visit is made is itself within the limits of altitude and azimuth asked for, now and
ahead. -/
theorem C239_place_partial (hn : Obs.Nights S.nights) (hd : Down.Ordered S.downs) (hM : Obs.NonNeg M) (hw : ∀ i, WellMade (cfgs i))
    (E : Env C ((ι × Mrk.St F) ⊕ T) A) (hE : MapsBeside E cfgs other)
    (hkey : KeptColumns E M (fun o => (o.ra, o.dec, o.band, o.schedulerNote)))
    (X : Rest H C B) (hX : ∀ h v, 0 ≤ (X.overhead h v).2)
    (cfg : Sim.Cfg) (hstep : 0 ≤ cfg.stepNone) (h1 : 0 < cfg.startSize) (h2 : 0 < cfg.appendSize) (n : ℕ)
    (w : World (Core C ((ι × Mrk.St F) ⊕ T) A × H) K)
    (hc : w.sched.1.conditions = none) (hq : w.sched.1.qm.desired = [])
    (params : ι → Option Params) (nside : ι → ℕ) (need : ι → ℚ) (terms : ι → List (Term × ℚ))
    (hgen : ∀ i, Generated (params i) (nside i) (need i) (terms i)) (hp : ∀ i q, params i = some q → q.nside = some (nside i))
    (G : ℕ → Heaven C) (hrad : ∀ i, 0 < (G (nside i)).rad) (hclose : ∀ i k, (G (nside i)).close k k = true)
    (rest : F → C → Term → Basis) (hmade : ∀ i f c, (cfgs i).basis f c = Made.basis G rest (terms i) f c)
    (hcalc : ∀ i c, Computes (G (nside i)) (nside i) (terms i) c)
    (pixel : ℕ → ℚ × ℚ → ℕ) (hpix : ∀ i p place, PixelField (cfgs i) p place → p < (G (nside i)).npix →
      pixel (nside i) place < (G (nside i)).npix ∧ (G (nside i)).close (pixel (nside i) place) p = true) :
    ∃ vs : List (Obs.Visit Obs), (Sim.run (V := Obs.Visit Obs) (env S M fuel conds mount (coreSched E X)) cfg n w).st.result = vs.map some
      ∧ ∀ v ∈ vs, (∃ i, (cfgs i).note = v.target.schedulerNote) → ∃ st : Obs.St K, st.mjd ≤ v.mjd - v.slewtime / 24 / 3600
        ∧ ∃ i, (cfgs i).note = v.target.schedulerNote
          ∧ ((∀ t ∈ terms i, grid t.1 = nside i → Untouched (G (nside i)) (conds st) t.1) → ∃ minutes, need i ≤ minutes
            ∧ StaysWithin (G (nside i)) (conds st) ((askedFor (params i)).minAlt.getD 20) ((askedFor (params i)).maxAlt.getD (173 / 2))
              ((askedFor (params i)).minAz.getD 0) ((askedFor (params i)).maxAz.getD 360) minutes (pixel (nside i) (v.target.ra, v.target.dec))) := by
  obtain ⟨vs, hr, hv⟩ := C239_safe_partial S M fuel conds mount cfgs other hn hd hM hw E hE hkey X hX cfg hstep h1 h2 n w hc hq params nside need terms hgen hp G hrad hclose
    rest hmade hcalc
  refine ⟨vs, hr, fun v hvm hi => ?_⟩
  obtain ⟨st, a, -, i, p, hnote, -, hf, hall⟩ := hv v hvm hi
  refine ⟨st, a, i, hnote, fun hclear => ?_⟩
  have A := hall hclear
  obtain ⟨m, hm, -, hk⟩ := A.sky
  obtain ⟨b1, b2⟩ := hpix i p _ hf A.inside
  exact ⟨m, hm, hk _ b1 b2⟩

end

/-! ### Example -/

/-- Six pixels: two may be observed, one is near the moon, one near a planet, one is in the wind, one is too low. -/
def sixPixels : Heaven ToyC where
  npix := 6
  rad := 1
  close i j := decide (i = j)
  moon _ := [60, 90, 35, 90, 90, 90]
  planets _ := [7]
  found q := if q = 7 then [3] else []
  wind _ := some [0, 10, 0, 0, 30, 0]
  sky _ := ⟨fun i => [40, 50, 60, 60, 60, 10].getD i 0, fun _ => 150⟩
  later _ _ := ⟨fun i => [40, 50, 60, 60, 60, 10].getD i 0, fun _ => 150⟩
  mjd c := c.mjd
  sunrise _ := 1 / 10

/-- The caller wants 40 degrees to the moon. -/
def safeParams : Params := { nside := some 32, moon := some 40 }

/-- The terms of the survey in r that `generate_blobs` makes. -/
def safeTerms : List (Term × ℚ) := (Gen.blob (demoBlob (some safeParams)) "r" none).terms

/-- A survey with these terms, choosing one field for each pixel. -/
def termsCfg (ts : List (Term × ℚ)) : Mrk.Cfg ToyC Unit where
  basis f c := Made.basis (fun _ => sixPixels) (fun _ _ _ => ⟨true, .scalar (.fin 0)⟩) ts f c
  kind _ _ := .markov ⟨none, 1, 1, fun _ _ => 0, 0, false⟩ none
  tess _ := ⟨fun p => p, fun f => ((f : ℚ) / 8, 0)⟩
  dither := .night
  night _ := 5
  pick := .greedy "r" 6
  note := "pairs"
  hear f _ := f
  hearAll f _ := f
  detail _ l := l

def safeCfg (_ : Unit) : Mrk.Cfg ToyC Unit := termsCfg safeTerms

def safeOther : SurveyOps ToyC ToySv := { toyE.sv with gen := fun s _ => (s.visits.map fun o => { o with schedulerNote := "" }, s) }

def termsEnv (ts : List (Term × ℚ)) : Env ToyC ((Unit × Mrk.St Unit) ⊕ ToySv) Unit where
  q := toyE.q
  sv := Script.mixed (Mrk.ops fun _ => termsCfg ts) safeOther
  toos := toyE.toos

def safeEnv : Env ToyC ((Unit × Mrk.St Unit) ⊕ ToySv) Unit := termsEnv safeTerms

def safeStart : World (Core ToyC ((Unit × Mrk.St Unit) ⊕ ToySv) Unit × Unit) ℚ :=
  ⟨⟨0, 0, 40⟩, (Core.init () [[.inl ((), { feat := () })]] 5 true [], ()), false⟩

/-- Right ascensions, bands and notes of the visits of a simulation. -/
def termsMade (ts : List (Term × ℚ)) : List (Option (ℚ × String × String)) :=
  (Sim.run (V := Obs.Visit Obs) (env toySite wholeKin 20 (fun s => ⟨s.mjd, none⟩) (fun k _ => k) (coreSched (termsEnv ts) wholeRest))
    { duration := 1 / 10, startSize := 2, appendSize := 2 } 30 safeStart).st.result.map
    fun r => r.map fun v => (v.target.ra, v.target.band, v.target.schedulerNote)

example : termsMade safeTerms = [some (0, "r", "pairs"), some (1 / 8, "r", "pairs"), some (0, "r", "pairs"), some (1 / 8, "r", "pairs"), some (0, "r", "pairs")] := by
  decide +kernel

/-- C239 is violated by the generator of single visits: the caller wants 40 degrees to the moon, and a visit is made at the field of a pixel 35 degrees from it. -/
theorem C239_singles_violated :
    (termsMade (Gen.greedy 32 demoWeights (-1) 15 76 1 ["r"] (some safeParams) "r").terms)[2]? = some (some (1 / 4, "r", "pairs"))
    ∧ (∀ c, (sixPixels.moon c)[2]? = some 35) ∧ ∀ p, PixelField (safeCfg ()) p (1 / 4, 0) → p = 2 := by
  refine ⟨by decide +kernel, fun c => rfl, ?_⟩
  rintro p ⟨t, h⟩
  have : ((1 / 4 : ℚ), (0 : ℚ)) = ((p : ℚ) / 8, 0) := h
  simp only [Prod.mk.injEq, and_true] at this
  have : (p : ℚ) = 2 := by linarith
  exact_mod_cast this

theorem six_pixels_clear (g : ℚ) (h : ∀ x ∈ [(40 : ℚ), 50, 60, 60, 60, 10], Feat.Clear g x) :
    ClearOf g ((List.range 6).map fun i => [40, 50, 60, 60, 60, 10].getD i 0) :=
  Or.inr (by simpa [List.range_succ] using h)

theorem safe_terms (t : Term × ℚ) (ht : t ∈ safeTerms) : t.1 = .moon 32 40 ∨ t.1 = .planets 32 ∨ t.1 = .wind 32 20 ∨ t.1 = .altAz 32 20 (173 / 2) 0 360 35
    ∨ t.1 = .sunrise 32 20 (173 / 2) 120 290 35 (43 / 12) ∨ ((∀ h : Heaven ToyC, ∀ c, Untouched h c t.1) ∧ (∀ a b z y m, t.1 ≠ .altAz 32 a b z y m)
      ∧ ∀ a b z y m u, t.1 ≠ .sunrise 32 a b z y m u) := by
  have e : safeTerms.map Prod.fst = [.depth 32 "r", .footprint 32 "r", .slew 32 "r", .strictBand "r", .loaded ["r"], .repeats 32 180, .goodSeeing 32 "r" 3, .toScheduled 45,
    .toTwilight 15, .notTwilight, .moon 32 40, .planets 32, .wind 32 20, .altAz 32 20 (173 / 2) 0 360 35, .sunrise 32 20 (173 / 2) 120 290 35 (43 / 12)] := by decide +kernel
  have := List.mem_map_of_mem (f := Prod.fst) ht
  rw [e] at this
  generalize t.1 = x at this
  simp only [List.mem_cons, List.not_mem_nil, or_false] at this
  rcases this with rfl | rfl | rfl | rfl | rfl | rfl | rfl | rfl | rfl | rfl | rfl | rfl | rfl | rfl | rfl <;> simp [Untouched]

/-- The assumptions of C239 are met by this simulation. -/
example : (∀ i, WellMade (safeCfg i)) ∧ MapsBeside safeEnv safeCfg safeOther
    ∧ KeptColumns safeEnv wholeKin (fun o => (o.ra, o.dec, o.band, o.schedulerNote))
    ∧ Generated (some safeParams) 32 35 safeTerms ∧ (∀ q, some safeParams = some q → q.nside = some 32)
    ∧ (0 < sixPixels.rad ∧ ∀ k, sixPixels.close k k = true) ∧ (∀ c, Computes sixPixels 32 safeTerms c)
    ∧ (∀ c, ∀ t ∈ safeTerms, grid t.1 = 32 → Untouched sixPixels c t.1)
    ∧ (∀ i p place, PixelField (safeCfg i) p place → p < 6 → (place.1 * 8).num.toNat < 6 ∧ sixPixels.close (place.1 * 8).num.toNat p = true)
    ∧ safeStart.sched.1.conditions = none ∧ safeStart.sched.1.qm.desired = [] := by
  refine ⟨?_, ⟨rfl, ?_⟩, ⟨fun _ _ _ => rfl, fun _ _ => rfl, fun _ _ l o ho => ⟨o, ho, rfl⟩, ?_⟩, ?_, by rintro q ⟨⟩; rfl, ⟨by decide +kernel, fun k => by simp [sixPixels]⟩, ?_, ?_, ?_,
    rfl, rfl⟩
  · intro i
    refine ⟨fun _ _ => trivial, ?_, fun _ l o ho => ⟨o, ho, rfl⟩⟩
    intro nb a grow b1 b2 visits block order flush h
    simp [safeCfg, termsCfg] at h
  · intro s c g hg i
    obtain ⟨o', -, rfl⟩ := List.mem_map.1 hg
    show "pairs" ≠ ""
    decide
  · intro k t o o' h
    have h : some o = some o' := h
    cases h
    rfl
  · have := Generated.blob (demoBlob (some safeParams)) ["r"] [none] _ (List.mem_singleton.2 rfl)
    rwa [show (demoBlob (some safeParams)).pairTime * 2 + (demoBlob (some safeParams)).pad = 35 by decide +kernel] at this
  · intro c t ht a b z y m h
    rcases safe_terms t ht with e | e | e | e | e | e
    · rw [e] at h; simp at h
    · rw [e] at h; simp at h
    · rw [e] at h; simp at h
    · rw [e] at h
      simp only [Term.altAz.injEq, reduceCtorEq, exists_false, or_false, true_and] at h
      obtain ⟨rfl, rfl, rfl, rfl, rfl⟩ := h
      show (Made.shadow sixPixels ⟨0, none⟩ 20 (173 / 2) 0 360 35).isSome = true
      decide +kernel
    · rw [e] at h
      simp only [Term.sunrise.injEq, reduceCtorEq, false_or, true_and] at h
      obtain ⟨u, rfl, rfl, rfl, rfl, rfl, -⟩ := h
      show (Made.shadow sixPixels ⟨0, none⟩ 20 (173 / 2) 120 290 35).isSome = true
      decide +kernel
    · rcases h with h | ⟨u, h⟩
      · exact absurd h (e.2.1 a b z y m)
      · exact absurd h (e.2.2 a b z y m u)
  · intro c t ht _
    have alts : ∀ z y, ∀ s : Sky, s.alt = (fun i => [40, 50, 60, 60, 60, 10].getD i 0) → AltClear 6 (limits sixPixels c 20 (173 / 2) z y) s := by
      intro z y s hs l hl
      simp only [limits, sixPixels, List.nil_append, Option.toList_none, List.mem_singleton] at hl
      subst hl
      rw [hs]
      exact ⟨six_pixels_clear _ (by unfold Feat.Clear; decide +kernel), six_pixels_clear _ (by unfold Feat.Clear; decide +kernel)⟩
    rcases safe_terms t ht with e | e | e | e | e | e
    · rw [e]
      show ClearOf (40 * 1) [60, 90, 35, 90, 90, 90]
      right
      unfold Feat.Clear
      decide +kernel
    · rw [e]; trivial
    · rw [e]; trivial
    · rw [e]
      exact ⟨alts _ _ _ rfl, fun _ _ => alts _ _ _ rfl⟩
    · rw [e]
      exact ⟨alts _ _ _ rfl, fun _ _ => alts _ _ _ rfl⟩
    · exact e.1 _ _
  · rintro i p place ⟨t, rfl⟩ hp
    have : ((safeCfg i).tess t).pos (((safeCfg i).tess t).field p) = ((p : ℚ) / 8, 0) := rfl
    rw [this]
    have e : ((p : ℚ) / 8 * 8) = p := by ring
    dsimp only
    rw [e]
    simp [sixPixels, hp]

end Verif
