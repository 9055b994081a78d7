import Verif.Lemmas.Cause
import Verif.Props.Basis
import Verif.Props.WholeMarkov
import Verif.Props.WholeTurn

/-!
Property C249: in a simulation, greedy and blob surveys choose pixels that are not masked because of the visits made before.
-/

namespace Verif

open Whole Core Rew

section
variable {C F T A H K ι B : Type}

/-- At the time `t` a survey with this note, knowing the visits `hs`, had a pixel of this place that was not bad. -/
def FreePixel (E : Env C ((ι × Mrk.St F) ⊕ T) A) (cfgs : ι → Mrk.Cfg C F) (Bad : ι → List Obs → C → ℕ → Prop) (hs : List Obs) (t : ℚ) (k : ℚ × ℚ × String × String) : Prop :=
  (∃ i, (cfgs i).note = k.2.2.2) → ∃ i p c, E.q.mjdOf c = t ∧ (cfgs i).note = k.2.2.2 ∧ k.2.2.1 ∈ bandsOf (cfgs i) ∧ ¬ Bad i hs c p
    ∧ PixelField (cfgs i) p (k.1, k.2.1)

/-- The features are what the surveys made of the visits. -/
def FeatHeard (cfgs : ι → Mrk.Cfg C F) (f0 : ι → F) (hs : List Obs) : (ι × Mrk.St F) ⊕ T → Prop
  | .inl s => s.2.feat = hs.foldl (cfgs s.1).hear (f0 s.1)
  | .inr _ => True

def maskCauses {E : Env C ((ι × Mrk.St F) ⊕ T) A} {cfgs : ι → Mrk.Cfg C F} {other : SurveyOps C T} (hE : MapsBeside E cfgs other) (hw : ∀ i, WellMade (cfgs i))
    (f0 : ι → F) (Bad : ι → List Obs → C → ℕ → Prop)
    (hbad : ∀ i hs c p, Bad i hs c p → ∃ b ∈ (cfgs i).basis (hs.foldl (cfgs i).hear (f0 i)) c, valueAt p b.1.raw = .nan) :
    Causes E (fun o => (o.ra, o.dec, o.band, o.schedulerNote)) (FreePixel E cfgs Bad) where
  Heard hs _ s := FeatHeard cfgs f0 hs s
  later _ h := h
  reward := by
    rintro hs bar (s | s) c - h <;> rw [hE.sv]
    · exact h
    · trivial
  gen := by
    rintro hs bar (⟨i, s⟩ | s) c - h <;> rw [hE.sv]
    · obtain ⟨k, hk⟩ := gen_state (cfgs i) s c
      show (Mrk.gen (cfgs i) s c).2.feat = _
      rw [hk, spins_feat]
      exact h
    · trivial
  update := by
    rintro hs bar (s | s) c - h <;> rw [hE.sv]
    · exact h
    · trivial
  hear := by
    rintro hs (⟨i, s⟩ | s) o h <;> rw [hE.sv]
    · show (cfgs i).hear s.feat o = _
      have h : s.feat = hs.foldl (cfgs i).hear (f0 i) := h
      rw [h, List.foldl_append]
      rfl
    · trivial
  cause := by
    rintro hs bar (⟨i, s⟩ | s) c hbar h g hg
    · rw [hE.sv] at hg
      refine ⟨E.q.mjdOf c, hbar, fun _ => ?_⟩
      obtain ⟨p, hp, hnote, hband, hf⟩ := gen_mem (hw i) hg
      refine ⟨i, p, c, rfl, hnote.symm, hband, ?_, hf⟩
      intro hb
      obtain ⟨b, hbm, hbn⟩ := hbad i hs c p hb
      have h : s.feat = hs.foldl (cfgs i).hear (f0 i) := h
      rw [← h] at hbm
      exact hp b hbm hbn
    · rw [hE.sv] at hg
      refine ⟨bar, le_rfl, ?_⟩
      rintro ⟨i, hi⟩
      exact absurd hi (hE.notes _ c g hg i)

variable (S : Obs.Site) (hn : Obs.Nights S.nights) (hd : Down.Ordered S.downs) (M : Obs.Kin K Obs) (hM : Obs.NonNeg M) (fuel : ℕ)
  (conds : Obs.St K → C) (mount : K → B → K) (E : Env C ((ι × Mrk.St F) ⊕ T) A) (hnow : ∀ st, E.q.mjdOf (conds st) = st.mjd)
  (cfgs : ι → Mrk.Cfg C F) (other : SurveyOps C T) (hw : ∀ i, WellMade (cfgs i)) (hE : MapsBeside E cfgs other)
  (hkey : KeptColumns E M (fun o => (o.ra, o.dec, o.band, o.schedulerNote)))
  (X : Rest H C B) (hX : ∀ h v, 0 ≤ (X.overhead h v).2) (cfg : Sim.Cfg) (hstep : 0 ≤ cfg.stepNone) (h1 : 0 < cfg.startSize) (h2 : 0 < cfg.appendSize) (m : ℕ)
  (w : World (Core C ((ι × Mrk.St F) ⊕ T) A × H) K) (hc : w.sched.1.conditions = none) (hq : w.sched.1.qm.desired = [])
  (f0 : ι → F) (hnew : ∀ tier ∈ w.sched.1.tiers, ∀ s, .inl s ∈ tier → s.2.feat = f0 s.1)

include hn hd hM hnow hw hE hkey hX hstep h1 h2 hc hq hnew

/-- C249: let the basis function values of the surveys, after any visits, mask the pixels that are bad for these visits and the conditions. Then every visit that a
simulation returns with the note of such a survey is at the field of a pixel that was not bad under some conditions, of a time not later than the visit began,
for exactly the visits returned before some place in the list, and all visits from there on were made at that time or later.
Missing: what was made between that time and the visit (`C249_block_violated`). -/
theorem C249_history_partial (Bad : ι → List Obs → C → ℕ → Prop)
    (hbad : ∀ i hs c p, Bad i hs c p → ∃ b ∈ (cfgs i).basis (hs.foldl (cfgs i).hear (f0 i)) c, valueAt p b.1.raw = .nan) :
    ∃ vs : List (Obs.Visit Obs), (Sim.run (V := Obs.Visit Obs) (env S M fuel conds mount (coreSched E X)) cfg m w).st.result = vs.map some
      ∧ vs.Pairwise (fun a b => a.mjd ≤ b.mjd)
      ∧ ∀ v ∈ vs, (∃ i, (cfgs i).note = v.target.schedulerNote) →
        ∃ k c, E.q.mjdOf c ≤ slewStart v ∧ (∀ u ∈ vs.drop k, E.q.mjdOf c ≤ u.mjd)
          ∧ ∃ i p, (cfgs i).note = v.target.schedulerNote ∧ v.target.band ∈ bandsOf (cfgs i) ∧ ¬ Bad i ((vs.take k).map madeRow) c p
            ∧ PixelField (cfgs i) p (v.target.ra, v.target.dec) := by
  have key := cause_kept S hn hd M hM fuel conds mount (maskCauses hE hw f0 Bad hbad) hnow hkey X hX cfg hstep h1 h2 m w hc hq []
  obtain ⟨vs, hr, hv⟩ := key (by
    rintro tier ht (s | s) hs
    · exact hnew tier ht s hs
    · trivial)
  obtain ⟨vs', hr', hp, -, he⟩ := C183_visits S hn hd M hM fuel conds mount (coreSched E X) (fun u v => hX _ _) cfg hstep h1 h2 m w
  have hvv : vs' = vs := List.map_injective_iff.2 (Option.some_injective _) (hr'.symm.trans hr)
  subst hvv
  have hord : vs'.Pairwise (fun a b => a.mjd ≤ b.mjd) := by
    refine (List.Pairwise.and_mem.1 hp).imp ?_
    rintro a b ⟨ha, hb, hab⟩
    obtain ⟨-, -, -, -, -, -, ha2⟩ := he a ha
    obtain ⟨-, -, -, -, -, hb1, -⟩ := he b hb
    linarith
  refine ⟨vs', hr, hord, ?_⟩
  intro v hmem hi
  obtain ⟨j, hj⟩ := List.mem_iff_getElem?.1 hmem
  obtain ⟨h0, t, hpre, ht, hb, hrest⟩ := hv j v hj
  obtain ⟨i, p, c, rfl, hnote, hband, hgood, hf⟩ := hb hi
  rw [List.nil_append] at hpre hrest
  have hlen : h0.length ≤ j := by
    have := hpre.length_le
    simp only [List.length_map, List.length_take] at this
    omega
  have h0e : h0 = (vs'.take h0.length).map madeRow := by
    conv_lhs => rw [List.prefix_iff_eq_take.1 hpre]
    rw [← List.map_take, List.take_take, min_eq_left hlen]
  refine ⟨h0.length, c, ht, ?_, i, p, hnote, hband, by rw [← h0e]; exact hgood, hf⟩
  intro u hu
  obtain ⟨n, hn'⟩ := List.mem_iff_getElem?.1 hu
  rw [List.getElem?_drop] at hn'
  by_cases hlt : h0.length + n < j
  · have hmem : madeRow u ∈ ((vs'.take j).map madeRow).drop h0.length := by
      rw [← List.map_drop]
      refine List.mem_map_of_mem (List.mem_iff_getElem?.2 ⟨n, ?_⟩)
      rw [List.getElem?_drop, List.getElem?_take, if_pos hlt]
      exact hn'
    exact hrest _ hmem
  · have hvu : v.mjd ≤ u.mjd := by
      rcases (not_lt.1 hlt).eq_or_lt with e | e
      · rw [← e, hj] at hn'
        cases hn'
        exact le_rfl
      · obtain ⟨hj1, hj2⟩ := List.getElem?_eq_some_iff.1 hj
        obtain ⟨hn1, hn2⟩ := List.getElem?_eq_some_iff.1 hn'
        rw [← hj2, ← hn2]
        exact List.pairwise_iff_getElem.1 hord j _ hj1 hn1 e
    obtain ⟨-, -, -, -, -, hs, -⟩ := he v hmem
    have : slewStart v ≤ v.mjd := by unfold slewStart; linarith [div_nonneg (div_nonneg hs (by norm_num : (0 : ℚ) ≤ 24)) (by norm_num : (0 : ℚ) ≤ 3600)]
    linarith

/-- C249, quick returns: surveys that avoid fast revisits in some bands choose, at some time not later than the visit begins, fields of pixels that no visit of the simulation made
less than the gap before that time has covered in those bands. Missing as in `C104_fast_partial`: times within the tolerance of the gap, and names of bands of several letters. -/
theorem C249_fast_partial (conv : Obs → Feat.Vis) (hconv : ReadsVisit S conv) (npix : ℕ) (gap : ℚ) (band : Option String) (hband : ∀ b ∈ band, Feat.OneLetter b)
    (hfast : ∀ i (hs : List Obs) c, ∃ b ∈ (cfgs i).basis (hs.foldl (cfgs i).hear (f0 i)) c,
      b.1.raw = .map ((Bf.avoidFast npix gap none ((hs.map conv).foldl (Feat.LastObserved.one band) (fun _ => none)) (E.q.mjdOf c)).map masked)) :
    ∃ vs : List (Obs.Visit Obs), (Sim.run (V := Obs.Visit Obs) (env S M fuel conds mount (coreSched E X)) cfg m w).st.result = vs.map some
      ∧ ((∀ u ∈ vs, Feat.OneLetter (madeRow u).band) → ∀ v ∈ vs, (∃ i, (cfgs i).note = v.target.schedulerNote) →
        ∃ t ≤ slewStart v, Bf.minutes gap ≤ t → Feat.Clear (Bf.minutes gap) t → (∀ u ∈ vs, Feat.Clear (Bf.minutes gap) (t - u.mjd)) →
          ∃ i p, (cfgs i).note = v.target.schedulerNote ∧ p < npix ∧ PixelField (cfgs i) p (v.target.ra, v.target.dec)
            ∧ ∀ u ∈ vs, u.mjd < t → Hits band p (conv (madeRow u)) → Bf.minutes gap ≤ t - u.mjd) := by
  obtain ⟨vs, hr, hord, hv⟩ := C249_history_partial S hn hd M hM fuel conds mount E hnow cfgs other hw hE hkey X hX cfg hstep h1 h2 m w hc hq f0 hnew
    (fun i hs c p => valueAt p (.map ((Bf.avoidFast npix gap none ((hs.map conv).foldl (Feat.LastObserved.one band) (fun _ => none)) (E.q.mjdOf c)).map masked)) = .nan) (by
      intro i hs c p h
      obtain ⟨b, hb, e⟩ := hfast i hs c
      exact ⟨b, hb, by rw [e]; exact h⟩)
  refine ⟨vs, hr, ?_⟩
  intro hlet v hmem hi
  obtain ⟨k, c, ht, hrest, i, p, hnote, -, hgood, hf⟩ := hv v hmem hi
  refine ⟨E.q.mjdOf c, ht, ?_⟩
  intro hg hclr0 hclr
  set h : List Feat.Vis := ((vs.take k).map madeRow).map conv with hh
  have hsub : ∀ x ∈ h, ∃ u ∈ vs, x = conv (madeRow u) := by
    intro x hx
    obtain ⟨y, hy, rfl⟩ := List.mem_map.1 hx
    obtain ⟨u, hu, rfl⟩ := List.mem_map.1 hy
    exact ⟨u, List.mem_of_mem_take hu, rfl⟩
  have hchr : Feat.Chrono h := by
    unfold Feat.Chrono
    rw [hh, List.pairwise_map, List.pairwise_map]
    refine (hord.sublist (List.take_sublist _ _)).imp ?_
    intro a b hab
    rw [(hconv _).1, (hconv _).1, (hconv _).2.1, (hconv _).2.1]
    exact ⟨hab, Int.floor_mono (by show a.mjd - S.mjdStart ≤ b.mjd - S.mjdStart; linarith)⟩
  have hl : Feat.Letters band h := ⟨hband, fun x hx => by
    obtain ⟨u, hu, rfl⟩ := hsub x hx
    rw [(hconv _).2.2.1]
    exact hlet u hu⟩
  have hcl : ClearOf (Bf.minutes gap) ((List.range npix).map (sinceLast band h (E.q.mjdOf c))) := by
    right
    intro x hx
    obtain ⟨q, -, rfl⟩ := List.mem_map.1 hx
    unfold sinceLast
    rcases ho : h.foldl (Feat.LastObserved.one band) (fun _ => none) q with _ | l
    · simpa using hclr0
    · obtain ⟨⟨x, hx, -, hx2⟩, -⟩ := (lastObserved_spec band q h hchr hl).2 l ho
      obtain ⟨u, hu, rfl⟩ := hsub x hx
      rw [(hconv _).1] at hx2
      have := hclr u hu
      rw [Option.getD_some, ← hx2]
      exact this
  have hp : p < npix := by
    by_contra hcon
    apply hgood
    show List.getD _ p _ = _
    rw [List.getD_eq_default]
    have : (Bf.avoidFast npix gap none (h.foldl (Feat.LastObserved.one band) (fun _ => none)) (E.q.mjdOf c)).length ≤ npix := by
      unfold Bf.avoidFast Mask.put
      simp
    simpa using this.trans (not_lt.1 hcon)
  refine ⟨i, p, hnote, hp, hf, ?_⟩
  intro u hu hut hhit
  by_contra hcon
  apply hgood
  have hin : u ∈ vs.take k := by
    rw [← List.take_append_drop k vs] at hu
    rcases List.mem_append.1 hu with hu | hu
    · exact hu
    · exact absurd (hrest u hu) (not_le.2 hut)
  have := (C104_fast_partial npix gap none band h (E.q.mjdOf c) hchr hl hg hcl p hp).1
    ⟨conv (madeRow u), List.mem_map_of_mem (List.mem_map_of_mem hin), hhit, by rw [(hconv _).1]; exact not_le.1 hcon⟩
  show List.getD _ p _ = _
  rw [List.getD_eq_getElem?_getD, List.getElem?_map, this]
  rfl

/-- C249, numbers of visits: surveys that hide pixels after `n` visits in some band choose, at some time not later than the visit begins, fields of pixels with fewer than `n`
visits of the simulation before that time. Missing: names of bands of several letters. -/
theorem C249_count_partial (conv : Obs → Feat.Vis) (hconv : ReadsVisit S conv) (npix n : ℕ) (band : Option String) (hband : ∀ b ∈ band, Feat.OneLetter b)
    (hmask : ∀ i (hs : List Obs) c, ∃ b ∈ (cfgs i).basis (hs.foldl (cfgs i).hear (f0 i)) c, b.1.raw = .map ((Mask.afterN npix n band (hs.map conv)).map masked)) :
    ∃ vs : List (Obs.Visit Obs), (Sim.run (V := Obs.Visit Obs) (env S M fuel conds mount (coreSched E X)) cfg m w).st.result = vs.map some
      ∧ ((∀ u ∈ vs, Feat.OneLetter (madeRow u).band) → ∀ v ∈ vs, (∃ i, (cfgs i).note = v.target.schedulerNote) →
        ∃ t ≤ slewStart v, ∃ i p, (cfgs i).note = v.target.schedulerNote ∧ p < npix ∧ PixelField (cfgs i) p (v.target.ra, v.target.dec)
          ∧ vs.countP (fun u => decide (u.mjd < t) && (decide (Feat.InBand band (conv (madeRow u))) && decide (p ∈ (conv (madeRow u)).pix))) < n) := by
  obtain ⟨vs, hr, hord, hv⟩ := C249_history_partial S hn hd M hM fuel conds mount E hnow cfgs other hw hE hkey X hX cfg hstep h1 h2 m w hc hq f0 hnew
    (fun i hs c p => valueAt p (.map ((Mask.afterN npix n band (hs.map conv)).map masked)) = .nan) (by
      intro i hs c p h
      obtain ⟨b, hb, e⟩ := hmask i hs c
      exact ⟨b, hb, by rw [e]; exact h⟩)
  refine ⟨vs, hr, ?_⟩
  intro hlet v hmem hi
  obtain ⟨k, c, ht, hrest, i, p, hnote, -, hgood, hf⟩ := hv v hmem hi
  have hl : Feat.Letters band (((vs.take k).map madeRow).map conv) := ⟨hband, fun x hx => by
    obtain ⟨y, hy, rfl⟩ := List.mem_map.1 hx
    obtain ⟨u, hu, rfl⟩ := List.mem_map.1 hy
    rw [(hconv _).2.2.1]
    exact hlet u (List.mem_of_mem_take hu)⟩
  have hp : p < npix := by
    by_contra hcon
    apply hgood
    show List.getD _ p _ = _
    rw [List.getD_eq_default]
    unfold Mask.afterN Mask.hideFrom
    simpa using hcon
  refine ⟨E.q.mjdOf c, ht, i, p, hnote, hp, hf, ?_⟩
  by_contra hcon
  apply hgood
  show List.getD _ p _ = _
  rw [List.getD_eq_getElem?_getD, List.getElem?_map, C92_after npix n band _ hl p hp, if_pos]
  · rfl
  · refine (not_lt.1 hcon).trans ?_
    conv_lhs => rw [← List.take_append_drop k vs]
    rw [List.countP_append, List.countP_eq_zero (l := vs.drop k) |>.2, Nat.add_zero, List.countP_map, List.countP_map]
    · refine List.countP_mono_left ?_
      intro u _ hu
      simp only [Bool.and_eq_true] at hu
      simpa using hu.2
    · intro u hu hu2
      simp only [Bool.and_eq_true, decide_eq_true_eq] at hu2
      exact absurd (hrest u hu) (not_le.2 hu2.1)

end

/-! ### Examples -/

/-- How the features of the examples read a visit: it covers the two pixels of its field. -/
def quickVis (o : Obs) : Feat.Vis := ⟨0, o.mjd, ⌊o.mjd - toySite.mjdStart⌋, o.band, o.schedulerNote, "", none, 0, o.ra, o.dec, [2 * o.ra.num.toNat, 2 * o.ra.num.toNat + 1]⟩

/-- A survey that stays away from pixels for an hour and hides them after two visits in the r band. It takes one field at a time, or two fields in two passes. -/
def quickCfg (blob : Bool) : Mrk.Cfg ToyC (List Feat.Vis) where
  basis h c := [(⟨true, .map ((Bf.avoidFast 4 60 none (h.foldl (Feat.LastObserved.one (some "r")) (fun _ => none)) c.mjd).map masked)⟩, 1),
    (⟨true, .map ((Mask.afterN 4 2 (some "r") h).map masked)⟩, 1)]
  kind _ _ := .markov ⟨none, 1, 1, fun _ _ => 0, 0, false⟩ none
  tess _ := ⟨fun p => p / 2, fun f => (f, 0)⟩
  dither := .never
  night _ := 5
  pick := if blob then .blob (fun p => if p % 2 = 0 then [p + 1] else [p - 1]) ⟨none, 1, 1, fun i j => if i = j then 0 else 1, 5, true⟩ false "r" "r" 2
    (fun _ => 1) id (fun c => c.mjd + 1) else .greedy "r" 1
  note := "quick"
  hear h o := h ++ [quickVis o]
  hearAll h l := h ++ l.map quickVis
  detail _ l := l

def quickOther : SurveyOps ToyC ToySv := { toyE.sv with gen := fun s _ => (s.visits.map fun o => { o with schedulerNote := "" }, s) }

def quickEnv : Env ToyC ((Bool × Mrk.St (List Feat.Vis)) ⊕ ToySv) Unit where
  q := toyE.q
  sv := Script.mixed (Mrk.ops quickCfg) quickOther
  toos := toyE.toos

def quickStart (blob : Bool) : World (Core ToyC ((Bool × Mrk.St (List Feat.Vis)) ⊕ ToySv) Unit × Unit) ℚ :=
  ⟨⟨0, 0, 40⟩, (Core.init () [[.inl (blob, { feat := [] })], [.inr ⟨[.fin 1], [{ targetId := 0, ra := 1, band := "y" }], none⟩]] 5 true [], ()), false⟩

/-- Time, place, band and note of the visits of a simulation. -/
def quickMade (blob : Bool) : List (Option (ℚ × ℚ × String × String)) :=
  (Sim.run (V := Obs.Visit Obs) (env toySite wholeKin 20 (fun s => ⟨s.mjd, none⟩) (fun k _ => k) (coreSched quickEnv wholeRest))
    { duration := 1 / 5, startSize := 2, appendSize := 2 } 30 (quickStart blob)).st.result.map
    fun r => r.map fun v => (v.mjd, v.target.ra, v.target.band, v.target.schedulerNote)

/-- One field at a time: the fields take turns, because each is hidden for an hour, and are left after two visits. (Before the first hour all are hidden: pixels without visits count as
visited at the time 0.) -/
example : quickMade false = [some (1 / 1440, 1, "y", ""), some (53 / 2160, 1, "y", ""), some (209 / 4320, 1, "r", "quick"),
    some (13 / 180, 0, "r", "quick"), some (83 / 864, 1, "r", "quick"), some (259 / 2160, 0, "r", "quick"),
    some (23 / 160, 1, "y", ""), some (181 / 1080, 1, "y", ""), some (827 / 4320, 1, "y", "")] := by decide +kernel

/-- C249 is violated at the time of a visit: the second pass of a blob returns to pixel 2 in the same band after half an hour, though the survey avoids returns within an hour. -/
theorem C249_block_violated : (quickMade true)[2]? = some (some (209 / 4320, 1, "r", "quick")) ∧ (quickMade true)[3]? = some (some (13 / 180, 1, "r", "quick"))
    ∧ (13 / 180 - 209 / 4320 : ℚ) < Bf.minutes 60
    ∧ ∀ o : Obs, o.ra = 1 → o.band = "r" → Hits (some "r") 2 (quickVis o) := by
  refine ⟨by decide +kernel, by decide +kernel, by decide +kernel, ?_⟩
  intro o h1 h2
  refine ⟨?_, ?_⟩
  · rintro b ⟨⟩
    exact h2
  · show 2 ∈ [2 * o.ra.num.toNat, 2 * o.ra.num.toNat + 1]
    rw [h1]
    decide

/-- The assumptions of C249 are met by these simulations. -/
example : (∀ i, WellMade (quickCfg i)) ∧ MapsBeside quickEnv quickCfg quickOther
    ∧ KeptColumns quickEnv wholeKin (fun o => (o.ra, o.dec, o.band, o.schedulerNote)) ∧ ReadsVisit toySite quickVis ∧ (∀ b ∈ some "r", Feat.OneLetter b)
    ∧ (∀ i (hs : List Obs) c, ∃ b ∈ (quickCfg i).basis (hs.foldl (quickCfg i).hear []) c,
      b.1.raw = .map ((Bf.avoidFast 4 60 none ((hs.map quickVis).foldl (Feat.LastObserved.one (some "r")) (fun _ => none)) (quickEnv.q.mjdOf c)).map masked))
    ∧ (∀ i (hs : List Obs) c, ∃ b ∈ (quickCfg i).basis (hs.foldl (quickCfg i).hear []) c, b.1.raw = .map ((Mask.afterN 4 2 (some "r") (hs.map quickVis)).map masked))
    ∧ (∀ i, (quickStart i).sched.1.conditions = none ∧ (quickStart i).sched.1.qm.desired = [])
    ∧ (∀ blob, ∀ r ∈ quickMade blob, ∀ x ∈ r, Feat.OneLetter x.2.2.1)
    ∧ (∀ t ∈ [13 / 180, (83 / 864 : ℚ), 259 / 2160].map (· - 1 / 1440), Bf.minutes 60 ≤ t ∧ Feat.Clear (Bf.minutes 60) t ∧ ∀ r ∈ quickMade false, ∀ x ∈ r, Feat.Clear (Bf.minutes 60) (t - x.1)) := by
  have hhear : ∀ i (hs : List Obs), hs.foldl (quickCfg i).hear [] = hs.map quickVis := by
    intro i hs
    have : ∀ (l : List Feat.Vis), hs.foldl (quickCfg i).hear l = l ++ hs.map quickVis := by
      induction hs with
      | nil => intro l; simp
      | cons o hs ih =>
        intro l
        rw [List.foldl_cons, ih]
        show (l ++ [quickVis o]) ++ _ = _
        simp
    simpa using this []
  refine ⟨?_, ⟨rfl, ?_⟩, ⟨fun _ _ _ => rfl, fun _ _ => rfl, fun _ _ l o ho => ⟨o, ho, rfl⟩, ?_⟩, fun o => ⟨rfl, rfl, rfl, rfl⟩, ?_, ?_, ?_, fun i => ⟨rfl, rfl⟩, ?_, ?_⟩
  · intro i
    refine ⟨fun _ _ => trivial, ?_, fun _ l o ho => ⟨o, ho, rfl⟩⟩
    intro nb a grow b1 b2 visits block order flush h
    rcases i with _ | _
    · simp [quickCfg] at h
    · simp only [quickCfg, if_true, Mrk.Pick.blob.injEq] at h
      obtain ⟨rfl, -, -, -, -, -, -, rfl, -⟩ := h
      refine ⟨?_, fun l f hf => hf⟩
      intro p q hq
      dsimp only at hq ⊢
      split_ifs at hq with hp
      · rw [List.mem_singleton] at hq
        rw [if_neg (by omega)]
        simp; omega
      · rw [List.mem_singleton] at hq
        rw [if_pos (by omega)]
        simp; omega
  · intro s c g hg i
    obtain ⟨o', -, rfl⟩ := List.mem_map.1 hg
    show "quick" ≠ ""
    decide
  · intro k t o o' h
    have h : some o = some o' := h
    cases h
    rfl
  · rintro b ⟨⟩
    exact ⟨'r', rfl⟩
  · intro i hs c
    rw [hhear]
    exact ⟨_, List.mem_cons_self, rfl⟩
  · intro i hs c
    rw [hhear]
    exact ⟨_, List.mem_cons_of_mem _ List.mem_cons_self, rfl⟩
  · have key : ∀ blob, ∀ r ∈ quickMade blob, ∀ x ∈ r, x.2.2.1 = "y" ∨ x.2.2.1 = "r" := by decide +kernel
    intro blob r hr x hx
    rcases key blob r hr x hx with h | h <;> rw [h]
    · exact ⟨'y', rfl⟩
    · exact ⟨'r', rfl⟩
  · unfold Feat.Clear
    decide +kernel

end Verif
