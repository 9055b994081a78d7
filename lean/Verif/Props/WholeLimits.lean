import Verif.Props.WholeNight
import Verif.Model.Feasible

/-!
Property C220: in a simulation greedy and blob surveys observe only in nights when they were feasible.
-/

namespace Verif

open Sim Whole Rew Blob

variable {C F ι T A K H B : Type}

/-- What a survey generates it generates when all its basis functions are feasible. -/
theorem gen_feasible {cfg : Mrk.Cfg C F} {s : Mrk.St F} {c : C} {o : Obs} (h : o ∈ (Mrk.gen cfg s c).1) : ∀ b ∈ cfg.basis s.feat c, b.1.feasible = true := by
  intro b hb
  by_contra hcon
  have := C51_infeasible (cfg.kind s.feat c) (cfg.basis s.feat c) ⟨b, hb, by simpa using hcon⟩
  unfold Mrk.gen at h
  rw [this] at h
  exact absurd h List.not_mem_nil

section

variable (S : Obs.Site) (M : Obs.Kin K Obs) (fuel : ℕ) (conds : Obs.St K → C) (mount : K → B → K) (cfgs : ι → Mrk.Cfg C F) (other : SurveyOps C T)

/-- The same for any times `Bar` after which the telescope is closed for longer than it takes to make a visit. -/
theorem feasible_when_asked (Bar : ℚ → Prop) (hn : Obs.Nights S.nights) (hd : Down.Ordered S.downs) (hM : Obs.NonNeg M) (hw : ∀ i, WellMade (cfgs i))
    (E : Env C ((ι × Mrk.St F) ⊕ T) A) (hE : MapsBeside E cfgs other)
    (hkey : KeptColumns E M (fun o => (o.ra, o.dec, o.band, o.schedulerNote)))
    (X : Rest H C B) (hX : ∀ h v, 0 ≤ (X.overhead h v).2)
    (cfg : Sim.Cfg) (hstep : 0 ≤ cfg.stepNone) (h1 : 0 < cfg.startSize) (h2 : 0 < cfg.appendSize) (n : ℕ)
    (w : World (Core C ((ι × Mrk.St F) ⊕ T) A × H) K)
    (hc : w.sched.1.conditions = none) (hq : w.sched.1.qm.desired = [])
    (Closed : ι → C → Prop) (hclosed : ∀ i f c, Closed i c → ∃ b ∈ (cfgs i).basis f c, b.1.feasible = false)
    (Bad : ι → C → ℕ → Prop) (hbad : ∀ i f c p, Bad i c p → ∃ b ∈ (cfgs i).basis f c, valueAt p b.1.raw = .nan)
    (longest over : ℚ) (hover0 : 0 ≤ over) (hlong : ∀ k o t, ∀ s ∈ (M.observe k o t).2.1, (s + (M.observe k o t).2.2) / 24 / 3600 ≤ longest)
    (hover : ∀ h v, (X.overhead h v).2 / 86400 ≤ over)
    (hbar : ∀ x, Bar x → ∀ t, x < t → t ≤ x + (over + cfg.stepNone / 60 / 24 + longest) → ¬ Obs.Open S t)
    (hraised : (Sim.run (V := Obs.Visit Obs) (env S M fuel conds mount (coreSched E X)) cfg n w).st.w.raised = false) :
    ∃ vs : List (Obs.Visit Obs), (Sim.run (V := Obs.Visit Obs) (env S M fuel conds mount (coreSched E X)) cfg n w).st.result = vs.map some
      ∧ ∀ v ∈ vs, (∃ i, (cfgs i).note = v.target.schedulerNote) → ∃ st : Obs.St K, st.mjd ≤ v.mjd - v.slewtime / 24 / 3600
        ∧ .update st.mjd (conds st) ∈ (Sim.run (V := Obs.Visit Obs) (env S M fuel conds mount (coreSched E X)).recorded cfg n (w, [])).st.w.2
        ∧ (∀ x, Bar x → x < v.mjd + v.visittime / 24 / 3600 → x < st.mjd)
        ∧ ∃ i p, (cfgs i).note = v.target.schedulerNote ∧ v.target.band ∈ bandsOf (cfgs i) ∧ ¬ Closed i (conds st) ∧ ¬ Bad i (conds st) p
          ∧ PixelField (cfgs i) p (v.target.ra, v.target.dec) := by
  obtain ⟨vs, hr, hv⟩ := asked_before_bar Bar S hn hd M hM fuel conds mount E _ hkey X hX cfg hstep h1 h2 n w hc hq
    (fun c k => (∃ i, (cfgs i).note = k.2.2.2) → ∃ i p, (cfgs i).note = k.2.2.2 ∧ k.2.2.1 ∈ bandsOf (cfgs i) ∧ ¬ Closed i c ∧ ¬ Bad i c p
      ∧ PixelField (cfgs i) p (k.1, k.2.1))
    (by
      intro sv c r _ _ g hg hi
      rw [hE.sv] at hg
      rcases sv with ⟨i, s⟩ | s
      · obtain ⟨p, hp, hnote, hband, hf⟩ := gen_mem (hw i) hg
        have hfe := gen_feasible hg
        refine ⟨i, p, hnote.symm, hband, ?_, ?_, hf⟩
        · intro hb
          obtain ⟨b, hbm, hbn⟩ := hclosed i s.feat c hb
          have := hfe b hbm
          rw [hbn] at this
          cases this
        · intro hb
          obtain ⟨b, hbm, hbn⟩ := hbad i s.feat c p hb
          exact hp b hbm hbn
      · obtain ⟨i, hi⟩ := hi
        exact absurd hi (hE.notes _ c g hg i)) longest over hover0 hlong hover hbar hraised
  refine ⟨vs, hr, ?_⟩
  intro v hvm hi
  obtain ⟨st, a, b, hrule, hnight⟩ := hv v hvm
  exact ⟨st, a, b, hnight, hrule hi⟩

/-- C220: let `Closed i c` say that some basis function of the survey is not feasible under the conditions, and `Bad i c p` that some masks the pixel. Then
every visit that a simulation returns with the note of such a survey was asked for in the night in which it was made, under conditions for which a survey with
this note was not closed, and it is at the field of a pixel that was not bad. Missing: the survey may have been closed since (`C220_later_violated`). -/
theorem C220_feasible_partial (hn : Obs.Nights S.nights) (hd : Down.Ordered S.downs) (hM : Obs.NonNeg M) (hw : ∀ i, WellMade (cfgs i))
    (E : Env C ((ι × Mrk.St F) ⊕ T) A) (hE : MapsBeside E cfgs other)
    (hkey : KeptColumns E M (fun o => (o.ra, o.dec, o.band, o.schedulerNote)))
    (X : Rest H C B) (hX : ∀ h v, 0 ≤ (X.overhead h v).2)
    (cfg : Sim.Cfg) (hstep : 0 ≤ cfg.stepNone) (h1 : 0 < cfg.startSize) (h2 : 0 < cfg.appendSize) (n : ℕ)
    (w : World (Core C ((ι × Mrk.St F) ⊕ T) A × H) K)
    (hc : w.sched.1.conditions = none) (hq : w.sched.1.qm.desired = [])
    (Closed : ι → C → Prop) (hclosed : ∀ i f c, Closed i c → ∃ b ∈ (cfgs i).basis f c, b.1.feasible = false)
    (Bad : ι → C → ℕ → Prop) (hbad : ∀ i f c p, Bad i c p → ∃ b ∈ (cfgs i).basis f c, valueAt p b.1.raw = .nan)
    (longest over : ℚ) (hover0 : 0 ≤ over) (hlong : ∀ k o t, ∀ s ∈ (M.observe k o t).2.1, (s + (M.observe k o t).2.2) / 24 / 3600 ≤ longest)
    (hover : ∀ h v, (X.overhead h v).2 / 86400 ≤ over)
    (hday : ∀ a ∈ S.nights, ∀ b ∈ S.nights, a.2 < b.1 → a.2 + (over + cfg.stepNone / 60 / 24 + longest) < b.1)
    (hraised : (Sim.run (V := Obs.Visit Obs) (env S M fuel conds mount (coreSched E X)) cfg n w).st.w.raised = false) :
    ∃ vs : List (Obs.Visit Obs), (Sim.run (V := Obs.Visit Obs) (env S M fuel conds mount (coreSched E X)) cfg n w).st.result = vs.map some
      ∧ ∀ v ∈ vs, (∃ i, (cfgs i).note = v.target.schedulerNote) → ∃ st : Obs.St K, st.mjd ≤ v.mjd - v.slewtime / 24 / 3600
        ∧ .update st.mjd (conds st) ∈ (Sim.run (V := Obs.Visit Obs) (env S M fuel conds mount (coreSched E X)).recorded cfg n (w, [])).st.w.2
        ∧ (∀ a ∈ S.nights, a.2 < v.mjd + v.visittime / 24 / 3600 → a.2 < st.mjd)
        ∧ ∃ i p, (cfgs i).note = v.target.schedulerNote ∧ v.target.band ∈ bandsOf (cfgs i) ∧ ¬ Closed i (conds st) ∧ ¬ Bad i (conds st) p
          ∧ PixelField (cfgs i) p (v.target.ra, v.target.dec) := by
  obtain ⟨vs, hr, hv⟩ := feasible_when_asked S M fuel conds mount cfgs other (fun x => ∃ a ∈ S.nights, a.2 = x) hn hd hM hw E hE hkey X hX cfg hstep h1 h2 n w hc hq
    Closed hclosed Bad hbad longest over hover0 hlong hover (night_end_bar hn hday) hraised
  refine ⟨vs, hr, fun v hvm hi => ?_⟩
  obtain ⟨st, a, b, c, d⟩ := hv v hvm hi
  exact ⟨st, a, b, fun a ha => c _ ⟨a, ha, rfl⟩, d⟩

/-- C220 for twilight: if surveys have the basis function that keeps them out of twilight, no visit of theirs begins before the end of the evening twilight of the
night in which it was made, and it was asked for before the morning twilight. -/
theorem C220_twilight_partial (hn : Obs.Nights S.nights) (hd : Down.Ordered S.downs) (hM : Obs.NonNeg M) (hw : ∀ i, WellMade (cfgs i))
    (E : Env C ((ι × Mrk.St F) ⊕ T) A) (hE : MapsBeside E cfgs other)
    (hkey : KeptColumns E M (fun o => (o.ra, o.dec, o.band, o.schedulerNote)))
    (X : Rest H C B) (hX : ∀ h v, 0 ≤ (X.overhead h v).2)
    (cfg : Sim.Cfg) (hstep : 0 ≤ cfg.stepNone) (h1 : 0 < cfg.startSize) (h2 : 0 < cfg.appendSize) (n : ℕ)
    (w : World (Core C ((ι × Mrk.St F) ⊕ T) A × H) K)
    (hc : w.sched.1.conditions = none) (hq : w.sched.1.qm.desired = [])
    (see : C → Feas.Cond) (hnow : ∀ st, (see (conds st)).mjd = st.mjd)
    (evening morning : ℕ → ℚ) (hsun : ∀ st k a, S.nights[k]? = some a → st.mjd ≤ a.2 → (∀ j < k, ∀ b, S.nights[j]? = some b → b.2 < st.mjd) →
      Feas.setting (see (conds st)) 12 = some (evening k) ∧ Feas.rising (see (conds st)) 12 = some (morning k))
    (hdark : ∀ i f c, ∃ b ∈ (cfgs i).basis f c, some b.1.feasible = Feas.notTwilight 12 (see c))
    (longest over : ℚ) (hover0 : 0 ≤ over) (hlong : ∀ k o t, ∀ s ∈ (M.observe k o t).2.1, (s + (M.observe k o t).2.2) / 24 / 3600 ≤ longest)
    (hover : ∀ h v, (X.overhead h v).2 / 86400 ≤ over)
    (hday : ∀ a ∈ S.nights, ∀ b ∈ S.nights, a.2 < b.1 → a.2 + (over + cfg.stepNone / 60 / 24 + longest) < b.1)
    (hraised : (Sim.run (V := Obs.Visit Obs) (env S M fuel conds mount (coreSched E X)) cfg n w).st.w.raised = false) :
    ∃ vs : List (Obs.Visit Obs), (Sim.run (V := Obs.Visit Obs) (env S M fuel conds mount (coreSched E X)) cfg n w).st.result = vs.map some
      ∧ ∀ v ∈ vs, (∃ i, (cfgs i).note = v.target.schedulerNote) → ∀ k a, S.nights[k]? = some a →
        a.1 ≤ v.mjd + v.visittime / 24 / 3600 → v.mjd + v.visittime / 24 / 3600 ≤ a.2 →
        evening k ≤ v.mjd - v.slewtime / 24 / 3600 ∧ ∃ asked, asked ≤ morning k ∧ asked ≤ v.mjd - v.slewtime / 24 / 3600 := by
  have hC := C183_visits S hn hd M hM fuel conds mount (coreSched E X) (fun _ _ => hX _ _) cfg hstep h1 h2 n w
  obtain ⟨vs', hr', -, -, hall⟩ := hC
  obtain ⟨vs, hr, hv⟩ := C220_feasible_partial S M fuel conds mount cfgs other hn hd hM hw E hE hkey X hX cfg hstep h1 h2 n w hc hq
    (fun _ c => Feas.notTwilight 12 (see c) ≠ some true) (by
      intro i f c hb
      obtain ⟨b, hbm, e⟩ := hdark i f c
      refine ⟨b, hbm, ?_⟩
      rw [← e] at hb
      simpa using hb) (fun _ _ _ => False) (fun _ _ _ _ h => h.elim) longest over hover0 hlong hover hday hraised
  have hsame : vs = vs' := by
    have e := hr.symm.trans hr'
    exact List.map_injective_iff.2 (Option.some_injective _) e
  refine ⟨vs, hr, ?_⟩
  intro v hvm hi k a hk ha1 ha2
  obtain ⟨st, hst, -, hnight, i, p, -, -, hcl, -⟩ := hv v hvm hi
  obtain ⟨-, -, -, -, -, hs0, hv0⟩ := hall v (hsame ▸ hvm)
  have hle : v.mjd - v.slewtime / 24 / 3600 ≤ v.mjd + v.visittime / 24 / 3600 := by
    have : 0 ≤ v.slewtime / 24 / 3600 := by positivity
    have : 0 ≤ v.visittime / 24 / 3600 := by positivity
    linarith
  obtain ⟨hs, hr⟩ := hsun st k a hk (by linarith) (by
    intro j hj b hb
    refine hnight b (List.mem_of_getElem? hb) (lt_of_lt_of_le ?_ ha1)
    obtain ⟨hj', rfl⟩ := List.getElem?_eq_some_iff.1 hb
    obtain ⟨hk', rfl⟩ := List.getElem?_eq_some_iff.1 hk
    exact List.pairwise_iff_getElem.1 hn.2 j k hj' hk' hj)
  have hdarknow : Feas.notTwilight 12 (see (conds st)) = some true := by
    by_contra h
    exact hcl h
  unfold Feas.notTwilight at hdarknow
  rw [hs, hr] at hdarknow
  dsimp only at hdarknow
  rw [hnow] at hdarknow
  have hm : st.mjd ≤ morning k := by
    by_contra h
    rw [if_pos (not_le.1 h)] at hdarknow
    cases hdarknow
  have he : evening k ≤ st.mjd := by
    by_contra h
    rw [if_pos (not_le.1 h), if_neg (not_lt.2 hm)] at hdarknow
    cases hdarknow
  exact ⟨he.trans hst, st.mjd, hm, hst⟩

end

/-! ### Examples -/

/-- The night to which a time belongs. -/
def nightOf (t : ℚ) : ℕ := if t ≤ 1 / 2 then 0 else if t ≤ 3 / 2 then 1 else 2

/-- Twilight takes a twentieth of a day. -/
def twilights (c : ToyC) : Feas.Cond :=
  { mjd := c.mjd, night := nightOf c.mjd, mounted := [], sunAlt := 0, moonAlt := 0, moonrise := 0, moonset := 0, n12setting := nightOf c.mjd + 1 / 20,
    n18setting := 0, n18rising := 0, n12rising := nightOf c.mjd + 9 / 20, lmst := 0, scheduled := [], bulkCloud := 0 }

/-- A greedy survey of three fields that keeps out of twilight. -/
def darkCfg (_ : Unit) : Mrk.Cfg ToyC Unit where
  basis _ c := [(⟨(Feas.notTwilight 12 (twilights c)).getD false, .map [.fin 1, .fin 2, .fin 1]⟩, 1)]
  kind _ _ := .markov ⟨none, 1, 1, fun _ _ => 0, 0, false⟩ none
  tess _ := ⟨fun p => p, fun f => (f / 2, 0)⟩
  dither := .never
  night _ := 5
  pick := .greedy "r" 3
  note := "dark"
  hear f _ := f
  hearAll f _ := f
  detail _ l := l

def twiOther : SurveyOps ToyC ToySv := { toyE.sv with gen := fun s _ => (s.visits.map fun o => { o with schedulerNote := "" }, s) }

def darkEnv : Env ToyC ((Unit × Mrk.St Unit) ⊕ ToySv) Unit where
  q := toyE.q
  sv := Script.mixed (Mrk.ops darkCfg) twiOther
  toos := toyE.toos

def darkStart : World (Core ToyC ((Unit × Mrk.St Unit) ⊕ ToySv) Unit × Unit) ℚ :=
  ⟨⟨0, 0, 40⟩, (Core.init () [[.inl ((), { feat := () })], [.inr ⟨[.fin 1], [{ targetId := 0, band := "y" }], none⟩]] 5 true [], ()), false⟩

/-- Notes of the visits of the simulation, with the times when the telescope set out for them. -/
def darkMade : List (Option (String × ℚ)) × Bool :=
  let o := Sim.run (V := Obs.Visit Obs) (env { toySite with downs := [] } wholeKin 20 (fun s => ⟨s.mjd, none⟩) (fun k _ => k) (coreSched darkEnv (nightRest 0)))
    { duration := 11 / 10, startSize := 2, appendSize := 2 } 60 darkStart
  (o.st.result.map fun r => r.map fun v => (v.target.schedulerNote, slewStart v), o.st.w.raised)

/-- C220 is violated at the time of a visit: the morning twilight begins at 9/20, and the survey that keeps out of twilight begins a visit at 1957/4320, asked for
with others before twilight. -/
theorem C220_later_violated : darkMade.1[19]? = some (some ("dark", 1957 / 4320)) ∧ darkMade.2 = false
    ∧ Feas.notTwilight 12 (twilights ⟨1957 / 4320, none⟩) = some false ∧ Feas.rising (twilights ⟨1957 / 4320, none⟩) 12 = some (9 / 20) := by
  decide +kernel

/-- In the evening the survey waits for the end of twilight, in both nights. -/
example : darkMade.1.take 4 = [some ("", 0), some ("", 103 / 4320), some ("", 103 / 2160), some ("dark", 103 / 1440)]
    ∧ darkMade.1.drop 20 = [some ("", 73 / 72), some ("", 4483 / 4320), some ("dark", 2293 / 2160), some ("dark", 521 / 480)] := by
  decide +kernel

/-- The assumptions of C220 are met by this simulation. -/
example : (∀ i, WellMade (darkCfg i)) ∧ MapsBeside darkEnv darkCfg twiOther ∧ KeptColumns darkEnv wholeKin (fun o => (o.ra, o.dec, o.band, o.schedulerNote))
    ∧ (∀ st : Obs.St ℚ, (twilights ⟨st.mjd, none⟩).mjd = st.mjd)
    ∧ (∀ (st : Obs.St ℚ) (k : ℕ) (a : ℚ × ℚ), toySite.nights[k]? = some a → st.mjd ≤ a.2 → (∀ j < k, ∀ b, toySite.nights[j]? = some b → b.2 < st.mjd) →
      Feas.setting (twilights ⟨st.mjd, none⟩) 12 = some ((k : ℚ) + 1 / 20) ∧ Feas.rising (twilights ⟨st.mjd, none⟩) 12 = some ((k : ℚ) + 9 / 20))
    ∧ (∀ i f c, ∃ b ∈ (darkCfg i).basis f c, some b.1.feasible = Feas.notTwilight 12 (twilights c))
    ∧ darkStart.sched.1.conditions = none ∧ darkStart.sched.1.qm.desired = [] := by
  refine ⟨?_, ⟨rfl, ?_⟩, ⟨fun _ _ _ => rfl, fun _ _ => rfl, fun _ _ l o ho => ⟨o, ho, rfl⟩, ?_⟩, fun _ => rfl, ?_, ?_, rfl, rfl⟩
  · intro i
    refine ⟨fun _ _ => trivial, ?_, fun _ l o ho => ⟨o, ho, rfl⟩⟩
    intro nb a grow b1 b2 visits block order flush h
    simp [darkCfg] at h
  · intro s c g hg i
    obtain ⟨o', -, rfl⟩ := List.mem_map.1 hg
    show "dark" ≠ ""
    decide
  · intro k t o o' h
    have h : some o = some o' := h
    cases h
    rfl
  · intro st k a hk ha hj
    have hidx : nightOf st.mjd = k := by
      rcases k with _ | _ | _ | k
      · have : a = (0, 1 / 2) := by simpa [toySite] using hk.symm
        subst this
        unfold nightOf
        rw [if_pos ha]
      · have : a = (1, 3 / 2) := by simpa [toySite] using hk.symm
        subst this
        have h0 : (1 / 2 : ℚ) < st.mjd := hj 0 (by omega) (0, 1 / 2) rfl
        unfold nightOf
        rw [if_neg (not_le.2 h0), if_pos ha]
      · have h0 : (1 / 2 : ℚ) < st.mjd := hj 0 (by omega) (0, 1 / 2) rfl
        have h1 : (3 / 2 : ℚ) < st.mjd := hj 1 (by omega) (1, 3 / 2) rfl
        unfold nightOf
        rw [if_neg (not_le.2 h0), if_neg (not_le.2 h1)]
      · simp [toySite] at hk
    unfold Feas.setting Feas.rising twilights
    dsimp only
    rw [hidx]
    exact ⟨rfl, rfl⟩
  · intro i f c
    refine ⟨_, List.mem_singleton.2 rfl, ?_⟩
    unfold Feas.notTwilight Feas.setting Feas.rising
    rfl

end Verif
