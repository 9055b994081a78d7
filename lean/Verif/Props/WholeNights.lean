import Verif.Props.WholeLimits

/-!
Property C223: surveys that are confined to certain nights keep to them in a simulation.
-/

namespace Verif

open Whole Core

section
variable {C B T A H K F ι : Type}
variable (S : Obs.Site) (M : Obs.Kin K Obs) (fuel : ℕ) (conds : Obs.St K → C) (mount : K → B → K) (cfgs : ι → Mrk.Cfg C F) (other : SurveyOps C T)

/-- The number of the night, counted from `start`, changes by day, and not so late that a visit begun before the change could be made after sunset. -/
def ChangesByDay (S : Obs.Site) (start L : ℚ) : Prop := ∀ k : ℤ, ∀ a ∈ S.nights, a.2 < start + k ∨ start + k + L < a.1

/-- C223: let the start from which the scheduler counts the nights be by day, as its documentation asks, and let surveys be feasible only in the allowed nights. Then
every visit that a simulation returns with the note of such a survey is in a night that is allowed for a survey with this note. If the observatory counts the nights
from the same start, then the visit has the number of that night. -/
theorem C223_nights (hn : Obs.Nights S.nights) (hd : Down.Ordered S.downs) (hM : Obs.NonNeg M) (hw : ∀ i, WellMade (cfgs i))
    (E : Env C ((ι × Mrk.St F) ⊕ T) A) (hE : MapsBeside E cfgs other)
    (hkey : KeptColumns E M (fun o => (o.ra, o.dec, o.band, o.schedulerNote)))
    (X : Rest H C B) (hX : ∀ h v, 0 ≤ (X.overhead h v).2)
    (cfg : Sim.Cfg) (hstep : 0 ≤ cfg.stepNone) (h1 : 0 < cfg.startSize) (h2 : 0 < cfg.appendSize) (n : ℕ)
    (w : World (Core C ((ι × Mrk.St F) ⊕ T) A × H) K)
    (hc : w.sched.1.conditions = none) (hq : w.sched.1.qm.desired = [])
    (see : C → Feas.Cond) (start : ℚ) (hnow : ∀ st, (see (conds st)).night = ⌊st.mjd - start⌋)
    (allowed : ι → ℤ → Prop) (hallowed : ∀ i f c, ¬ allowed i (see c).night → ∃ b ∈ (cfgs i).basis f c, b.1.feasible = false)
    (longest over : ℚ) (hover0 : 0 ≤ over) (hlong : ∀ k o t, ∀ s ∈ (M.observe k o t).2.1, (s + (M.observe k o t).2.2) / 24 / 3600 ≤ longest)
    (hover : ∀ h v, (X.overhead h v).2 / 86400 ≤ over)
    (hday : ChangesByDay S start (over + cfg.stepNone / 60 / 24 + longest)) (hlong0 : 0 ≤ longest)
    (hraised : (Sim.run (V := Obs.Visit Obs) (env S M fuel conds mount (coreSched E X)) cfg n w).st.w.raised = false) :
    ∃ vs : List (Obs.Visit Obs), (Sim.run (V := Obs.Visit Obs) (env S M fuel conds mount (coreSched E X)) cfg n w).st.result = vs.map some
      ∧ ∀ v ∈ vs, (∃ i, (cfgs i).note = v.target.schedulerNote) → ∃ i, (cfgs i).note = v.target.schedulerNote ∧ allowed i ⌊v.mjd - start⌋ ∧ (start = S.mjdStart → allowed i v.night) := by
  have hC := C183_visits S hn hd M hM fuel conds mount (coreSched E X) (fun _ _ => hX _ _) cfg hstep h1 h2 n w
  obtain ⟨vs', hr', -, -, hall⟩ := hC
  have hclosed : ∀ k : ℤ, ∀ t, start + k ≤ t → t ≤ start + k + (over + cfg.stepNone / 60 / 24 + longest) → ¬ Obs.Open S t := by
    intro k t ht1 ht2 ho
    obtain ⟨a, ha, h1, h2⟩ := ho.night
    rcases hday k a ha with h | h <;> linarith
  obtain ⟨vs, hr, hv⟩ := feasible_when_asked S M fuel conds mount cfgs other (fun x => ∃ k : ℤ, x = start + k) hn hd hM hw E hE hkey X hX cfg hstep h1 h2 n w hc hq
    (fun i c => ¬ allowed i (see c).night) hallowed (fun _ _ _ => False) (fun _ _ _ _ h => h.elim) longest over hover0 hlong hover
    (by rintro _ ⟨k, rfl⟩ t ht1 ht2; exact hclosed k t ht1.le ht2) hraised
  have hsame : vs = vs' := List.map_injective_iff.2 (Option.some_injective _) (hr.symm.trans hr')
  refine ⟨vs, hr, ?_⟩
  intro v hvm hi
  obtain ⟨st, hst, -, hbar, i, p, hnote, -, hal, -⟩ := hv v hvm hi
  obtain ⟨-, -, -, hopen, hnum, hs0, hv0⟩ := hall v (hsame ▸ hvm)
  have hs : 0 ≤ v.slewtime / 24 / 3600 := by positivity
  have hx : 0 ≤ v.visittime / 24 / 3600 := by positivity
  have e : ⌊v.mjd - start⌋ = (see (conds st)).night := by
    rw [hnow]
    refine le_antisymm (Int.le_floor.2 ?_) (Int.floor_le_floor (by linarith))
    by_contra hlt
    have hfl := Int.floor_le (v.mjd - start)
    have hlt := not_le.1 hlt
    rcases lt_or_ge (start + (⌊v.mjd - start⌋ : ℤ)) (v.mjd + v.visittime / 24 / 3600) with h | h
    · have := hbar _ ⟨_, rfl⟩ h
      linarith
    · have hstep0 : 0 ≤ cfg.stepNone / 60 / 24 := by positivity
      exact hclosed ⌊v.mjd - start⌋ _ (by linarith) (by linarith) hopen
  refine ⟨i, hnote, e ▸ not_not.1 hal, ?_⟩
  rintro rfl
  rw [hnum, e]
  exact not_not.1 hal

/-- C223 for the basis function that stops surveys after a night: no visit of theirs is in a later night. -/
theorem C223_onlyBefore (hn : Obs.Nights S.nights) (hd : Down.Ordered S.downs) (hM : Obs.NonNeg M) (hw : ∀ i, WellMade (cfgs i))
    (E : Env C ((ι × Mrk.St F) ⊕ T) A) (hE : MapsBeside E cfgs other)
    (hkey : KeptColumns E M (fun o => (o.ra, o.dec, o.band, o.schedulerNote)))
    (X : Rest H C B) (hX : ∀ h v, 0 ≤ (X.overhead h v).2)
    (cfg : Sim.Cfg) (hstep : 0 ≤ cfg.stepNone) (h1 : 0 < cfg.startSize) (h2 : 0 < cfg.appendSize) (n : ℕ)
    (w : World (Core C ((ι × Mrk.St F) ⊕ T) A × H) K)
    (hc : w.sched.1.conditions = none) (hq : w.sched.1.qm.desired = [])
    (see : C → Feas.Cond) (hnow : ∀ st, (see (conds st)).night = ⌊st.mjd - S.mjdStart⌋)
    (last : ℤ) (hlast : ∀ i f c, ∃ b ∈ (cfgs i).basis f c, b.1.feasible = Feas.onlyBefore last (see c))
    (longest over : ℚ) (hover0 : 0 ≤ over) (hlong : ∀ k o t, ∀ s ∈ (M.observe k o t).2.1, (s + (M.observe k o t).2.2) / 24 / 3600 ≤ longest)
    (hover : ∀ h v, (X.overhead h v).2 / 86400 ≤ over)
    (hday : ChangesByDay S S.mjdStart (over + cfg.stepNone / 60 / 24 + longest)) (hlong0 : 0 ≤ longest)
    (hraised : (Sim.run (V := Obs.Visit Obs) (env S M fuel conds mount (coreSched E X)) cfg n w).st.w.raised = false) :
    ∃ vs : List (Obs.Visit Obs), (Sim.run (V := Obs.Visit Obs) (env S M fuel conds mount (coreSched E X)) cfg n w).st.result = vs.map some
      ∧ ∀ v ∈ vs, (∃ i, (cfgs i).note = v.target.schedulerNote) → v.night ≤ last := by
  obtain ⟨vs, hr, hv⟩ := C223_nights S M fuel conds mount cfgs other hn hd hM hw E hE hkey X hX cfg hstep h1 h2 n w hc hq see S.mjdStart hnow (fun _ k => k ≤ last) (by
    intro i f c h
    obtain ⟨b, hb, e⟩ := hlast i f c
    refine ⟨b, hb, ?_⟩
    rw [e]
    simp only [Feas.onlyBefore, Bool.not_eq_false', decide_eq_true_eq]
    omega) longest over hover0 hlong hover hday hlong0 hraised
  exact ⟨vs, hr, fun v hvm hi => (hv v hvm hi).elim fun _ h => h.2.2 rfl⟩

/-- C223 for the basis function with a pattern of nights: every visit of these surveys is in a night for which the repeated pattern says yes. -/
theorem C223_nightModulo (hn : Obs.Nights S.nights) (hd : Down.Ordered S.downs) (hM : Obs.NonNeg M) (hw : ∀ i, WellMade (cfgs i))
    (E : Env C ((ι × Mrk.St F) ⊕ T) A) (hE : MapsBeside E cfgs other)
    (hkey : KeptColumns E M (fun o => (o.ra, o.dec, o.band, o.schedulerNote)))
    (X : Rest H C B) (hX : ∀ h v, 0 ≤ (X.overhead h v).2)
    (cfg : Sim.Cfg) (hstep : 0 ≤ cfg.stepNone) (h1 : 0 < cfg.startSize) (h2 : 0 < cfg.appendSize) (n : ℕ)
    (w : World (Core C ((ι × Mrk.St F) ⊕ T) A × H) K)
    (hc : w.sched.1.conditions = none) (hq : w.sched.1.qm.desired = [])
    (see : C → Feas.Cond) (hnow : ∀ st, (see (conds st)).night = ⌊st.mjd - S.mjdStart⌋)
    (pattern : List Bool) (hpat : ∀ i f c, ∃ b ∈ (cfgs i).basis f c, some b.1.feasible = Feas.nightModulo pattern (see c))
    (longest over : ℚ) (hover0 : 0 ≤ over) (hlong : ∀ k o t, ∀ s ∈ (M.observe k o t).2.1, (s + (M.observe k o t).2.2) / 24 / 3600 ≤ longest)
    (hover : ∀ h v, (X.overhead h v).2 / 86400 ≤ over)
    (hday : ChangesByDay S S.mjdStart (over + cfg.stepNone / 60 / 24 + longest)) (hlong0 : 0 ≤ longest)
    (hraised : (Sim.run (V := Obs.Visit Obs) (env S M fuel conds mount (coreSched E X)) cfg n w).st.w.raised = false) :
    ∃ vs : List (Obs.Visit Obs), (Sim.run (V := Obs.Visit Obs) (env S M fuel conds mount (coreSched E X)) cfg n w).st.result = vs.map some
      ∧ ∀ v ∈ vs, (∃ i, (cfgs i).note = v.target.schedulerNote) →
        ∃ (j : ℕ) (turns : ℤ), v.night = j + turns * pattern.length ∧ pattern[j]? = some true := by
  obtain ⟨vs, hr, hv⟩ := C223_nights S M fuel conds mount cfgs other hn hd hM hw E hE hkey X hX cfg hstep h1 h2 n w hc hq see S.mjdStart hnow
    (fun _ k => pattern[(k % (pattern.length : ℤ)).toNat]? = some true) (by
    intro i f c h
    obtain ⟨b, hb, e⟩ := hpat i f c
    refine ⟨b, hb, ?_⟩
    have e : some b.1.feasible = pattern[((see c).night % (pattern.length : ℤ)).toNat]? := e
    rw [← e] at h
    simpa using h) longest over hover0 hlong hover hday hlong0 hraised
  refine ⟨vs, hr, fun v hvm hi => ?_⟩
  obtain ⟨i, -, -, h⟩ := hv v hvm hi
  have h := h rfl
  have hpos : (pattern.length : ℤ) ≠ 0 := by
    intro h0
    have : pattern = [] := List.length_eq_zero_iff.1 (by exact_mod_cast h0)
    subst this
    cases h
  refine ⟨_, v.night / pattern.length, ?_, h⟩
  rw [Int.toNat_of_nonneg (Int.emod_nonneg _ hpos)]
  have := Int.emod_add_mul_ediv v.night pattern.length
  linarith

end

/-! ### Examples -/

/-- What the scheduler knows when it counts the nights from `start`. -/
def counted (start : ℚ) (c : ToyC) : Feas.Cond :=
  { mjd := c.mjd, night := ⌊c.mjd - start⌋, mounted := [], sunAlt := 0, moonAlt := 0, moonrise := 0, moonset := 0, n12setting := 0,
    n18setting := 0, n18rising := 0, n12rising := 0, lmst := 0, scheduled := [], bulkCloud := 0 }

/-- A greedy survey of three fields for every other night. -/
def everyOther (start : ℚ) (_ : Unit) : Mrk.Cfg ToyC Unit :=
  { darkCfg () with basis := fun _ c => [(⟨(Feas.nightModulo [true, false] (counted start c)).getD false, .map [.fin 1, .fin 2, .fin 1]⟩, 1)] }

def otherEnv (start : ℚ) : Env ToyC ((Unit × Mrk.St Unit) ⊕ ToySv) Unit where
  q := toyE.q
  sv := Script.mixed (Mrk.ops (everyOther start)) twiOther
  toos := toyE.toos

/-- Notes and night numbers of the visits of a simulation whose scheduler counts from `start` and whose observatory counts from `obsStart`. -/
def otherMade (start obsStart : ℚ) : List (Option (String × ℤ)) × Bool :=
  let o := Sim.run (V := Obs.Visit Obs) (env { toySite with downs := [], mjdStart := obsStart } wholeKin 20 (fun s => ⟨s.mjd, none⟩) (fun k _ => k)
    (coreSched (otherEnv start) (nightRest 0))) { duration := 11 / 10, startSize := 2, appendSize := 2 } 60 darkStart
  (o.st.result.map fun r => r.map fun v => (v.target.schedulerNote, v.night), o.st.w.raised)

/-- Counted from a start by day, the survey observes in the first night and not in the second. -/
example : (otherMade (-1 / 4) (-1 / 4)).1 = List.replicate 20 (some ("dark", 0)) ++ List.replicate 4 (some ("", 1)) ∧ (otherMade (-1 / 4) (-1 / 4)).2 = false := by
  decide +kernel

/-- C223 needs a start by day: if the number changes in the night, then the survey for the nights with even numbers makes the rest of its visits in a night with an
odd number. -/
theorem C223_start_by_night : (otherMade (-3 / 4) (-3 / 4)).1[11]? = some (some ("dark", 1)) ∧ (otherMade (-3 / 4) (-3 / 4)).2 = false
    ∧ Feas.nightModulo [true, false] (counted 0 ⟨1, none⟩) = some false := by
  decide +kernel

/-- The scheduler and the observatory count the nights each from a start of its own: if they differ, all visits of the survey for the nights with even numbers
have odd numbers. -/
theorem C223_two_starts : (otherMade (-1 / 4) (-5 / 4)).1.take 20 = List.replicate 20 (some ("dark", 1)) ∧ (otherMade (-1 / 4) (-5 / 4)).2 = false := by
  decide +kernel

/-- The assumptions of C223 are met by this simulation. -/
example : (∀ i, WellMade (everyOther (-1 / 4) i)) ∧ MapsBeside (otherEnv (-1 / 4)) (everyOther (-1 / 4)) twiOther
    ∧ KeptColumns (otherEnv (-1 / 4)) wholeKin (fun o => (o.ra, o.dec, o.band, o.schedulerNote))
    ∧ (∀ st : Obs.St ℚ, (counted (-1 / 4) ⟨st.mjd, none⟩).night = ⌊st.mjd - -1 / 4⌋)
    ∧ (∀ i f c, ∃ b ∈ (everyOther (-1 / 4) i).basis f c, some b.1.feasible = Feas.nightModulo [true, false] (counted (-1 / 4) c))
    ∧ ChangesByDay toySite (-1 / 4) (0 + (15 : ℚ) / 60 / 24 + 103 / 4320) := by
  refine ⟨?_, ⟨rfl, ?_⟩, ⟨fun _ _ _ => rfl, fun _ _ => rfl, fun _ _ l o ho => ⟨o, ho, rfl⟩, ?_⟩, fun _ => rfl, ?_, ?_⟩
  · intro i
    refine ⟨fun _ _ => trivial, ?_, fun _ l o ho => ⟨o, ho, rfl⟩⟩
    intro nb a grow b1 b2 visits block order flush h
    simp [everyOther, darkCfg] at h
  · intro s c g hg i
    obtain ⟨o', -, rfl⟩ := List.mem_map.1 hg
    show "dark" ≠ ""
    decide
  · intro k t o o' h
    have h : some o = some o' := h
    cases h
    rfl
  · intro i f c
    refine ⟨_, List.mem_singleton.2 rfl, ?_⟩
    have hlt : (((counted (-1 / 4) c).night % 2).toNat) < 2 := by omega
    have : ∃ b, Feas.nightModulo [true, false] (counted (-1 / 4) c) = some b := by
      unfold Feas.nightModulo
      exact ⟨_, List.getElem?_eq_getElem (by simpa using hlt)⟩
    obtain ⟨b, hb⟩ := this
    rw [hb]
    rfl
  · intro k a ha
    have hk : a = (0, 1 / 2) ∨ a = (1, 3 / 2) ∨ a = (2, 5 / 2) := by simpa [toySite] using ha
    have step : ∀ m : ℤ, k ≤ m ∨ m + 1 ≤ k := fun m => by omega
    have up : ∀ m : ℤ, m + 1 ≤ k → (m : ℚ) + 1 ≤ k := fun m h => by exact_mod_cast h
    have down : ∀ m : ℤ, k ≤ m → (k : ℚ) ≤ m := fun m h => by exact_mod_cast h
    rcases hk with rfl | rfl | rfl
    · rcases step 0 with h | h
      · have : (k : ℚ) ≤ 0 := by exact_mod_cast h
        right; norm_num; linarith
      · have := up 0 h; left; norm_num at this ⊢; linarith
    · rcases step 1 with h | h
      · have := down 1 h; right; norm_num at this ⊢; linarith
      · have := up 1 h; left; norm_num at this ⊢; linarith
    · rcases step 2 with h | h
      · have := down 2 h; right; norm_num at this ⊢; linarith
      · have := up 2 h; left; norm_num at this ⊢; linarith

end Verif
