import Verif.Props.WholeLimits
import Verif.Props.Field
import Verif.Model.FieldSim

/-!
Property C241: what a simulation makes of the sequences of field and deep drilling surveys.
-/

namespace Verif

open Sim Whole Rew Fld

variable {C F ι T A K H B : Type}

/-- When the visits of a sequence expire that is asked for at `mjd`: when it should be done and the padding is over. For a field survey the estimate enters 576
times too large (`C100_field_flush_violated`). -/
def sequenceExpiry (cfg : Fsm.Cfg C F) (mjd : ℚ) : ℚ :=
  mjd + daysOf ((if cfg.deep then 1 else 576) * sequenceSeconds cfg.read cfg.change cfg.items + 60 * cfg.pad)

/-- Detailers that keep band, expiry and note, and move a visit only as `Near` allows. -/
def Moves (Near : ℚ × ℚ → ℚ × ℚ → Prop) (cfg : Fsm.Cfg C F) : Prop :=
  ∀ c l, ∀ o ∈ cfg.detail c l, ∃ o' ∈ l, o'.band = o.band ∧ o'.flushBy = o.flushBy ∧ o'.schedulerNote = o.schedulerNote ∧ Near (o'.ra, o'.dec) (o.ra, o.dec)

/-- A visit of the sequence, in a band that is mounted. -/
theorem field_rough_mem {cfg : Fsm.Cfg C F} {f : F} {c : C} {y : Item} (h : y ∈ Fsm.rough cfg f c) :
    baseFeasible (cfg.basis f c) = true ∧ y.band ∈ cfg.mounted c ∧ y.flush = sequenceExpiry cfg (cfg.mjd c)
      ∧ ∃ x ∈ cfg.items, y = { x with flush := y.flush } := by
  have hav : ∀ t : ℚ, y ∈ available (cfg.mounted c) t cfg.items → y.band ∈ cfg.mounted c ∧ ∃ x ∈ cfg.items, y = { x with flush := y.flush } := by
    intro t hy
    refine ⟨((available_spec _ _ _).1 y hy).1, ?_⟩
    unfold available at hy
    obtain ⟨x, hx, rfl⟩ := List.mem_map.1 (List.mem_filter.1 hy).1
    exact ⟨x, hx, rfl⟩
  unfold Fsm.rough at h
  unfold sequenceExpiry
  by_cases hd : cfg.deep = true
  · rw [if_pos hd] at h ⊢
    have hfl := C100_ddf_flush _ _ _ _ _ _ _ _ y h
    rw [one_mul]
    unfold ddfRough at h
    by_cases hf : baseFeasible (cfg.basis f c) = true
    · rw [if_pos hf] at h
      unfold currentFirst at h
      have h := (List.mem_append.1 h).elim (fun h => (List.mem_filter.1 h).1) (fun h => (List.mem_filter.1 h).1)
      exact ⟨hf, (hav _ h).1, hfl, (hav _ h).2⟩
    · rw [if_neg hf] at h
      cases h
  · rw [if_neg hd] at h ⊢
    have hfl := C100_field_flush_partial _ _ _ _ _ _ _ y h
    unfold fieldRough at h
    by_cases hf : baseFeasible (cfg.basis f c) = true
    · rw [if_pos hf] at h
      exact ⟨hf, (hav _ h).1, hfl, (hav _ h).2⟩
    · rw [if_neg hf] at h
      cases h

theorem baseFeasible_all {bs : List (Basis × ℚ)} (h : baseFeasible bs = true) : ∀ b ∈ bs, b.1.feasible = true := by
  induction bs with
  | nil => rintro b ⟨⟩
  | cons x bs ih =>
    unfold baseFeasible checkLoop at h
    intro b hb
    by_cases hx : x.1.feasible = true
    · rw [if_pos hx] at h
      rcases List.mem_cons.1 hb with rfl | hb
      · exact hx
      · exact ih h b hb
    · rw [if_neg hx] at h
      cases h

/-- A visit that a survey generates. -/
theorem field_gen_mem {Near : ℚ × ℚ → ℚ × ℚ → Prop} {cfg : Fsm.Cfg C F} (hm : Moves Near cfg) {f : F} {c : C} {o : Obs} (h : o ∈ Fsm.gen cfg f c) :
    (∀ b ∈ cfg.basis f c, b.1.feasible = true) ∧ o.band ∈ cfg.mounted c ∧ o.flushBy = sequenceExpiry cfg (cfg.mjd c)
      ∧ ∃ x ∈ cfg.items, x.band = o.band ∧ x.note = o.schedulerNote ∧ Near (x.ra, x.dec) (o.ra, o.dec) := by
  unfold Fsm.gen at h
  split_ifs at h
  · cases h
  · obtain ⟨o', ho', e1, e2, e3, e4⟩ := hm _ _ o h
    obtain ⟨y, hy, rfl⟩ := List.mem_map.1 ho'
    obtain ⟨a, b, d, x, hx, e⟩ := field_rough_mem hy
    have hb : y.band = x.band := by rw [e]
    have hn : y.note = x.note := by rw [e]
    have hra : y.ra = x.ra := by rw [e]
    have hdec : y.dec = x.dec := by rw [e]
    refine ⟨baseFeasible_all a, e1 ▸ b, e2.symm.trans d, x, hx, hb.symm.trans e1, hn.symm.trans e3, ?_⟩
    rw [← hra, ← hdec]
    exact e4

/-- Field and deep drilling surveys beside others that use none of their notes. -/
structure FieldsBeside (E : Env C ((ι × F) ⊕ T) A) (cfgs : ι → Fsm.Cfg C F) (other : SurveyOps C T) : Prop where
  sv : E.sv = Script.mixed (Fsm.ops cfgs) other
  notes : ∀ s c, ∀ g ∈ (other.gen s c).1, ∀ i, ∀ x ∈ (cfgs i).items, x.note ≠ g.schedulerNote

/-- C241: every visit that a simulation returns with a note of a field or deep drilling survey is a visit of the sequence of a survey with that note: it is in
the band of that visit, at its place but for what the detailers do, and it expires when the sequence should be done. It was asked for in the night in which it
was made, when that band was mounted and the survey was feasible. Missing: the survey may have become infeasible since (`C241_later_violated`). -/
theorem C241_visits_partial (S : Obs.Site) (M : Obs.Kin K Obs) (fuel : ℕ) (conds : Obs.St K → C) (mount : K → B → K) (cfgs : ι → Fsm.Cfg C F) (other : SurveyOps C T)
    (hn : Obs.Nights S.nights) (hd : Down.Ordered S.downs) (hM : Obs.NonNeg M) (Near : ℚ × ℚ → ℚ × ℚ → Prop) (hmoves : ∀ i, Moves Near (cfgs i))
    (E : Env C ((ι × F) ⊕ T) A) (hE : FieldsBeside E cfgs other)
    (hkey : KeptColumns E M (fun o => (o.ra, o.dec, o.band, o.flushBy, o.schedulerNote)))
    (X : Rest H C B) (hX : ∀ h v, 0 ≤ (X.overhead h v).2)
    (cfg : Sim.Cfg) (hstep : 0 ≤ cfg.stepNone) (h1 : 0 < cfg.startSize) (h2 : 0 < cfg.appendSize) (n : ℕ)
    (w : World (Core C ((ι × F) ⊕ T) A × H) K)
    (hc : w.sched.1.conditions = none) (hq : w.sched.1.qm.desired = [])
    (hnow : ∀ i st, (cfgs i).mjd (conds st) = st.mjd)
    (Closed : ι → C → Prop) (hclosed : ∀ i f c, Closed i c → ∃ b ∈ (cfgs i).basis f c, b.1.feasible = false)
    (longest over : ℚ) (hover0 : 0 ≤ over) (hlong : ∀ k o t, ∀ s ∈ (M.observe k o t).2.1, (s + (M.observe k o t).2.2) / 24 / 3600 ≤ longest)
    (hover : ∀ h v, (X.overhead h v).2 / 86400 ≤ over)
    (hday : ∀ a ∈ S.nights, ∀ b ∈ S.nights, a.2 < b.1 → a.2 + (over + cfg.stepNone / 60 / 24 + longest) < b.1)
    (hraised : (Sim.run (V := Obs.Visit Obs) (env S M fuel conds mount (coreSched E X)) cfg n w).st.w.raised = false) :
    ∃ vs : List (Obs.Visit Obs), (Sim.run (V := Obs.Visit Obs) (env S M fuel conds mount (coreSched E X)) cfg n w).st.result = vs.map some
      ∧ ∀ v ∈ vs, (∃ i, ∃ x ∈ (cfgs i).items, x.note = v.target.schedulerNote) → ∃ st : Obs.St K, st.mjd ≤ v.mjd - v.slewtime / 24 / 3600
        ∧ .update st.mjd (conds st) ∈ (Sim.run (V := Obs.Visit Obs) (env S M fuel conds mount (coreSched E X)).recorded cfg n (w, [])).st.w.2
        ∧ (∀ a ∈ S.nights, a.2 < v.mjd + v.visittime / 24 / 3600 → a.2 < st.mjd)
        ∧ ∃ i, ∃ x ∈ (cfgs i).items, x.note = v.target.schedulerNote ∧ x.band = v.target.band ∧ Near (x.ra, x.dec) (v.target.ra, v.target.dec)
          ∧ x.band ∈ (cfgs i).mounted (conds st) ∧ ¬ Closed i (conds st) ∧ v.target.flushBy = sequenceExpiry (cfgs i) st.mjd := by
  obtain ⟨vs, hr, hv⟩ := asked_before_bar (fun x => ∃ a ∈ S.nights, a.2 = x) S hn hd M hM fuel conds mount E _ hkey X hX cfg hstep h1 h2 n w hc hq
    (fun c k => (∃ i, ∃ x ∈ (cfgs i).items, x.note = k.2.2.2.2) → ∃ i, ∃ x ∈ (cfgs i).items, x.note = k.2.2.2.2 ∧ x.band = k.2.2.1 ∧ Near (x.ra, x.dec) (k.1, k.2.1)
      ∧ x.band ∈ (cfgs i).mounted c ∧ ¬ Closed i c ∧ k.2.2.2.1 = sequenceExpiry (cfgs i) ((cfgs i).mjd c))
    (by
      intro sv c r _ _ g hg hi
      rw [hE.sv] at hg
      rcases sv with ⟨i, s⟩ | s
      · obtain ⟨hfe, hb, hfl, x, hx, e1, e2, e3⟩ := field_gen_mem (hmoves i) hg
        refine ⟨i, x, hx, e2, e1, e3, e1 ▸ hb, ?_, hfl⟩
        intro hcl
        obtain ⟨b, hbm, hbn⟩ := hclosed i _ c hcl
        have := hfe b hbm
        rw [hbn] at this
        cases this
      · obtain ⟨i, x, hx, hi⟩ := hi
        exact absurd hi (hE.notes _ c g hg i x hx)) longest over hover0 hlong hover (night_end_bar hn hday) hraised
  refine ⟨vs, hr, fun v hvm hi => ?_⟩
  obtain ⟨st, a, b, hrule, hbar⟩ := hv v hvm
  obtain ⟨i, x, hx, e1, e2, e3, e4, e5, e6⟩ := hrule hi
  rw [hnow] at e6
  exact ⟨st, a, b, fun a ha => hbar _ ⟨a, ha, rfl⟩, i, x, hx, e1, e2, e3, e4, e5, e6⟩

/-! ### Examples -/

/-- A deep drilling survey of one field, two visits in r and one each in g and u, that keeps out of twilight. The u band is not mounted. -/
def deepCfg (_ : Unit) : Fsm.Cfg ToyC Unit where
  basis _ c := [(⟨(Feas.notTwilight 12 (twilights c)).getD false, .scalar (.fin 0)⟩, 1)]
  kind _ := .deep (some (.fin 5)) 0 0
  deep := true
  items := ddfSorted (ddfItems 1 (-1 / 2) "DD:a" 30 40 1 [2, 1, 1] ["r", "g", "u"])
  read := 2
  change := 120
  pad := 100
  mjd c := c.mjd
  mounted _ := ["g", "r", "i"]
  current _ := "r"
  hear f _ := f
  hearAll f _ := f
  detail _ l := l

def deepEnv : Env ToyC ((Unit × Unit) ⊕ ToySv) Unit where
  q := toyE.q
  sv := Script.mixed (Fsm.ops deepCfg) twiOther
  toos := toyE.toos

def deepStart : World (Core ToyC ((Unit × Unit) ⊕ ToySv) Unit × Unit) ℚ :=
  ⟨⟨0, 0, 40⟩, (Core.init () [[.inl ((), ())], [.inr ⟨[.fin 1], [{ targetId := 0, band := "y" }], none⟩]] 5 true [], ()), false⟩

/-- Notes and bands of the visits of the simulation, with the times when the telescope set out for them and those of their expiry. -/
def deepMade : List (Option (String × String × ℚ × ℚ)) × Bool :=
  let o := Sim.run (V := Obs.Visit Obs) (env { toySite with downs := [] } wholeKin 20 (fun s => ⟨s.mjd, none⟩) (fun k _ => k) (coreSched deepEnv (nightRest 0)))
    { duration := 11 / 10, startSize := 2, appendSize := 2 } 60 deepStart
  (o.st.result.map fun r => r.map fun v => (v.target.schedulerNote, v.target.band, slewStart v, v.target.flushBy), o.st.w.raised)

/-- C241 is violated at the time of a visit: the morning twilight begins at 9/20, and the survey that keeps out of twilight begins a visit of its sequence at
1957/4320. -/
theorem C241_later_violated : deepMade.1[19]? = some (some ("DD:a", "r", 1957 / 4320, 807 / 1600)) ∧ deepMade.2 = false
    ∧ Feas.notTwilight 12 (twilights ⟨1957 / 4320, none⟩) = some false ∧ Feas.rising (twilights ⟨1957 / 4320, none⟩) 12 = some (9 / 20) := by
  decide +kernel

/-- After the evening twilight the sequence is made, first in the current band; the visits expire after 498 seconds and 100 minutes. -/
example : (deepMade.1.take 7).drop 2 = [some ("", "y", 103 / 2160, 0), some ("DD:a", "r", 103 / 1440, 103 / 1440 + (498 + 6000) / 86400),
    some ("DD:a", "r", 103 / 1080, 103 / 1440 + (498 + 6000) / 86400), some ("DD:a", "g", 103 / 864, 103 / 1440 + (498 + 6000) / 86400),
    some ("DD:a", "r", 103 / 720, 103 / 720 + (498 + 6000) / 86400)] := by
  decide +kernel

/-- The assumptions of C241 are met by this simulation. -/
example : (∀ i, Moves Eq (deepCfg i)) ∧ FieldsBeside deepEnv deepCfg twiOther
    ∧ KeptColumns deepEnv wholeKin (fun o => (o.ra, o.dec, o.band, o.flushBy, o.schedulerNote))
    ∧ (∀ i (st : Obs.St ℚ), (deepCfg i).mjd (⟨st.mjd, none⟩ : ToyC) = st.mjd)
    ∧ (∀ i f c, Feas.notTwilight 12 (twilights c) ≠ some true → ∃ b ∈ (deepCfg i).basis f c, b.1.feasible = false)
    ∧ deepStart.sched.1.conditions = none ∧ deepStart.sched.1.qm.desired = [] := by
  refine ⟨fun i c l o ho => ⟨o, ho, rfl, rfl, rfl, rfl⟩, ⟨rfl, ?_⟩, ⟨fun _ _ _ => rfl, fun _ _ => rfl, fun _ _ l o ho => ⟨o, ho, rfl⟩, ?_⟩, fun _ _ => rfl, ?_, rfl, rfl⟩
  · intro s c g hg i x hx
    obtain ⟨o', -, rfl⟩ := List.mem_map.1 hg
    have : ∀ x ∈ (deepCfg ()).items, x.note = "DD:a" := by decide +kernel
    rw [this x hx]
    show "DD:a" ≠ ""
    decide
  · intro k t o o' h
    have h : some o = some o' := h
    cases h
    rfl
  · intro i f c h
    refine ⟨_, List.mem_singleton.2 rfl, ?_⟩
    dsimp only
    rcases hq : Feas.notTwilight 12 (twilights c) with _ | _ | _
    · rfl
    · rfl
    · exact absurd hq h

end Verif
