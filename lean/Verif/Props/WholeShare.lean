import Verif.Lemmas.Quota
import Verif.Props.WholeField
import Verif.Props.FeasibleHistory

/-!
Property C242: what a limit on the share of the visits (`FractionOfObsBasisFunction`) comes to in a simulation.
-/

namespace Verif

open Sim Whole Rew Fld Feat Feas

variable {C F ι T A K H B : Type}

/-- The visits heard of, as the features of the survey count them: each adds one row with its note. -/
structure CountsVisits (cfgs : ι → Fsm.Cfg C F) (seen : F → List Vis) : Prop where
  hear : ∀ i f o, ∃ v : Vis, v.note = o.schedulerNote ∧ seen ((cfgs i).hear f o) = seen f ++ [v]

/-- Field and deep drilling surveys that use the note `n` are limited to the share `frac` of the visits, have sequences of at most `L` visits and detailers that
add none. Other surveys do not use the note. -/
structure Shared (E : Env C ((ι × F) ⊕ T) A) (cfgs : ι → Fsm.Cfg C F) (other : SurveyOps C T) (seen : F → List Vis) (n : String) (frac : ℚ) (L : ℕ) : Prop where
  sv : E.sv = Script.mixed (Fsm.ops cfgs) other
  others : ∀ s c, ∀ g ∈ (other.gen s c).1, isIn n g.schedulerNote = false
  limited : ∀ i, (∃ x ∈ (cfgs i).items, isIn n x.note = true) → ∀ f c, ∃ b ∈ (cfgs i).basis f c, b.1.feasible = fractionOfObs frac (some n) (seen f)
  size : ∀ i, (∃ x ∈ (cfgs i).items, isIn n x.note = true) → (cfgs i).items.length ≤ L
  details : ∀ i c l, ((cfgs i).detail c l).length ≤ l.length
  notes : ∀ i c l, ∀ o ∈ (cfgs i).detail c l, ∃ o' ∈ l, o'.schedulerNote = o.schedulerNote

theorem available_length (m : List String) (t : ℚ) (l : List Item) : (available m t l).length ≤ l.length := by
  unfold available
  exact (List.length_filter_le _ _).trans (by rw [List.length_map])

theorem currentFirst_length (b : String) (l : List Item) : (currentFirst b l).length = l.length := by
  unfold currentFirst
  rw [List.length_append]
  induction l with
  | nil => rfl
  | cons x l ih =>
    simp only [List.filter_cons]
    by_cases hx : x.band = b
    · simp only [hx, decide_true, if_true, ne_eq, not_true, decide_false, Bool.false_eq_true, if_false, List.length_cons] at ih ⊢
      omega
    · simp only [hx, decide_false, Bool.false_eq_true, if_false, ne_eq, not_false_eq_true, decide_true, if_true, List.length_cons] at ih ⊢
      omega

theorem field_rough_length (cfg : Fsm.Cfg C F) (f : F) (c : C) : (Fsm.rough cfg f c).length ≤ cfg.items.length := by
  unfold Fsm.rough ddfRough fieldRough
  split_ifs
  · rw [currentFirst_length]; exact available_length _ _ _
  · exact Nat.zero_le _
  · exact available_length _ _ _
  · exact Nat.zero_le _

theorem field_gen_length {cfg : Fsm.Cfg C F} (h : ∀ c l, (cfg.detail c l).length ≤ l.length) (f : F) (c : C) : (Fsm.gen cfg f c).length ≤ cfg.items.length := by
  unfold Fsm.gen
  split_ifs
  · exact Nat.zero_le _
  · exact (h _ _).trans (by rw [List.length_map]; exact field_rough_length _ _ _)

/-- Marked visits come from a feasible survey with a marked visit in its sequence. -/
theorem field_gen_marked {cfg : Fsm.Cfg C F} {n : String} (hn : ∀ c l, ∀ o ∈ cfg.detail c l, ∃ o' ∈ l, o'.schedulerNote = o.schedulerNote) {f : F} {c : C} {o : Obs}
    (h : o ∈ Fsm.gen cfg f c) (hm : isIn n o.schedulerNote = true) :
    (∀ b ∈ cfg.basis f c, b.1.feasible = true) ∧ ∃ x ∈ cfg.items, isIn n x.note = true := by
  unfold Fsm.gen at h
  split_ifs at h with h0
  · cases h
  · obtain ⟨o', ho', e⟩ := hn _ _ o h
    obtain ⟨y, hy, rfl⟩ := List.mem_map.1 ho'
    obtain ⟨a, -, -, x, hx, e1⟩ := field_rough_mem hy
    refine ⟨baseFeasible_all a, x, hx, ?_⟩
    have e2 : y.note = x.note := by rw [e1]
    rw [← e2]
    have e3 : y.note = o.schedulerNote := e
    rw [e3]
    exact hm

/-- The limit as a quota. -/
def shareQuota {E : Env C ((ι × F) ⊕ T) A} {cfgs : ι → Fsm.Cfg C F} {other : SurveyOps C T} {seen : F → List Vis} {n : String} {frac : ℚ} {L : ℕ}
    (hE : Shared E cfgs other seen n frac L) (hs : CountsVisits cfgs seen) : Quota E (isIn n) (fun b => frac * b) L where
  Heard a b s := ∀ i f, s = Sum.inl (i, f) → (seen f).length = b ∧ (seen f).countP (fun v => isIn n v.note) = a
  reward := by
    intro a b s c h
    rw [hE.sv]
    rcases s with ⟨i, f⟩ | s
    · exact h
    · rintro i f ⟨⟩
  gen := by
    intro a b s c h
    rw [hE.sv]
    rcases s with ⟨i, f⟩ | s
    · exact h
    · rintro i f ⟨⟩
  update := by
    intro a b s c h
    rw [hE.sv]
    rcases s with ⟨i, f⟩ | s
    · exact h
    · rintro i f ⟨⟩
  hear := by
    intro a b s o h
    rw [hE.sv]
    rcases s with ⟨i, f⟩ | s
    · intro i' f' he
      have he : Sum.inl (i, (cfgs i).hear f o) = (Sum.inl (i', f') : (ι × F) ⊕ T) := he
      simp only [Sum.inl.injEq, Prod.mk.injEq] at he
      obtain ⟨rfl, rfl⟩ := he
      obtain ⟨h1, h2⟩ := h i f rfl
      obtain ⟨v, hv, e⟩ := hs.hear i f o
      rw [e, List.length_append, List.countP_append, List.countP_singleton, h1, h2, hv]
      exact ⟨rfl, rfl⟩
    · rintro i f ⟨⟩
  limit := by
    intro a b s c h
    rw [hE.sv]
    rcases s with ⟨i, f⟩ | s
    · by_cases h0 : markedIn (isIn n) (Fsm.gen (cfgs i) f c) = 0
      · exact .inl h0
      · right
        obtain ⟨o, ho, hm⟩ := List.countP_pos_iff.1 (Nat.pos_of_ne_zero h0)
        obtain ⟨hf, hx⟩ := field_gen_marked (hE.notes i) ho hm
        refine ⟨?_, ?_⟩
        · show markedIn (isIn n) (Fsm.gen (cfgs i) f c) ≤ L
          exact List.countP_le_length.trans ((field_gen_length (hE.details i) f c).trans (hE.size i hx))
        · obtain ⟨bb, hb, e⟩ := hE.limited i hx f c
          have hfe := hf bb hb
          rw [e, C55_fraction] at hfe
          obtain ⟨h1, h2⟩ := h i f rfl
          have e3 : (fun v : Vis => decide (Marked (some n) v)) = fun v => isIn n v.note := by
            funext v
            simp [Marked]
          rw [e3, h2, h1] at hfe
          rcases hfe with h3 | h3
          · rw [h3] at h1 h2
            have h1 : 0 = b := h1
            have h2 : 0 = a := h2
            subst h1 h2
            simp
          · exact h3
    · left
      show markedIn (isIn n) (other.gen s c).1 = 0
      unfold markedIn
      rw [List.countP_eq_zero]
      intro g hg hm
      rw [hE.others s c g hg] at hm
      cases hm

/-- C242: when surveys that use a note are limited to a share of the visits, then at every time of a simulation the visits made with that note, with those heard
of before, are at most that share of all visits and the visits of one sequence. The limit alone is not kept (`C242_share_violated`). -/
theorem C242_share_partial (S : Obs.Site) (hn : Obs.Nights S.nights) (hd : Down.Ordered S.downs) (M : Obs.Kin K Obs) (hM : Obs.NonNeg M) (hK : KeepsNote M)
    (fuel : ℕ) (conds : Obs.St K → C) (mount : K → B → K) (cfgs : ι → Fsm.Cfg C F) (other : SurveyOps C T) (seen : F → List Vis) (hs : CountsVisits cfgs seen)
    (n : String) (frac : ℚ) (hfrac : 0 ≤ frac) (L : ℕ) (E : Env C ((ι × F) ⊕ T) A) (hE : Shared E cfgs other seen n frac L) (hdet : DetKeepsNotes E.q)
    (X : Rest H C B) (hX : ∀ h v, 0 ≤ (X.overhead h v).2) (cfg : Sim.Cfg) (hstep : 0 ≤ cfg.stepNone) (h1 : 0 < cfg.startSize) (h2 : 0 < cfg.appendSize)
    (m : ℕ) (w : World (Core C ((ι × F) ⊕ T) A × H) K) (hq : w.sched.1.qm.desired = []) (hneed : w.sched.1.qm.need = [])
    (past : List Vis) (hpast : ∀ tier ∈ w.sched.1.tiers, ∀ i f, .inl (i, f) ∈ tier → seen f = past)
    (h0 : ((past.countP (fun v => isIn n v.note) : ℕ) : ℚ) ≤ frac * (past.length : ℚ) + (L : ℚ)) :
    ∃ vs : List (Obs.Visit Obs), (Sim.run (V := Obs.Visit Obs) (env S M fuel conds mount (coreSched E X)) cfg m w).st.result = vs.map some
      ∧ ∀ k ≤ vs.length, ((past.countP (fun v => isIn n v.note) : ℕ) : ℚ) + ((vs.take k).countP (fun v => isIn n v.target.schedulerNote) : ℕ) ≤ frac * ((past.length : ℚ) + (k : ℚ)) + (L : ℚ) := by
  have hmono : Monotone fun b : ℕ => frac * (b : ℚ) := by
    intro a b hab
    have : (a : ℚ) ≤ b := by exact_mod_cast hab
    exact mul_le_mul_of_nonneg_left this hfrac
  have hold : ∀ tier ∈ w.sched.1.tiers, ∀ s ∈ tier, (shareQuota hE hs).Heard (past.countP fun v => isIn n v.note) past.length s := by
    intro tier ht s hsm i f e
    rw [e] at hsm
    have := hpast tier ht i f hsm
    exact ⟨congrArg List.length this, congrArg (List.countP fun v : Vis => isIn n v.note) this⟩
  have key := quota_kept S hn hd M hM hK fuel conds mount (shareQuota hE hs) hmono hdet X hX cfg hstep h1 h2 m w hq hneed
    (past.countP fun v => isIn n v.note) past.length
  obtain ⟨vs, hr, hv⟩ := key h0 hold
  refine ⟨vs, hr, fun k hk => ?_⟩
  have := hv k hk
  clear hv hr
  unfold markedMade at this
  rw [Nat.cast_add, Nat.cast_add] at this
  exact this

/-! ### Examples -/

/-- The row that the features get. -/
def heardRow (o : Obs) : Vis := ⟨0, 0, 0, o.band, o.schedulerNote, "", none, 0, o.ra, o.dec, []⟩

/-- A deep drilling survey of one field, two visits in r and one in g, limited to a fifth of the visits. -/
def shareCfg (_ : Unit) : Fsm.Cfg ToyC (List Vis) where
  basis f _ := [(⟨fractionOfObs (1 / 5) (some "DD:") f, .scalar (.fin 0)⟩, 1)]
  kind _ := .deep (some (.fin 5)) 0 0
  deep := true
  items := ddfSorted (ddfItems 1 (-1 / 2) "DD:a" 30 40 1 [2, 1] ["r", "g"])
  read := 2
  change := 120
  pad := 100
  mjd c := c.mjd
  mounted _ := ["g", "r", "i"]
  current _ := "r"
  hear f o := f ++ [heardRow o]
  hearAll f l := f ++ l.map heardRow
  detail _ l := l

def shareEnv : Env ToyC ((Unit × List Vis) ⊕ ToySv) Unit where
  q := toyE.q
  sv := Script.mixed (Fsm.ops shareCfg) twiOther
  toos := toyE.toos

def shareStart : World (Core ToyC ((Unit × List Vis) ⊕ ToySv) Unit × Unit) ℚ :=
  ⟨⟨0, 0, 40⟩, (Core.init () [[.inl ((), [])], [.inr ⟨[.fin 1], [{ targetId := 0, band := "y" }], none⟩]] 5 true [], ()), false⟩

/-- Notes of the visits of the simulation. -/
def shareMade : List (Option String) :=
  (Sim.run (V := Obs.Visit Obs) (env { toySite with downs := [] } wholeKin 20 (fun s => ⟨s.mjd, none⟩) (fun k _ => k) (coreSched shareEnv (nightRest 0)))
    { duration := 11 / 10, startSize := 2, appendSize := 2 } 40 shareStart).st.result.map fun r => r.map fun v => v.target.schedulerNote

/-- The share alone is not kept: limited to a fifth of the visits, the survey has made three of the first three visits, and six of the first 18. -/
theorem C242_share_violated : (shareMade.take 3).countP (fun r => (r.map (isIn "DD:")).getD false) = 3
    ∧ (shareMade.take 18).countP (fun r => (r.map (isIn "DD:")).getD false) = 6 ∧ ¬ (6 : ℚ) ≤ 1 / 5 * 18 := by
  decide +kernel

/-- Between its sequences the survey waits until its visits are a fifth of all. -/
example : (shareMade.drop 3).take 13 = List.replicate 12 (some "") ++ [some "DD:a"] := by decide +kernel

/-- The assumptions of C242 are met by this simulation. -/
example : CountsVisits shareCfg id ∧ Shared shareEnv shareCfg twiOther id "DD:" (1 / 5) 3 ∧ DetKeepsNotes shareEnv.q
    ∧ (∀ tier ∈ shareStart.sched.1.tiers, ∀ i f, Sum.inl (i, f) ∈ tier → id f = [])
    ∧ shareStart.sched.1.qm.desired = [] ∧ shareStart.sched.1.qm.need = [] := by
  refine ⟨⟨fun i f o => ⟨heardRow o, rfl, rfl⟩⟩, ⟨rfl, ?_, fun i _ f c => ⟨_, List.mem_singleton.2 rfl, rfl⟩, fun _ _ => (by decide +kernel : (shareCfg ()).items.length ≤ 3), fun i c l => le_refl _,
    fun i c l o ho => ⟨o, ho, rfl⟩⟩, ?_, ?_, rfl, rfl⟩
  · intro s c g hg
    obtain ⟨o', -, rfl⟩ := List.mem_map.1 hg
    show isIn "DD:" "" = false
    decide +kernel
  · exact ⟨fun _ _ l o ho => ⟨o, ho, rfl, rfl⟩, fun _ _ l h => h⟩
  · intro tier ht i f hf
    have ht : tier ∈ [[Sum.inl ((), [])], [Sum.inr (⟨[.fin 1], [{ targetId := 0, band := "y" }], none⟩ : ToySv)]] := ht
    simp only [List.mem_cons, List.not_mem_nil, or_false] at ht
    rcases ht with rfl | rfl
    · cases List.mem_singleton.1 hf
      rfl
    · cases List.mem_singleton.1 hf

end Verif
