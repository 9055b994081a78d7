import Verif.Lemmas.Delay
import Verif.Props.Basis
import Verif.Props.WholeShare

/-!
Property C243: what delays (`ForceDelayBasisFunction`, `SoftDelayBasisFunction`, `VisitGap`) come to in a simulation.
-/

namespace Verif

open Sim Whole Rew Fld Feat Feas

variable {C F ι T A K H B : Type}

/-- The visits heard of, as the features of the survey see them: each adds one row with its note and time. -/
structure SeesVisits (cfgs : ι → Fsm.Cfg C F) (seen : F → List Vis) : Prop where
  hear : ∀ i f o, ∃ v : Vis, v.note = o.schedulerNote ∧ v.mjd = o.mjd ∧ seen ((cfgs i).hear f o) = seen f ++ [v]

/-- The survey is held back by a delay of at least `delay` after the last visit with the note: a forced one, a soft one all of whose delays are that long, or a
gap of at least that many minutes for visits in any band. -/
def HeldBack (delay : ℚ) (n : String) (h : List Vis) (sky : Cond) : Prop :=
  forceDelay delay (some n) h sky = true
    ∨ (∃ fractions delays, (∀ d ∈ delays, delay ≤ d) ∧ softDelay fractions delays (some n) h sky = some true)
    ∨ ∃ gap, delay ≤ gap / 60 / 24 ∧ Bf.visitGap gap (Bf.visitGapLasts n none h) sky.mjd = true

/-- Field and deep drilling surveys that use the note `n` wait for `delay` days after the last visit with it, have sequences of at most `L` visits and detailers
that add none. Other surveys do not use the note. -/
structure Delayed (E : Env C ((ι × F) ⊕ T) A) (cfgs : ι → Fsm.Cfg C F) (other : SurveyOps C T) (seen : F → List Vis) (n : String) (delay : ℚ) (L : ℕ) : Prop where
  sv : E.sv = Script.mixed (Fsm.ops cfgs) other
  others : ∀ s c, ∀ g ∈ (other.gen s c).1, isIn n g.schedulerNote = false
  limited : ∀ i, (∃ x ∈ (cfgs i).items, isIn n x.note = true) → ∀ f c, ∃ b ∈ (cfgs i).basis f c, ∃ sky : Cond, sky.mjd = E.q.mjdOf c
    ∧ (b.1.feasible = true → HeldBack delay n (seen f) sky)
  size : ∀ i, (∃ x ∈ (cfgs i).items, isIn n x.note = true) → (cfgs i).items.length ≤ L
  details : ∀ i c l, ((cfgs i).detail c l).length ≤ l.length
  notes : ∀ i c l, ∀ o ∈ (cfgs i).detail c l, ∃ o' ∈ l, o'.schedulerNote = o.schedulerNote

/-- The times of the rows with the note. -/
def notedTimes (n : String) (h : List Vis) : List ℚ := (h.filter fun v => isIn n v.note).map Vis.mjd

theorem delay_feasible {delay : ℚ} {n : String} {h : List Vis} {c : Cond} (hf : forceDelay delay (some n) h c = true) :
    ∀ t ∈ (notedTimes n h).getLast?, t + delay ≤ c.mjd := by
  intro t ht
  have e3 : (fun v : Vis => decide (Marked (some n) v)) = fun v => isIn n v.note := by
    funext v
    simp [Marked]
  unfold notedTimes at ht
  rw [List.getLast?_map, ← e3] at ht
  unfold forceDelay at hf
  rw [Bool.not_eq_true', decide_eq_false_iff_not, lastMark_eq, show Option.map Vis.mjd _ = some t from ht] at hf
  have hf : ¬ c.mjd - t < delay := hf
  linarith [not_lt.1 hf]

theorem soft_feasible {fractions delays : List ℚ} {delay : ℚ} {n : String} {h : List Vis} {c : Cond} (hd : ∀ d ∈ delays, delay ≤ d)
    (hf : softDelay fractions delays (some n) h c = some true) : forceDelay delay (some n) h c = true := by
  unfold softDelay at hf
  split_ifs at hf
  obtain ⟨r, -, hr⟩ := Option.bind_eq_some_iff.1 hf
  obtain ⟨d, hd', he⟩ := Option.map_eq_some_iff.1 hr
  unfold forceDelay
  rw [Bool.not_eq_true', decide_eq_false_iff_not] at he ⊢
  exact not_lt.2 ((hd d (List.mem_of_getElem? hd')).trans (not_lt.1 he))

theorem gap_feasible {gap delay : ℚ} {n : String} {h : List Vis} {c : Cond} (hd : delay ≤ gap / 60 / 24)
    (hf : Bf.visitGap gap (Bf.visitGapLasts n none h) c.mjd = true) : ∀ t ∈ (notedTimes n h).getLast?, t + delay ≤ c.mjd := by
  have hw : ∀ v : Vis, LastObs.wanted ⟨some n, none⟩ v = isIn n v.note := by
    intro v
    simp [LastObs.wanted]
  have key : ∀ l : List Vis, l.foldl (LastObs.oneMjd ⟨some n, none⟩) none = (notedTimes n l).getLast? := by
    intro l
    induction l using List.reverseRecOn with
    | nil => rfl
    | append_singleton l v ih =>
      rw [List.foldl_append, List.foldl_cons, List.foldl_nil, ih]
      unfold notedTimes LastObs.oneMjd
      rw [List.filter_append, List.map_append, hw]
      by_cases hb : isIn n v.note = true
      · rw [if_pos hb]
        simp [hb]
      · rw [if_neg hb]
        simp [hb]
  intro t ht
  unfold Bf.visitGapLasts Bf.visitGap at hf
  dsimp only at hf
  rw [key, show (notedTimes n h).getLast? = some t from ht] at hf
  simp [Bf.minutes] at hf
  have hf : gap / 60 / 24 < c.mjd - t := of_decide_eq_true hf
  linarith

theorem held_feasible {delay : ℚ} {n : String} {h : List Vis} {c : Cond} (hf : HeldBack delay n h c) : ∀ t ∈ (notedTimes n h).getLast?, t + delay ≤ c.mjd := by
  rcases hf with hf | ⟨_, _, hd, hf⟩ | ⟨_, hd, hf⟩
  · exact delay_feasible hf
  · exact delay_feasible (soft_feasible hd hf)
  · exact gap_feasible hd hf

/-- The delay as surveys that wait. -/
def delayWaits {E : Env C ((ι × F) ⊕ T) A} {cfgs : ι → Fsm.Cfg C F} {other : SurveyOps C T} {seen : F → List Vis} {n : String} {delay : ℚ} {L : ℕ}
    (hE : Delayed E cfgs other seen n delay L) (hs : SeesVisits cfgs seen) : Waits E (isIn n) delay L where
  Heard ts s := ∀ i f, s = Sum.inl (i, f) → notedTimes n (seen f) = ts
  reward := by
    intro ts s c h
    rw [hE.sv]
    rcases s with ⟨i, f⟩ | s
    · exact h
    · rintro i f ⟨⟩
  gen := by
    intro ts s c h
    rw [hE.sv]
    rcases s with ⟨i, f⟩ | s
    · exact h
    · rintro i f ⟨⟩
  update := by
    intro ts s c h
    rw [hE.sv]
    rcases s with ⟨i, f⟩ | s
    · exact h
    · rintro i f ⟨⟩
  hear := by
    intro ts s o h
    rw [hE.sv]
    rcases s with ⟨i, f⟩ | s
    · intro i' f' he
      have he : Sum.inl (i, (cfgs i).hear f o) = (Sum.inl (i', f') : (ι × F) ⊕ T) := he
      simp only [Sum.inl.injEq, Prod.mk.injEq] at he
      obtain ⟨rfl, rfl⟩ := he
      obtain ⟨v, hv, hm, e⟩ := hs.hear i f o
      have := h i f rfl
      unfold notedTimes at this ⊢
      rw [e, List.filter_append, List.map_append, this]
      by_cases hb : isIn n o.schedulerNote = true
      · rw [if_pos hb, List.filter_cons_of_pos (by rw [hv]; exact hb), ← hm]
        rfl
      · rw [if_neg hb, List.filter_cons_of_neg (by rw [hv]; exact hb)]
        rfl
    · rintro i f ⟨⟩
  limit := by
    intro ts s c h
    rw [hE.sv]
    rcases s with ⟨i, f⟩ | s
    · by_cases h0 : markedIn (isIn n) (Fsm.gen (cfgs i) f c) = 0
      · exact .inl h0
      · right
        obtain ⟨o, ho, hm⟩ := List.countP_pos_iff.1 (Nat.pos_of_ne_zero h0)
        obtain ⟨hf, hx⟩ := field_gen_marked (hE.notes i) ho hm
        refine ⟨?_, ?_⟩
        · show markedIn (isIn n) (Fsm.gen (cfgs i) f c) ≤ L
          exact List.countP_le_length.trans ((field_gen_length (hE.details i) f c).trans (hE.size i hx))
        · obtain ⟨bb, hb, sky, hsky, e⟩ := hE.limited i hx f c
          rw [← h i f rfl, ← hsky]
          exact held_feasible (e (hf bb hb))
    · left
      show markedIn (isIn n) (other.gen s c).1 = 0
      unfold markedIn
      rw [List.countP_eq_zero]
      intro g hg hm
      rw [hE.others s c g hg] at hm
      cases hm

/-- C243: when surveys that use a note wait for a delay after the last visit with it, then among any `L + 1` visits with that note in a row, those heard of before
the simulation included, the first and the last are at least the delay apart; `L` is the length of a sequence. Within a sequence nothing waits
(`C243_within`). -/
theorem C243_delay (S : Obs.Site) (hn : Obs.Nights S.nights) (hd : Down.Ordered S.downs) (M : Obs.Kin K Obs) (hM : Obs.NonNeg M) (hK : KeepsNote M)
    (fuel : ℕ) (conds : Obs.St K → C) (mount : K → B → K) (cfgs : ι → Fsm.Cfg C F) (other : SurveyOps C T) (seen : F → List Vis) (hs : SeesVisits cfgs seen)
    (n : String) (delay : ℚ) (L : ℕ) (E : Env C ((ι × F) ⊕ T) A) (hE : Delayed E cfgs other seen n delay L) (hdet : DetKeepsNotes E.q)
    (htime : ∀ st, E.q.mjdOf (conds st) = st.mjd)
    (X : Rest H C B) (hX : ∀ h v, 0 ≤ (X.overhead h v).2) (cfg : Sim.Cfg) (hstep : 0 ≤ cfg.stepNone) (h1 : 0 < cfg.startSize) (h2 : 0 < cfg.appendSize)
    (m : ℕ) (w : World (Core C ((ι × F) ⊕ T) A × H) K) (hc : w.sched.1.conditions = none) (hq : w.sched.1.qm.desired = []) (hneed : w.sched.1.qm.need = [])
    (past : List Vis) (hpast : ∀ tier ∈ w.sched.1.tiers, ∀ i f, .inl (i, f) ∈ tier → seen f = past)
    (hord : (notedTimes n past).Pairwise (· ≤ ·)) (hmade : ∀ t ∈ notedTimes n past, t ≤ cfg.simStart.getD w.obs.mjd)
    (hsp : ∀ (i : ℕ) t t', (notedTimes n past)[i]? = some t → (notedTimes n past)[i + L]? = some t' → t + delay ≤ t')
    (hlast : ∀ (i : ℕ) t, (notedTimes n past)[i]? = some t → i + L < (notedTimes n past).length → t + delay ≤ cfg.simStart.getD w.obs.mjd) :
    ∃ vs : List (Obs.Visit Obs), (Sim.run (V := Obs.Visit Obs) (env S M fuel conds mount (coreSched E X)) cfg m w).st.result = vs.map some
      ∧ ∀ (i : ℕ) t t', (notedTimes n past ++ (vs.filter fun v => isIn n v.target.schedulerNote).map (fun v => v.mjd))[i]? = some t →
          (notedTimes n past ++ (vs.filter fun v => isIn n v.target.schedulerNote).map (fun v => v.mjd))[i + L]? = some t' → t + delay ≤ t' := by
  have hold : ∀ tier ∈ w.sched.1.tiers, ∀ s ∈ tier, (delayWaits hE hs).Heard (notedTimes n past) s := by
    intro tier ht s hsm i f e
    rw [e] at hsm
    rw [hpast tier ht i f hsm]
  have key := delay_kept S hn hd M hM hK fuel conds mount (delayWaits hE hs) htime hdet X hX cfg hstep h1 h2 m w hc hq hneed (notedTimes n past)
  exact key hsp hord hmade hlast hold

/-! ### Examples -/

/-- The row that the features get, with the time. -/
def timedRow (o : Obs) : Vis := ⟨0, o.mjd, 0, o.band, o.schedulerNote, "", none, 0, o.ra, o.dec, []⟩

/-- A deep drilling survey of one field, two visits in r and one in g, with a delay of a fifth of a day. -/
def delayCfg (_ : Unit) : Fsm.Cfg ToyC (List Vis) where
  basis f c := [(⟨forceDelay (1 / 5) (some "DD:") f (twilights c), .scalar (.fin 0)⟩, 1)]
  kind _ := .deep (some (.fin 5)) 0 0
  deep := true
  items := ddfSorted (ddfItems 1 (-1 / 2) "DD:a" 30 40 1 [2, 1] ["r", "g"])
  read := 2
  change := 120
  pad := 100
  mjd c := c.mjd
  mounted _ := ["g", "r", "i"]
  current _ := "r"
  hear f o := f ++ [timedRow o]
  hearAll f l := f ++ l.map timedRow
  detail _ l := l

def delayEnv : Env ToyC ((Unit × List Vis) ⊕ ToySv) Unit where
  q := toyE.q
  sv := Script.mixed (Fsm.ops delayCfg) twiOther
  toos := toyE.toos

/-- Notes and times of the visits of the simulation. -/
def delayMade : List (Option (String × ℚ)) :=
  (Sim.run (V := Obs.Visit Obs) (env { toySite with downs := [] } wholeKin 20 (fun s => ⟨s.mjd, none⟩) (fun k _ => k) (coreSched delayEnv (nightRest 0)))
    { duration := 11 / 10, startSize := 2, appendSize := 2 } 40 shareStart).st.result.map fun r => r.map fun v => (v.target.schedulerNote, v.mjd)

/-- The visits of a sequence follow each other without delay: C243 does not hold for visits that are fewer apart than the length of a sequence. -/
theorem C243_within : delayMade[9]? = some (some ("DD:a", 31 / 144)) ∧ delayMade[11]? = some (some ("DD:a", 71 / 270)) ∧ ¬ (31 / 144 : ℚ) + 1 / 5 ≤ 71 / 270 := by
  decide +kernel

/-- Between its sequences the survey waits; what it waited for is more than a fifth of a day when the next night begins. -/
example : (delayMade.drop 12).take 9 = [some ("", 413 / 1440), some ("", 671 / 2160), some ("", 289 / 864), some ("", 43 / 120), some ("", 1651 / 4320),
    some ("", 877 / 2160), some ("", 619 / 1440), some ("", 49 / 108), some ("DD:a", 487 / 480)] ∧ (31 / 144 : ℚ) + 1 / 5 ≤ 487 / 480 := by
  decide +kernel

/-- The assumptions of C243 are met by this simulation. -/
example : SeesVisits delayCfg id ∧ Delayed delayEnv delayCfg twiOther id "DD:" (1 / 5) 3 ∧ DetKeepsNotes delayEnv.q
    ∧ (∀ st : Obs.St ℚ, delayEnv.q.mjdOf (⟨st.mjd, none⟩ : ToyC) = st.mjd) := by
  refine ⟨⟨fun i f o => ⟨timedRow o, rfl, rfl, rfl⟩⟩, ⟨rfl, ?_, fun i _ f c => ⟨_, List.mem_singleton.2 rfl, twilights c, rfl, fun h => .inl h⟩,
    fun _ _ => (by decide +kernel : (delayCfg ()).items.length ≤ 3), fun i c l => le_refl _,
    fun i c l o ho => ⟨o, ho, rfl⟩⟩, ⟨fun _ _ l o ho => ⟨o, ho, rfl, rfl⟩, fun _ _ l h => h⟩, fun _ => rfl⟩
  intro s c g hg
  obtain ⟨o', -, rfl⟩ := List.mem_map.1 hg
  show isIn "DD:" "" = false
  decide +kernel

/-- The same survey with soft delays: a fifth of a day while less than half of the visits have the note, two days from there on; it waits when no visit has been
counted (the code stops there, C98). -/
def softCfg (i : Unit) : Fsm.Cfg ToyC (List Vis) :=
  { delayCfg i with basis := fun f c => [(⟨decide (softDelay [0, 1 / 2] [1 / 5, 2] (some "DD:") f (twilights c) = some true), .scalar (.fin 0)⟩, 1)] }

def softEnv : Env ToyC ((Unit × List Vis) ⊕ ToySv) Unit := { delayEnv with sv := Script.mixed (Fsm.ops softCfg) twiOther }

/-- Soft delays meet the assumptions of C243, with the shortest of them. -/
example : SeesVisits softCfg id ∧ Delayed softEnv softCfg twiOther id "DD:" (1 / 5) 3 := by
  refine ⟨⟨fun i f o => ⟨timedRow o, rfl, rfl, rfl⟩⟩, ⟨rfl, ?_, fun i _ f c => ⟨_, List.mem_singleton.2 rfl, twilights c, rfl, fun h => .inr (.inl ⟨_, _, ?_, of_decide_eq_true h⟩)⟩,
    fun _ _ => (by decide +kernel : (delayCfg ()).items.length ≤ 3), fun i c l => le_refl _,
    fun i c l o ho => ⟨o, ho, rfl⟩⟩⟩
  · intro s c g hg
    obtain ⟨o', -, rfl⟩ := List.mem_map.1 hg
    show isIn "DD:" "" = false
    decide +kernel
  · intro d hd
    rcases List.mem_cons.1 hd with rfl | hd
    · exact le_refl _
    · rw [List.mem_singleton.1 hd]
      norm_num

/-- The same survey with a gap of half an hour, as the simple field survey has. -/
def gapCfg (i : Unit) : Fsm.Cfg ToyC (List Vis) :=
  { delayCfg i with basis := fun f c => [(⟨Bf.visitGap 30 (Bf.visitGapLasts "DD:" none f) c.1, .scalar (.fin 0)⟩, 1)] }

def gapEnv : Env ToyC ((Unit × List Vis) ⊕ ToySv) Unit := { delayEnv with sv := Script.mixed (Fsm.ops gapCfg) twiOther }

/-- A gap meets the assumptions of C243. -/
example : SeesVisits gapCfg id ∧ Delayed gapEnv gapCfg twiOther id "DD:" (1 / 48) 3 := by
  refine ⟨⟨fun i f o => ⟨timedRow o, rfl, rfl, rfl⟩⟩, ⟨rfl, ?_, fun i _ f c => ⟨_, List.mem_singleton.2 rfl, twilights c, rfl, fun h => .inr (.inr ⟨30, ?_, h⟩)⟩,
    fun _ _ => (by decide +kernel : (delayCfg ()).items.length ≤ 3), fun i c l => le_refl _,
    fun i c l o ho => ⟨o, ho, rfl⟩⟩⟩
  · intro s c g hg
    obtain ⟨o', -, rfl⟩ := List.mem_map.1 hg
    show isIn "DD:" "" = false
    decide +kernel
  · norm_num

end Verif
