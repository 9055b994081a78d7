import Verif.Props.WholeNights
import Verif.Props.WholeFollow
import Verif.Props.WholeWindow

/-!
Property C240: greedy and blob surveys know of the visits made and turn their fields as configured.
-/

namespace Verif

open Whole Core Rew Blob

section
variable {C B T A H K F ι : Type}

/-- The place is that of the field of a pixel when the tessellation is turned in this way. -/
def FieldAt (cfg : Mrk.Cfg C F) (t : Option (ℤ × ℕ)) (p : ℕ) (place : ℚ × ℚ) : Prop := place = (cfg.tess t).pos ((cfg.tess t).field p)

/-- How often the tessellation is turned for one block: once by greedy surveys, once for each pass by blob surveys. -/
def passesOf (cfg : Mrk.Cfg C F) : ℕ :=
  match cfg.pick with
  | .greedy _ _ => 1
  | .blob _ _ _ _ _ visits _ _ _ => visits

theorem rough_turn {cfg : Mrk.Cfg C F} (hw : WellMade cfg) {s : Mrk.St F} {c : C} {m : List XReal} {o : Obs} (h : o ∈ (Mrk.rough cfg s c m).1) :
    (Mrk.rough cfg s c m).2 = Mrk.spins cfg c (passesOf cfg) s
      ∧ ∃ p k, k < passesOf cfg ∧ o.schedulerNote = cfg.note ∧ FieldAt cfg (Mrk.spins cfg c (k + 1) s).turn p (o.ra, o.dec) := by
  unfold Mrk.rough at h ⊢
  unfold passesOf
  have hmu := hw.blob
  rcases hp : cfg.pick with ⟨band, block⟩ | ⟨nb, a, grow, b1, b2, visits, block, order, flush⟩ <;> rw [hp] at h
  · obtain ⟨f, hf, rfl⟩ := List.mem_map.1 h
    obtain ⟨P, -, -, hfin, -, -, hP⟩ := C97_greedy (Mrk.tessOf cfg (Mrk.spin cfg c s)).field m block
    obtain ⟨p, hpP, rfl⟩ := (hP f).1 hf
    exact ⟨rfl, p, 0, by norm_num, rfl, rfl⟩
  · obtain ⟨hnb, hord⟩ := hmu _ _ _ _ _ _ _ _ _ hp
    dsimp only at h ⊢
    rcases hg : generate nb a (fun i => (Mrk.tessOf cfg (Mrk.spins cfg c (i + 1) s)).field) grow (block c) m b1 b2 visits with _ | ps
    · rw [hg] at h
      exact absurd h List.not_mem_nil
    · rw [hg, Option.getD_some] at h
      rw [Option.getD_some]
      have hne : ps ≠ [] := by
        rintro rfl
        exact absurd h List.not_mem_nil
      refine ⟨by rw [if_neg hne], ?_⟩
      obtain ⟨k, b, fs, f, hk, hf, rfl⟩ := passRows_mem _ _ _ h
      unfold generate at hg
      rcases hpf : passesFrom nb a (fun i => (Mrk.tessOf cfg (Mrk.spins cfg c (i + 1) s)).field) grow (block c) m b1 b2 visits 0 with _ | _ | r <;>
        rw [hpf] at hg
      · cases hg
      · simp only [Option.map_some, Option.getD_none, Option.some.injEq] at hg
        exact absurd hg.symm hne
      · simp only [Option.map_some, Option.getD_some, Option.some.injEq] at hg
        subst hg
        obtain ⟨hl, hsp⟩ := passesFrom_spec visits 0 r hpf
        obtain ⟨-, -, hfs⟩ := hsp k b fs hk
        obtain ⟨p, x, -, -, h3⟩ := passFields_mem hnb hfs f (hord _ _ hf)
        refine ⟨p, k, ?_, rfl, ?_⟩
        · rw [← hl]
          exact (List.getElem?_eq_some_iff.1 hk).1
        · unfold FieldAt
          show ((Mrk.tessOf cfg (Mrk.spins cfg c (0 + k + 1) s)).pos f) = _
          rw [← h3, Nat.zero_add]
          rfl

theorem gen_turn {cfg : Mrk.Cfg C F} (hw : WellMade cfg) {s : Mrk.St F} {c : C} {o : Obs} (h : o ∈ (Mrk.gen cfg s c).1) :
    (Mrk.gen cfg s c).2 = Mrk.spins cfg c (passesOf cfg) s
      ∧ ∃ p k, k < passesOf cfg ∧ o.schedulerNote = cfg.note ∧ FieldAt cfg (Mrk.spins cfg c (k + 1) s).turn p (o.ra, o.dec) := by
  unfold Mrk.gen at h ⊢
  rcases hr : reward (cfg.kind s.feat c) (cfg.basis s.feat c) with _ | x | m <;> rw [hr] at h
  · exact absurd h List.not_mem_nil
  · exact absurd h List.not_mem_nil
  · dsimp only at h ⊢
    by_cases he : (Mrk.rough cfg s c m).1 = []
    · rw [if_pos he] at h
      exact absurd h List.not_mem_nil
    · rw [if_neg he] at h
      obtain ⟨o', ho', ek⟩ := hw.detail _ _ o h
      obtain ⟨h0, p, k, h1, h2, h3⟩ := rough_turn hw ho'
      simp only [Prod.mk.injEq] at ek
      obtain ⟨e1, e2, -, e4⟩ := ek
      rw [e4] at h2
      rw [e1, e2] at h3
      exact ⟨h0, p, k, h1, h2, h3⟩

/-- Whatever is asked for, the state afterwards is that after some turns. -/
theorem gen_state (cfg : Mrk.Cfg C F) (s : Mrk.St F) (c : C) : ∃ k, (Mrk.gen cfg s c).2 = Mrk.spins cfg c k s := by
  unfold Mrk.gen
  rcases reward (cfg.kind s.feat c) (cfg.basis s.feat c) with _ | x | m
  · exact ⟨0, rfl⟩
  · exact ⟨0, rfl⟩
  · dsimp only
    unfold Mrk.rough
    rcases cfg.pick with ⟨band, block⟩ | ⟨nb, a, grow, b1, b2, visits, block, order, flush⟩
    · exact ⟨1, rfl⟩
    · exact ⟨_, rfl⟩

theorem spins_feat (cfg : Mrk.Cfg C F) (c : C) : ∀ (k : ℕ) (s : Mrk.St F), (Mrk.spins cfg c k s).feat = s.feat
  | 0, _ => rfl
  | k + 1, s => by
    unfold Mrk.spins
    rw [spins_feat cfg c k]
    unfold Mrk.spin
    split
    · split_ifs <;> rfl
    · split_ifs <;> rfl
    · rfl

/-- What holds of the turn at any time: turned by night, it is not yet turned or turned for the night noted; not turned, it stays as given. -/
def TurnKept (d : Mrk.Dither) (s : Mrk.St F) : Prop :=
  match d with
  | .night => s.night = -1 ∨ s.turn = some (s.night, 0)
  | .call => True
  | .never => s.turn = none

theorem spin_kept {cfg : Mrk.Cfg C F} {s : Mrk.St F} (c : C) (h : TurnKept cfg.dither s) : TurnKept cfg.dither (Mrk.spin cfg c s) := by
  unfold Mrk.spin
  unfold TurnKept at h ⊢
  rcases hd : cfg.dither with _ | _ | _ <;> rw [hd] at h
  · dsimp only at h ⊢
    split_ifs
    · exact h
    · exact Or.inr rfl
  · trivial
  · exact h

theorem spins_kept {cfg : Mrk.Cfg C F} (c : C) : ∀ (k : ℕ) (s : Mrk.St F), TurnKept cfg.dither s → TurnKept cfg.dither (Mrk.spins cfg c k s)
  | 0, _, h => h
  | k + 1, _, h => spins_kept c k _ (spin_kept c h)

/-- Turns by night do not go further in the same night. -/
theorem spins_night {cfg : Mrk.Cfg C F} (hd : cfg.dither = .night) (c : C) : ∀ (k : ℕ) (s : Mrk.St F), (Mrk.spins cfg c (k + 1) s).night = cfg.night c
  | 0, s => by
    show (Mrk.spin cfg c s).night = _
    unfold Mrk.spin
    rw [hd]
    dsimp only
    split_ifs with h
    · exact h.symm
    · rfl
  | k + 1, s => spins_night hd c k (Mrk.spin cfg c s)

/-- The number of the next turn in the night of the conditions. -/
def nextCall (k : ℤ) (s : Mrk.St F) : ℕ := if k = s.current then s.calls else 0

theorem spins_call {cfg : Mrk.Cfg C F} (hd : cfg.dither = .call) (c : C) : ∀ (k : ℕ) (s : Mrk.St F),
    (Mrk.spins cfg c (k + 1) s).turn = some (cfg.night c, nextCall (cfg.night c) s + k)
      ∧ (Mrk.spins cfg c (k + 1) s).current = cfg.night c ∧ (Mrk.spins cfg c (k + 1) s).calls = nextCall (cfg.night c) s + k + 1
  | 0, s => by
    show (Mrk.spin cfg c s).turn = _ ∧ (Mrk.spin cfg c s).current = _ ∧ (Mrk.spin cfg c s).calls = _
    unfold Mrk.spin nextCall
    rw [hd]
    dsimp only
    split_ifs with h
    · exact ⟨rfl, h.symm, rfl⟩
    · exact ⟨rfl, rfl, rfl⟩
  | k + 1, s => by
    have h := spins_call hd c k (Mrk.spin cfg c s)
    obtain ⟨-, h1, h2⟩ := spins_call hd c 0 s
    have h1 : (Mrk.spin cfg c s).current = cfg.night c := h1
    have h2 : (Mrk.spin cfg c s).calls = nextCall (cfg.night c) s + 0 + 1 := h2
    have e : nextCall (cfg.night c) (Mrk.spin cfg c s) = nextCall (cfg.night c) s + 1 := by
      conv_lhs => unfold nextCall
      rw [if_pos h1.symm, h2]
    rw [e] at h
    refine ⟨h.1.trans ?_, h.2.1, h.2.2.trans ?_⟩
    · congr 2; omega
    · omega

/-! ### Between the calls of one survey -/

/-- A call of a survey by the scheduler. -/
inductive SurveyCall (C : Type)
  | gen (c : C)
  | reward (c : C)
  | hear (o : Obs)
  | hearAll (l : List Obs)
  | update (c : C)

/-- The blocks that a survey returns in the course of calls. -/
def blocksOf {Sv : Type} (ops : SurveyOps C Sv) : Sv → List (SurveyCall C) → List (List Obs)
  | _, [] => []
  | s, .gen c :: l => (ops.gen s c).1 :: blocksOf ops (ops.gen s c).2 l
  | s, .reward c :: l => blocksOf ops (ops.reward s c).2 l
  | s, .hear o :: l => blocksOf ops (ops.addObs s o) l
  | s, .hearAll v :: l => blocksOf ops (ops.addArr s v) l
  | s, .update c :: l => blocksOf ops (ops.update s c) l

theorem blocks_call (cfgs : ι → Mrk.Cfg C F) (i : ι) (hw : WellMade (cfgs i)) (hd : (cfgs i).dither = .call) (k : ℤ) :
    ∀ (l : List (SurveyCall C)) (s : Mrk.St F), (∀ c, .gen c ∈ l → (cfgs i).night c = k) →
      ∃ spans : List (ℕ × ℕ), spans.Pairwise (fun a b => a.2 ≤ b.1) ∧ (∀ a ∈ spans, nextCall k s ≤ a.1)
        ∧ List.Forall₂ (fun b a => ∀ o ∈ b, ∃ p t, a.1 ≤ t ∧ t < a.2 ∧ FieldAt (cfgs i) (some (k, t)) p (o.ra, o.dec)) (blocksOf (Mrk.ops cfgs) (i, s) l) spans
  | [], s, _ => ⟨[], List.Pairwise.nil, fun _ h => absurd h List.not_mem_nil, List.Forall₂.nil⟩
  | .reward c :: l, s, h => blocks_call cfgs i hw hd k l s fun c' hc => h c' (List.mem_cons_of_mem _ hc)
  | .hear o :: l, s, h => blocks_call cfgs i hw hd k l { s with feat := (cfgs i).hear s.feat o } fun c' hc => h c' (List.mem_cons_of_mem _ hc)
  | .hearAll v :: l, s, h => blocks_call cfgs i hw hd k l { s with feat := (cfgs i).hearAll s.feat v } fun c' hc => h c' (List.mem_cons_of_mem _ hc)
  | .update c :: l, s, h => blocks_call cfgs i hw hd k l s fun c' hc => h c' (List.mem_cons_of_mem _ hc)
  | .gen c :: l, s, h => by
    have hk : (cfgs i).night c = k := h c List.mem_cons_self
    obtain ⟨spans, h1, h2, h3⟩ := blocks_call cfgs i hw hd k l (Mrk.gen (cfgs i) s c).2 fun c' hc => h c' (List.mem_cons_of_mem _ hc)
    obtain ⟨n, hn⟩ := gen_state (cfgs i) s c
    have hmono : nextCall k s ≤ nextCall k (Mrk.gen (cfgs i) s c).2 := by
      rw [hn]
      rcases n with _ | n
      · exact le_refl _
      · obtain ⟨-, e1, e2⟩ := spins_call hd c n s
        rw [hk] at e1 e2
        conv_rhs => unfold nextCall
        rw [if_pos e1.symm, e2]
        omega
    refine ⟨(nextCall k s, nextCall k (Mrk.gen (cfgs i) s c).2) :: spans, List.pairwise_cons.2 ⟨h2, h1⟩, ?_, List.Forall₂.cons ?_ h3⟩
    · intro a ha
      rcases List.mem_cons.1 ha with rfl | ha
      · exact le_refl _
      · exact hmono.trans (h2 a ha)
    · intro o ho
      have ho : o ∈ (Mrk.gen (cfgs i) s c).1 := ho
      obtain ⟨hst, p, j, hj, -, hf⟩ := gen_turn hw ho
      obtain ⟨e0, -, -⟩ := spins_call hd c j s
      rw [e0, hk] at hf
      refine ⟨p, _, Nat.le_add_right _ _, ?_, hf⟩
      dsimp only
      obtain ⟨m, hm⟩ : ∃ m, passesOf (cfgs i) = m + 1 := ⟨passesOf (cfgs i) - 1, by omega⟩
      obtain ⟨-, e1, e2⟩ := spins_call hd c m s
      rw [hk] at e1 e2
      rw [hst, hm]
      conv_rhs => unfold nextCall
      rw [if_pos e1.symm, e2]
      omega

/-- C240 for surveys that turn their fields with every call: whatever the scheduler asks and tells a survey in a night, no two blocks have a turn of the fields in
common, and within a block the visits are at fields of the turns of this night counted for it. -/
theorem C240_calls (cfgs : ι → Mrk.Cfg C F) (i : ι) (hw : WellMade (cfgs i)) (hd : (cfgs i).dither = .call) (k : ℤ) (s : Mrk.St F) (l : List (SurveyCall C))
    (hnight : ∀ c, .gen c ∈ l → (cfgs i).night c = k) :
    ∃ spans : List (ℕ × ℕ), spans.Pairwise (fun a b => a.2 ≤ b.1)
      ∧ List.Forall₂ (fun b a => ∀ o ∈ b, ∃ p t, a.1 ≤ t ∧ t < a.2 ∧ FieldAt (cfgs i) (some (k, t)) p (o.ra, o.dec)) (blocksOf (Mrk.ops cfgs) (i, s) l) spans := by
  obtain ⟨spans, h1, -, h2⟩ := blocks_call cfgs i hw hd k l s hnight
  exact ⟨spans, h1, h2⟩

/-- The passes of a block of such a survey are at the fields of one turn after the other. -/
theorem C240_passes (cfg : Mrk.Cfg C F) (hd : cfg.dither = .call) (c : C) (s : Mrk.St F) (k j : ℕ) (h : (Mrk.spins cfg c (k + 1) s).turn = (Mrk.spins cfg c (j + 1) s).turn) :
    k = j := by
  rw [(spins_call hd c k s).1, (spins_call hd c j s).1] at h
  simp only [Option.some.injEq, Prod.mk.injEq, true_and] at h
  omega

/-! ### Simulations -/

variable (S : Obs.Site) (M : Obs.Kin K Obs) (fuel : ℕ) (conds : Obs.St K → C) (mount : K → B → K) (cfgs : ι → Mrk.Cfg C F) (other : SurveyOps C T)

/-- Greedy and blob surveys have turned their fields as configured; nothing is said about others. -/
def SurveyTurned (cfgs : ι → Mrk.Cfg C F) : (ι × Mrk.St F) ⊕ T → Prop
  | .inl s => TurnKept (cfgs s.1).dither s.2
  | .inr _ => True

theorem turned_stable {E : Env C ((ι × Mrk.St F) ⊕ T) A} {cfgs : ι → Mrk.Cfg C F} {other : SurveyOps C T} (hE : E.sv = Script.mixed (Mrk.ops cfgs) other) :
    Stable E (SurveyTurned cfgs) := by
  have hfeat : ∀ d (s : Mrk.St F) (f : F), TurnKept d s → TurnKept d { s with feat := f } := by
    intro d s f h
    cases d <;> exact h
  constructor
  · rintro (⟨i, s⟩ | s) c h
    · rw [hE]; exact h
    · rw [hE]; trivial
  · rintro (⟨i, s⟩ | s) c h
    · rw [hE]
      show TurnKept (cfgs i).dither (Mrk.gen (cfgs i) s c).2
      obtain ⟨k, hk⟩ := gen_state (cfgs i) s c
      rw [hk]
      exact spins_kept c k s h
    · rw [hE]; trivial
  · rintro (⟨i, s⟩ | s) o h
    · rw [hE]; exact hfeat _ _ _ h
    · rw [hE]; trivial
  · rintro (⟨i, s⟩ | s) l h
    · rw [hE]; exact hfeat _ _ _ h
    · rw [hE]; trivial
  · rintro (⟨i, s⟩ | s) c h
    · rw [hE]; exact h
    · rw [hE]; trivial

/-- The turn of the fields that a survey is to use in a night. -/
def TurnOf (d : Mrk.Dither) (night : ℤ) (t : Option (ℤ × ℕ)) : Prop :=
  match d with
  | .night => t = some (night, 0)
  | .call => ∃ j, t = some (night, j)
  | .never => t = none

/-- C240: in a simulation every visit with the note of a greedy or blob survey is at a field of the tessellation turned as configured: turned for the night of the
visit, the same for all visits of the night (`night`), turned for a call in this night (`call`), or as given (`never`). The start from which nights are counted is
by day, and no night has the number -1. -/
theorem C240_turned (hn : Obs.Nights S.nights) (hd : Down.Ordered S.downs) (hM : Obs.NonNeg M) (hw : ∀ i, WellMade (cfgs i))
    (E : Env C ((ι × Mrk.St F) ⊕ T) A) (hE : MapsBeside E cfgs other)
    (hkey : KeptColumns E M (fun o => (o.ra, o.dec, o.band, o.schedulerNote)))
    (X : Rest H C B) (hX : ∀ h v, 0 ≤ (X.overhead h v).2)
    (cfg : Sim.Cfg) (hstep : 0 ≤ cfg.stepNone) (h1 : 0 < cfg.startSize) (h2 : 0 < cfg.appendSize) (n : ℕ)
    (w : World (Core C ((ι × Mrk.St F) ⊕ T) A × H) K)
    (hc : w.sched.1.conditions = none) (hq : w.sched.1.qm.desired = [])
    (hfresh : ∀ tier ∈ w.sched.1.tiers, ∀ s, .inl s ∈ tier → s.2.turn = none ∧ s.2.night = -1)
    (start : ℚ) (hnow : ∀ i st, (cfgs i).night (conds st) = ⌊st.mjd - start⌋) (hfirst : ∀ a ∈ S.nights, start ≤ a.1)
    (longest over : ℚ) (hover0 : 0 ≤ over) (hlong : ∀ k o t, ∀ s ∈ (M.observe k o t).2.1, (s + (M.observe k o t).2.2) / 24 / 3600 ≤ longest)
    (hover : ∀ h v, (X.overhead h v).2 / 86400 ≤ over)
    (hday : ChangesByDay S start (over + cfg.stepNone / 60 / 24 + longest)) (hlong0 : 0 ≤ longest)
    (hraised : (Sim.run (V := Obs.Visit Obs) (env S M fuel conds mount (coreSched E X)) cfg n w).st.w.raised = false) :
    ∃ vs : List (Obs.Visit Obs), (Sim.run (V := Obs.Visit Obs) (env S M fuel conds mount (coreSched E X)) cfg n w).st.result = vs.map some
      ∧ ∀ v ∈ vs, (∃ i, (cfgs i).note = v.target.schedulerNote) →
        ∃ i p t, (cfgs i).note = v.target.schedulerNote ∧ TurnOf (cfgs i).dither ⌊v.mjd - start⌋ t ∧ FieldAt (cfgs i) t p (v.target.ra, v.target.dec) := by
  have hC := C183_visits S hn hd M hM fuel conds mount (coreSched E X) (fun _ _ => hX _ _) cfg hstep h1 h2 n w
  obtain ⟨vs', hr', -, -, hall⟩ := hC
  have hclosed : ∀ k : ℤ, ∀ t, start + k ≤ t → t ≤ start + k + (over + cfg.stepNone / 60 / 24 + longest) → ¬ Obs.Open S t := by
    intro k t ht1 ht2 ho
    obtain ⟨a, ha, h1, h2⟩ := ho.night
    rcases hday k a ha with h | h <;> linarith
  obtain ⟨vs, hr, hv⟩ := asked_by_reached (fun x => ∃ k : ℤ, x = start + k) S hn hd M hM fuel conds mount E _ hkey X hX cfg hstep h1 h2 n w hc hq
    (fun c k => (∃ i, (cfgs i).note = k.2.2.2) → ∃ i p t, (cfgs i).note = k.2.2.2 ∧ ((cfgs i).night c ≠ -1 → TurnOf (cfgs i).dither ((cfgs i).night c) t)
      ∧ FieldAt (cfgs i) t p (k.1, k.2.1))
    (SurveyTurned cfgs) (turned_stable hE.sv) (by
      intro tier ht v hv
      rcases v with s | s
      · obtain ⟨a, b⟩ := hfresh tier ht s hv
        show TurnKept (cfgs s.1).dither s.2
        unfold TurnKept
        split
        · exact Or.inl b
        · trivial
        · exact a
      · trivial) (by
      intro sv c hI g hg hi
      rw [hE.sv] at hg
      rcases sv with ⟨i, s⟩ | s
      · have hI : TurnKept (cfgs i).dither s := hI
        have hg : g ∈ (Mrk.gen (cfgs i) s c).1 := hg
        obtain ⟨-, p, k, -, hnote, hf⟩ := gen_turn (hw i) hg
        refine ⟨i, p, _, hnote.symm, ?_, hf⟩
        intro hm
        have hkept := spins_kept c (k + 1) s hI
        unfold TurnKept at hkept
        unfold TurnOf
        rcases hdi : (cfgs i).dither with _ | _ | _ <;> rw [hdi] at hkept
        · dsimp only at hkept ⊢
          have e := spins_night hdi c k s
          rw [e] at hkept
          exact hkept.resolve_left hm
        · exact ⟨_, (spins_call hdi c k s).1⟩
        · exact hkept
      · obtain ⟨i, hi⟩ := hi
        exact absurd hi (hE.notes _ c g hg i))
    longest over hover0 hlong hover (by rintro _ ⟨k, rfl⟩ t ht1 ht2; exact hclosed k t ht1.le ht2) hraised
  have hsame : vs = vs' := List.map_injective_iff.2 (Option.some_injective _) (hr.symm.trans hr')
  refine ⟨vs, hr, ?_⟩
  intro v hvm hi
  obtain ⟨st, hst, -, hrule, hbar⟩ := hv v hvm
  obtain ⟨i, p, t, hnote, hturn, hf⟩ := hrule hi
  obtain ⟨-, -, -, hopen, -, hs0, hv0⟩ := hall v (hsame ▸ hvm)
  have hs : 0 ≤ v.slewtime / 24 / 3600 := by positivity
  have hx : 0 ≤ v.visittime / 24 / 3600 := by positivity
  have hstep0 : 0 ≤ cfg.stepNone / 60 / 24 := by positivity
  have e : ⌊v.mjd - start⌋ = (cfgs i).night (conds st) := by
    rw [hnow]
    refine le_antisymm (Int.le_floor.2 ?_) (Int.floor_le_floor (by linarith))
    by_contra hlt
    have hfl := Int.floor_le (v.mjd - start)
    have hlt := not_le.1 hlt
    rcases lt_or_ge (start + (⌊v.mjd - start⌋ : ℤ)) (v.mjd + v.visittime / 24 / 3600) with h | h
    · have := hbar _ ⟨_, rfl⟩ h
      linarith
    · exact hclosed ⌊v.mjd - start⌋ _ (by linarith) (by linarith) hopen
  refine ⟨i, p, t, hnote, ?_, hf⟩
  rw [e]
  apply hturn
  intro hm
  rw [← e] at hm
  obtain ⟨a, ha, ha1, -⟩ := hopen.night
  have h3 := hfirst a ha
  have h4 := Int.lt_floor_add_one (v.mjd - start)
  rw [hm] at h4
  push_cast at h4
  rcases lt_or_ge (start + ((0 : ℤ) : ℚ)) (v.mjd + v.visittime / 24 / 3600) with h | h
  · have := hbar _ ⟨0, rfl⟩ h
    push_cast at this
    linarith
  · push_cast at h
    exact hclosed 0 _ (by push_cast; linarith) (by push_cast; linarith) hopen

/-- Features and number of a survey. -/
def featOf : (ι × Mrk.St F) ⊕ T → Option (ι × F)
  | .inl s => some (s.1, s.2.feat)
  | .inr _ => none

/-- Features of greedy and blob surveys change only by hearing of visits. -/
def featFollower {E : Env C ((ι × Mrk.St F) ⊕ T) A} {cfgs : ι → Mrk.Cfg C F} {other : SurveyOps C T} (hE : E.sv = Script.mixed (Mrk.ops cfgs) other) :
    Follower E (Option (ι × F)) where
  look := featOf
  hear f o := f.map fun q => (q.1, (cfgs q.1).hear q.2 o)
  reward_keeps := by
    rintro (s | s) c <;> rw [hE] <;> rfl
  gen_keeps := by
    rintro (⟨i, s⟩ | s) c <;> rw [hE]
    · obtain ⟨k, hk⟩ := gen_state (cfgs i) s c
      show some (i, (Mrk.gen (cfgs i) s c).2.feat) = some (i, s.feat)
      rw [hk, spins_feat]
    · rfl
  update_keeps := by
    rintro (s | s) c <;> rw [hE] <;> rfl
  addObs_hears := by
    rintro (s | s) o <;> rw [hE] <;> rfl

theorem foldl_feat (cfgs : ι → Mrk.Cfg C F) (i : ι) : ∀ (l : List Obs) (f : F),
    l.foldl (fun (f : Option (ι × F)) o => f.map fun q => (q.1, (cfgs q.1).hear q.2 o)) (some (i, f)) = some (i, l.foldl (cfgs i).hear f)
  | [], _ => rfl
  | o :: l, f => foldl_feat cfgs i l ((cfgs i).hear f o)

/-- C240 for features: at the end of a simulation the features of every greedy or blob survey are what the visits returned, one after the other and all of them,
make of the features that this survey had at the start. -/
theorem C240_features (hn : Obs.Nights S.nights) (hd : Down.Ordered S.downs) (hM : Obs.NonNeg M)
    (E : Env C ((ι × Mrk.St F) ⊕ T) A) (hE : E.sv = Script.mixed (Mrk.ops cfgs) other)
    (X : Rest H C B) (hX : ∀ h v, 0 ≤ (X.overhead h v).2)
    (cfg : Sim.Cfg) (hstep : 0 ≤ cfg.stepNone) (h1 : 0 < cfg.startSize) (h2 : 0 < cfg.appendSize) (n : ℕ)
    (w : World (Core C ((ι × Mrk.St F) ⊕ T) A × H) K) :
    let s := (Sim.run (V := Obs.Visit Obs) (env S M fuel conds mount (coreSched E X)) cfg n w).st
    ∃ vs : List (Obs.Visit Obs), s.result = vs.map some ∧ ∀ (a b : ℕ) tier i (st : Mrk.St F), s.w.sched.1.tiers[a]? = some tier → tier[b]? = some (.inl (i, st)) →
      ∃ tier0 st0, w.sched.1.tiers[a]? = some tier0 ∧ tier0[b]? = some (.inl (i, st0)) ∧ st.feat = (vs.map madeRow).foldl (cfgs i).hear st0.feat := by
  intro s
  obtain ⟨vs, hr, ht⟩ := C206_followed S hn hd M hM fuel conds mount E (featFollower hE) X hX cfg hstep h1 h2 n w
  refine ⟨vs, hr, ?_⟩
  intro a b tier i st ha hb
  have e := congrArg (fun l => l[a]?) ht
  rw [List.getElem?_map, List.getElem?_map, show (Sim.run (V := Obs.Visit Obs) (env S M fuel conds mount (coreSched E X)) cfg n w).st.w.sched.1.tiers[a]? = some tier from ha] at e
  rcases h0 : w.sched.1.tiers[a]? with _ | tier0
  · rw [h0] at e
    cases e
  · rw [h0, Option.map_some, Option.map_some, Option.some.injEq] at e
    have e := congrArg (fun l => l[b]?) e
    rw [List.getElem?_map, List.getElem?_map, hb] at e
    rcases h3 : tier0[b]? with _ | sv0
    · rw [h3] at e
      cases e
    · rw [h3, Option.map_some, Option.map_some, Option.some.injEq] at e
      have e : some (i, st.feat) = (vs.map madeRow).foldl (fun (f : Option (ι × F)) o => f.map fun q => (q.1, (cfgs q.1).hear q.2 o)) (featOf sv0) := e
      rcases sv0 with ⟨i0, st0⟩ | sv0
      · have e2 := e.trans (foldl_feat cfgs i0 (vs.map madeRow) st0.feat)
        simp only [Option.some.injEq, Prod.mk.injEq] at e2
        obtain ⟨rfl, e2⟩ := e2
        exact ⟨tier0, st0, rfl, h3, e2⟩
      · exfalso
        have hnone : ∀ l : List Obs, l.foldl (fun (f : Option (ι × F)) o => f.map fun q => (q.1, (cfgs q.1).hear q.2 o)) none = none := by
          intro l
          induction l with
          | nil => rfl
          | cons o l ih => exact ih
        rw [show featOf (.inr sv0 : (ι × Mrk.St F) ⊕ T) = none from rfl, hnone] at e
        cases e

end

/-! ### Examples -/

/-- A greedy survey of three fields, or a blob survey of two passes, that counts the visits it hears of. A turn of the fields is seen in their declination. -/
def turnCfg (start : ℚ) (d : Mrk.Dither) (blob : Bool) : Mrk.Cfg ToyC ℕ where
  basis _ _ := [(⟨true, .map [.fin 1, .fin 2, .fin 1]⟩, 1)]
  kind _ _ := .markov ⟨none, 1, 1, fun _ _ => 0, 0, false⟩ none
  tess t := ⟨fun p => p, fun f => (f / 2, match t with | none => -7 | some k => 10 * k.1 + k.2)⟩
  dither := d
  night c := ⌊c.mjd - start⌋
  pick := if blob then .blob (fun p => if p % 2 = 0 then [p + 1] else [p - 1]) ⟨none, 1, 1, fun i j => if i = j then 0 else 1, 5, true⟩ false "r" "i" 2
    (fun _ => 1) id (fun c => c.mjd + 1) else .greedy "r" 2
  note := "turned"
  hear f _ := f + 1
  hearAll f l := f + l.length
  detail _ l := l

def turnEnv (start : ℚ) (d : Mrk.Dither) : Env ToyC ((Bool × Mrk.St ℕ) ⊕ ToySv) Unit where
  q := toyE.q
  sv := Script.mixed (Mrk.ops (turnCfg start d)) twiOther
  toos := toyE.toos

def turnStart (blob : Bool) : World (Core ToyC ((Bool × Mrk.St ℕ) ⊕ ToySv) Unit × Unit) ℚ :=
  ⟨⟨0, 0, 40⟩, (Core.init () [[.inl (blob, { feat := 0 })], [.inr ⟨[.fin 1], [{ targetId := 0, band := "y" }], none⟩]] 5 true [], ()), false⟩

/-- Declinations of the visits of a simulation of two nights, the counts of the surveys, whether an exception was raised. -/
def turnMade (start : ℚ) (d : Mrk.Dither) (blob : Bool) : List (Option ℚ) × List (List (Option ℕ)) × Bool :=
  let o := Sim.run (V := Obs.Visit Obs) (env { toySite with downs := [] } wholeKin 20 (fun s => ⟨s.mjd, none⟩) (fun k _ => k) (coreSched (turnEnv start d) (nightRest 0)))
    { duration := 11 / 10, startSize := 2, appendSize := 2 } 60 (turnStart blob)
  (o.st.result.map fun r => r.map fun v => v.target.dec, o.st.w.sched.1.tiers.map fun t => t.map fun s => (featOf s).map Prod.snd, o.st.w.raised)

/-- Turned by night, all visits of a night are on the same grid, those of the next night on another one. Turned with every call, both visits of a block of a greedy
survey are on one grid and those of the next block on another one, and every pass of a blob survey is on a grid of its own. All visits have been counted. -/
example : turnMade (-1 / 4) .night false = (List.replicate 20 (some 0) ++ List.replicate 4 (some 10), [[some 24], [none]], false)
    ∧ turnMade (-1 / 4) .night true = turnMade (-1 / 4) .night false
    ∧ (turnMade (-1 / 4) .call false).1.drop 18 = [some 9, some 9, some 10, some 10, some 11, some 11]
    ∧ (turnMade (-1 / 4) .call true).1.drop 18 = [some 18, some 19, some 10, some 11, some 12, some 13]
    ∧ (turnMade (-1 / 4) .never true).1 = List.replicate 24 (some (-7)) := by
  decide +kernel

/-- C240 needs nights that do not have the number -1: a survey that is to turn its fields every night, and observes in the night before the start from which nights
are counted, has them as given, without any turn. -/
theorem C240_before_start_violated : turnMade (3 / 4) .night false = (List.replicate 20 (some (-7)) ++ List.replicate 4 (some 0), [[some 24], [none]], false) := by
  decide +kernel

theorem turn_well (start : ℚ) (d : Mrk.Dither) (i : Bool) : WellMade (turnCfg start d i) := by
  refine ⟨fun _ _ => trivial, ?_, fun _ l o ho => ⟨o, ho, rfl⟩⟩
  intro nb a grow b1 b2 visits block order flush h
  rcases i with _ | _
  · simp [turnCfg] at h
  · simp only [turnCfg, if_true, Mrk.Pick.blob.injEq] at h
    obtain ⟨rfl, -, -, -, -, -, -, rfl, -⟩ := h
    refine ⟨?_, fun l f hf => hf⟩
    intro p q hq
    dsimp only at hq ⊢
    split_ifs at hq with hp
    · rw [List.mem_singleton] at hq
      rw [if_neg (by omega)]
      simp; omega
    · rw [List.mem_singleton] at hq
      rw [if_pos (by omega)]
      simp; omega

/-- The assumptions of C240 are met by these simulations. -/
example (d : Mrk.Dither) : (∀ i, WellMade (turnCfg (-1 / 4) d i)) ∧ MapsBeside (turnEnv (-1 / 4) d) (turnCfg (-1 / 4) d) twiOther
    ∧ KeptColumns (turnEnv (-1 / 4) d) wholeKin (fun o => (o.ra, o.dec, o.band, o.schedulerNote))
    ∧ (∀ i, (turnStart i).sched.1.conditions = none ∧ (turnStart i).sched.1.qm.desired = [])
    ∧ (∀ i, ∀ tier ∈ (turnStart i).sched.1.tiers, ∀ s, .inl s ∈ tier → s.2.turn = none ∧ s.2.night = -1)
    ∧ (∀ i (st : Obs.St ℚ), (turnCfg (-1 / 4) d i).night ⟨st.mjd, none⟩ = ⌊st.mjd - -1 / 4⌋) ∧ (∀ a ∈ toySite.nights, -1 / 4 ≤ a.1)
    ∧ ChangesByDay { toySite with downs := [] } (-1 / 4) (0 + (15 : ℚ) / 60 / 24 + 103 / 4320) := by
  refine ⟨turn_well _ d, ⟨rfl, ?_⟩, ⟨fun _ _ _ => rfl, fun _ _ => rfl, fun _ _ l o ho => ⟨o, ho, rfl⟩, ?_⟩, fun i => ⟨rfl, rfl⟩, ?_, fun _ _ => rfl, ?_, ?_⟩
  · intro s c g hg i
    obtain ⟨o', -, rfl⟩ := List.mem_map.1 hg
    show "turned" ≠ ""
    decide
  · intro k t o o' h
    have h : some o = some o' := h
    cases h
    rfl
  · intro i tier ht s hs
    have ht : tier ∈ [[.inl (i, { feat := 0 })], [.inr ⟨[.fin 1], [{ targetId := 0, band := "y" }], none⟩]] := ht
    rcases List.mem_cons.1 ht with rfl | ht
    · rw [List.mem_singleton] at hs
      cases hs
      exact ⟨rfl, rfl⟩
    · rw [List.mem_singleton] at ht
      subst ht
      rw [List.mem_singleton] at hs
      cases hs
  · decide +kernel
  · intro k a ha
    have hk : a = (0, 1 / 2) ∨ a = (1, 3 / 2) ∨ a = (2, 5 / 2) := by simpa [toySite] using ha
    have step : ∀ m : ℤ, k ≤ m ∨ m + 1 ≤ k := fun m => by omega
    have up : ∀ m : ℤ, m + 1 ≤ k → (m : ℚ) + 1 ≤ k := fun m h => by exact_mod_cast h
    have down : ∀ m : ℤ, k ≤ m → (k : ℚ) ≤ m := fun m h => by exact_mod_cast h
    rcases hk with rfl | rfl | rfl
    · rcases step 0 with h | h
      · have : (k : ℚ) ≤ 0 := by exact_mod_cast h
        right; norm_num; linarith
      · have := up 0 h; left; norm_num at this ⊢; linarith
    · rcases step 1 with h | h
      · have := down 1 h; right; norm_num at this ⊢; linarith
      · have := up 1 h; left; norm_num at this ⊢; linarith
    · rcases step 2 with h | h
      · have := down 2 h; right; norm_num at this ⊢; linarith
      · have := up 2 h; left; norm_num at this ⊢; linarith

/-- Three blocks of a blob survey asked for in one night, with other calls between them, are on the grids 0 and 1, 2 and 3, 4 and 5 of the night. -/
example : (blocksOf (Mrk.ops (turnCfg 0 .call)) (true, { feat := 0 }) [.gen ⟨2, none⟩, .hear { targetId := 0 }, .reward ⟨2, none⟩, .gen ⟨2, none⟩, .gen ⟨2, none⟩]).map
    (fun b => b.map Obs.dec) = [[20, 21], [22, 23], [24, 25]] := by
  decide +kernel

end Verif
