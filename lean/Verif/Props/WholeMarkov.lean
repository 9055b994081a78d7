import Verif.Model.MarkovSim
import Verif.Model.ScriptedSim
import Verif.Model.Masks
import Verif.Props.WholeSource
import Verif.Props.Blob
import Verif.Props.Reward
import Verif.Props.Masks

/-!
C212: where a simulation lets greedy and blob surveys observe.
-/

namespace Verif

open Sim Whole Rew Blob

variable {C F ι T A K H B : Type}

/-- The bands of a greedy or blob survey. -/
def bandsOf (cfg : Mrk.Cfg C F) : List String :=
  match cfg.pick with
  | .greedy band _ => [band]
  | .blob _ _ _ b1 b2 _ _ _ _ => [b1, b2]

/-- A survey with a map of rewards; the neighbours of pixels are mutual, and ordering fields adds none. -/
structure WellMade (cfg : Mrk.Cfg C F) : Prop where
  kind : ∀ f c, IsMapKind (cfg.kind f c)
  blob : ∀ nb a grow b1 b2 visits block order flush, cfg.pick = .blob nb a grow b1 b2 visits block order flush →
    Mutual nb ∧ ∀ l, ∀ f ∈ order l, f ∈ l
  detail : ∀ c l, ∀ o ∈ cfg.detail c l, ∃ o' ∈ l, (o'.ra, o'.dec, o'.band, o'.schedulerNote) = (o.ra, o.dec, o.band, o.schedulerNote)

/-- The place is that of the field of a pixel, however the tessellation is turned. -/
def PixelField (cfg : Mrk.Cfg C F) (p : ℕ) (place : ℚ × ℚ) : Prop := ∃ t, place = (cfg.tess t).pos ((cfg.tess t).field p)

/-- A value of a map with nan for masked pixels. -/
def masked : Option ℚ → XReal
  | none => .nan
  | some q => .fin q

theorem passRows_mem {tess : ℕ → Mrk.Tess} {note : String} {flush : ℚ} {order : List ℕ → List ℕ} :
    ∀ (ps : List (String × List ℕ)) (i : ℕ) (o : Obs), o ∈ Mrk.passRows tess note flush order i ps →
      ∃ k b fs f, ps[k]? = some (b, fs) ∧ f ∈ order fs ∧ o = Mrk.row (tess (i + k)) b note flush f
  | [], _, _, h => absurd h List.not_mem_nil
  | (b, fs) :: ps, i, o, h => by
    unfold Mrk.passRows at h
    rcases List.mem_append.1 h with h | h
    · obtain ⟨f, hf, rfl⟩ := List.mem_map.1 h
      exact ⟨0, b, fs, f, rfl, hf, rfl⟩
    · obtain ⟨k, b', fs', f, hk, hf, e⟩ := passRows_mem ps (i + 1) o h
      exact ⟨k + 1, b', fs', f, hk, hf, by rw [e, show i + 1 + k = i + (k + 1) by omega]⟩

theorem maskFar_val {a : Area} {m m' : List XReal} (h : maskFar a m = some m') (p : ℕ) (x : XReal) (hp : m'[p]? = some x) (hx : x ≠ .nan) :
    m[p]? = some x := by
  unfold maskFar at h
  rcases hq : peak m with _ | q <;> rw [hq] at h
  · cases h
  · simp only [Option.map_some, Option.some.injEq] at h
    subst h
    rw [List.getElem?_map] at hp
    by_cases hlt : p < m.length
    · rw [List.getElem?_range hlt] at hp
      simp only [Option.map_some, Option.some.injEq] at hp
      split_ifs at hp with hf
      · exact absurd hp.symm hx
      · rw [← hp]
        unfold at'
        rw [List.getD_eq_getElem _ _ hlt, List.getElem?_eq_getElem hlt]
    · rw [List.getElem?_eq_none (by simpa using hlt)] at hp
      cases hp

theorem passFields_mem {nb : ℕ → List ℕ} (hm : Mutual nb) {a : Area} {field : ℕ → ℕ → ℕ} {g : Bool} {n : ℕ} {m : List XReal} {i : ℕ} {fs : List ℕ}
    (h : passFields nb a field g n m i = some fs) : ∀ f ∈ fs, ∃ p x, m[p]? = some x ∧ x ≠ .nan ∧ field i p = f := by
  intro f hf
  unfold passFields at h
  rcases hpm : passMap a m i with _ | m' <;> rw [hpm] at h
  · cases h
  · obtain ⟨p, x, h1, h2, h3⟩ := (C99_fields nb hm (field i) g m' n fs h).2.2.2 f hf
    refine ⟨p, x, ?_, h2, h3⟩
    unfold passMap at hpm
    split_ifs at hpm
    · exact maskFar_val hpm p x h1 h2
    · cases hpm
      exact h1

theorem rough_mem {cfg : Mrk.Cfg C F} (hw : WellMade cfg) {s : Mrk.St F} {c : C} {m : List XReal} {o : Obs} (h : o ∈ (Mrk.rough cfg s c m).1) :
    ∃ p x, m[p]? = some x ∧ x ≠ .nan ∧ o.schedulerNote = cfg.note ∧ o.band ∈ bandsOf cfg ∧ PixelField cfg p (o.ra, o.dec) := by
  unfold Mrk.rough at h
  unfold bandsOf
  have hmu := hw.blob
  rcases hp : cfg.pick with ⟨band, block⟩ | ⟨nb, a, grow, b1, b2, visits, block, order, flush⟩ <;> rw [hp] at h
  · obtain ⟨f, hf, rfl⟩ := List.mem_map.1 h
    obtain ⟨P, -, -, hfin, -, -, hP⟩ := C97_greedy (Mrk.tessOf cfg (Mrk.spin cfg c s)).field m block
    obtain ⟨p, hpP, rfl⟩ := (hP f).1 hf
    obtain ⟨q, hq⟩ := hfin p hpP
    exact ⟨p, .fin q, hq, by simp, rfl, List.mem_singleton.2 rfl, _, rfl⟩
  · obtain ⟨hnb, hord⟩ := hmu _ _ _ _ _ _ _ _ _ hp
    obtain ⟨k, b, fs, f, hk, hf, rfl⟩ := passRows_mem _ _ _ h
    rcases hg : generate nb a (fun i => (Mrk.tessOf cfg (Mrk.spins cfg c (i + 1) s)).field) grow (block c) m b1 b2 visits with _ | ps
    · rw [hg] at hk
      simp at hk
    · rw [hg, Option.getD_some] at hk
      unfold generate at hg
      rcases hpf : passesFrom nb a (fun i => (Mrk.tessOf cfg (Mrk.spins cfg c (i + 1) s)).field) grow (block c) m b1 b2 visits 0 with _ | _ | r <;>
        rw [hpf] at hg
      · cases hg
      · simp only [Option.map_some, Option.getD_none, Option.some.injEq] at hg
        rw [← hg] at hk
        simp at hk
      · simp only [Option.map_some, Option.getD_some, Option.some.injEq] at hg
        subst hg
        obtain ⟨hb, -, hfs⟩ := (passesFrom_spec visits 0 r hpf).2 k b fs hk
        obtain ⟨p, x, h1, h2, h3⟩ := passFields_mem hnb hfs f (hord _ _ hf)
        refine ⟨p, x, h1, h2, rfl, ?_, (Mrk.spins cfg c (0 + k + 1) s).turn, ?_⟩
        · show b ∈ [b1, b2]
          rw [hb]
          split_ifs <;> simp
        · rw [← h3]
          rfl

theorem gen_mem {cfg : Mrk.Cfg C F} (hw : WellMade cfg) {s : Mrk.St F} {c : C} {o : Obs} (h : o ∈ (Mrk.gen cfg s c).1) :
    ∃ p, (∀ b ∈ cfg.basis s.feat c, valueAt p b.1.raw ≠ .nan) ∧ o.schedulerNote = cfg.note ∧ o.band ∈ bandsOf cfg ∧ PixelField cfg p (o.ra, o.dec) := by
  unfold Mrk.gen at h
  rcases hr : reward (cfg.kind s.feat c) (cfg.basis s.feat c) with _ | x | m <;> rw [hr] at h
  · exact absurd h List.not_mem_nil
  · exact absurd h List.not_mem_nil
  · dsimp only at h
    by_cases he : (Mrk.rough cfg s c m).1 = []
    · rw [if_pos he] at h
      exact absurd h List.not_mem_nil
    · rw [if_neg he] at h
      obtain ⟨o', ho', ek⟩ := hw.detail _ _ o h
      obtain ⟨p, x, h1, h2, h3, h4, h5⟩ := rough_mem hw ho'
      simp only [Prod.mk.injEq] at ek
      obtain ⟨e1, e2, e3, e4⟩ := ek
      rw [e4] at h3
      rw [e3] at h4
      rw [e1, e2] at h5
      refine ⟨p, ?_, h3, h4, h5⟩
      intro b hb hn
      obtain ⟨hlt, hx⟩ := List.getElem?_eq_some_iff.1 h1
      have := C95_masked _ _ m p (hw.kind _ _) hr hlt ⟨b, hb, hn⟩
      rw [hx] at this
      exact h2 this

section

variable (S : Obs.Site) (M : Obs.Kin K Obs) (fuel : ℕ) (conds : Obs.St K → C) (mount : K → B → K) (cfgs : ι → Mrk.Cfg C F) (other : SurveyOps C T)

/-- The scheduler has the greedy and blob surveys and others, that do not use their notes. -/
structure MapsBeside (E : Env C ((ι × Mrk.St F) ⊕ T) A) (cfgs : ι → Mrk.Cfg C F) (other : SurveyOps C T) : Prop where
  sv : E.sv = Script.mixed (Mrk.ops cfgs) other
  notes : ∀ s c, ∀ g ∈ (other.gen s c).1, ∀ i, (cfgs i).note ≠ g.schedulerNote

/-- C212: let every basis function value of the surveys mask the bad pixels. Then every visit that a simulation returns with the note of such a survey is in
one of the bands of a survey with that note and at the field of a pixel that was not bad under conditions that the scheduler had been given, not later than
the visit began. Missing: the position of the field may be in a bad pixel itself (`C212_field_violated`), and at the time of the visit the pixel may have
become bad (`C212_later_violated`). -/
theorem C212_unmasked_partial (hn : Obs.Nights S.nights) (hd : Down.Ordered S.downs) (hM : Obs.NonNeg M) (hw : ∀ i, WellMade (cfgs i))
    (E : Env C ((ι × Mrk.St F) ⊕ T) A) (hE : MapsBeside E cfgs other)
    (hkey : KeptColumns E M (fun o => (o.ra, o.dec, o.band, o.schedulerNote)))
    (X : Rest H C B) (hX : ∀ h v, 0 ≤ (X.overhead h v).2)
    (cfg : Sim.Cfg) (hstep : 0 ≤ cfg.stepNone) (h1 : 0 < cfg.startSize) (h2 : 0 < cfg.appendSize) (n : ℕ)
    (w : World (Core C ((ι × Mrk.St F) ⊕ T) A × H) K)
    (hc : w.sched.1.conditions = none) (hq : w.sched.1.qm.desired = [])
    (Bad : ι → C → ℕ → Prop) (hbad : ∀ i f c p, Bad i c p → ∃ b ∈ (cfgs i).basis f c, valueAt p b.1.raw = .nan) :
    ∃ vs : List (Obs.Visit Obs), (Sim.run (V := Obs.Visit Obs) (env S M fuel conds mount (coreSched E X)) cfg n w).st.result = vs.map some
      ∧ ∀ v ∈ vs, (∃ i, (cfgs i).note = v.target.schedulerNote) → ∃ st : Obs.St K, st.mjd ≤ v.mjd - v.slewtime / 24 / 3600
        ∧ .update st.mjd (conds st) ∈ (Sim.run (V := Obs.Visit Obs) (env S M fuel conds mount (coreSched E X)).recorded cfg n (w, [])).st.w.2
        ∧ ∃ i p, (cfgs i).note = v.target.schedulerNote ∧ v.target.band ∈ bandsOf (cfgs i) ∧ ¬ Bad i (conds st) p
          ∧ PixelField (cfgs i) p (v.target.ra, v.target.dec) := by
  obtain ⟨vs, hr, hv⟩ := C208_rule S hn hd M hM fuel conds mount E _ hkey X hX cfg hstep h1 h2 n w hc hq
    (fun c k => (∃ i, (cfgs i).note = k.2.2.2) → ∃ i p, (cfgs i).note = k.2.2.2 ∧ k.2.2.1 ∈ bandsOf (cfgs i) ∧ ¬ Bad i c p ∧ PixelField (cfgs i) p (k.1, k.2.1))
    (by
      intro sv c r _ _ g hg hi
      rw [hE.sv] at hg
      rcases sv with ⟨i, s⟩ | s
      · obtain ⟨p, hp, hnote, hband, hf⟩ := gen_mem (hw i) hg
        refine ⟨i, p, hnote.symm, hband, ?_, hf⟩
        intro hb
        obtain ⟨b, hbm, hbn⟩ := hbad i s.feat c p hb
        exact hp b hbm hbn
      · obtain ⟨i, hi⟩ := hi
        exact absurd hi (hE.notes _ c g hg i))
  refine ⟨vs, hr, ?_⟩
  intro v hvm hi
  obtain ⟨st, a, b, hrule⟩ := hv v hvm
  exact ⟨st, a, b, hrule hi⟩

/-- C212 for the moon: if surveys have the basis function that hides pixels near the moon, their visits are at fields of pixels that were not nearer to it than
the limit, under conditions given before (for distances that are not within the tolerance of the limit). -/
theorem C212_moon_partial (hn : Obs.Nights S.nights) (hd : Down.Ordered S.downs) (hM : Obs.NonNeg M) (hw : ∀ i, WellMade (cfgs i))
    (E : Env C ((ι × Mrk.St F) ⊕ T) A) (hE : MapsBeside E cfgs other)
    (hkey : KeptColumns E M (fun o => (o.ra, o.dec, o.band, o.schedulerNote)))
    (X : Rest H C B) (hX : ∀ h v, 0 ≤ (X.overhead h v).2)
    (cfg : Sim.Cfg) (hstep : 0 ≤ cfg.stepNone) (h1 : 0 < cfg.startSize) (h2 : 0 < cfg.appendSize) (n : ℕ)
    (w : World (Core C ((ι × Mrk.St F) ⊕ T) A × H) K)
    (hc : w.sched.1.conditions = none) (hq : w.sched.1.qm.desired = [])
    (rad limit : ℚ) (dist : C → List ℚ)
    (hmoon : ∀ i f c, ∃ b ∈ (cfgs i).basis f c, b.1.raw = .map ((Mask.moonAvoid rad limit (dist c)).map masked)) :
    ∃ vs : List (Obs.Visit Obs), (Sim.run (V := Obs.Visit Obs) (env S M fuel conds mount (coreSched E X)) cfg n w).st.result = vs.map some
      ∧ ∀ v ∈ vs, (∃ i, (cfgs i).note = v.target.schedulerNote) → ∃ st : Obs.St K, st.mjd ≤ v.mjd - v.slewtime / 24 / 3600
        ∧ (ClearOf (limit * rad) (dist (conds st)) → ∃ i p d, (cfgs i).note = v.target.schedulerNote ∧ (dist (conds st))[p]? = some d ∧ limit * rad ≤ d
          ∧ PixelField (cfgs i) p (v.target.ra, v.target.dec)) := by
  obtain ⟨vs, hr, hv⟩ := C212_unmasked_partial S M fuel conds mount cfgs other hn hd hM hw E hE hkey X hX cfg hstep h1 h2 n w hc hq
    (fun _ c p => ClearOf (limit * rad) (dist c) ∧ ∀ d, (dist c)[p]? = some d → d < limit * rad) (by
      rintro i f c p ⟨hcl, hb⟩
      obtain ⟨b, hbm, hraw⟩ := hmoon i f c
      refine ⟨b, hbm, ?_⟩
      rw [hraw, (C93_tolerant_partial rad limit 0 none (dist c) hcl (Or.inl (zero_mul _))).2.2]
      show List.getD _ p _ = _
      rcases hp : (dist c)[p]? with _ | d
      · simp [hp]
      · simp [hp, hb d hp, masked])
  refine ⟨vs, hr, ?_⟩
  intro v hvm hi
  obtain ⟨st, a, -, i, p, hnote, -, hnb, hf⟩ := hv v hvm hi
  refine ⟨st, a, ?_⟩
  intro hcl
  by_contra hcon
  apply hnb
  refine ⟨hcl, ?_⟩
  intro d hd
  by_contra hge
  exact hcon ⟨i, p, d, hnote, hd, not_lt.1 hge, hf⟩

end

/-! ### Examples -/

/-- Distances of four pixels from the moon, which soon comes near the last two. -/
def moonWay (c : ToyC) : List ℚ := if c.mjd < 1 / 50 then [20, 40, 60, 40] else [20, 40, 10, 10]

/-- A greedy survey that stays 30 degrees from the moon. Pixels 0 and 1 are in field 0, with its centre in pixel 0, pixels 2 and 3 in field 1. -/
def moonCfg (order : List ℕ → List ℕ) (blob : Bool) : Mrk.Cfg ToyC Unit where
  basis _ c := [(⟨true, .map ((Mask.moonAvoid 1 30 (moonWay c)).map masked)⟩, 1)]
  kind _ _ := .markov ⟨none, 1, 1, fun _ _ => 0, 0, false⟩ none
  tess _ := ⟨fun p => p / 2, fun f => (f, 0)⟩
  dither := .night
  night _ := 5
  pick := if blob then .blob (fun p => if p % 2 = 0 then [p + 1] else [p - 1]) ⟨none, 1, 1, fun i j => if i = j then 0 else 1, 5, true⟩ false "r" "i" 2
    (fun _ => 2) order (fun c => c.mjd + 1) else .greedy "r" 4
  note := "greedy"
  hear f _ := f
  hearAll f _ := f
  detail _ l := l

def moonEnv : Env ToyC ((Bool × Mrk.St Unit) ⊕ ToySv) Unit where
  q := toyE.q
  sv := Script.mixed (Mrk.ops (moonCfg List.reverse)) { toyE.sv with gen := fun s _ => (s.visits.map fun o => { o with schedulerNote := "" }, s) }
  toos := toyE.toos

def moonStart (blob : Bool) : World (Core ToyC ((Bool × Mrk.St Unit) ⊕ ToySv) Unit × Unit) ℚ :=
  ⟨⟨0, 0, 40⟩, (Core.init () [[.inl (blob, { feat := () })], [.inr ⟨[.fin 1], [{ targetId := 0, band := "y" }], none⟩]] 5 true [], ()), false⟩

/-- Begin, place, band and note of the visits of a simulation. -/
def moonMade (blob : Bool) : List (Option (Bool × ℚ × String × String)) :=
  (Sim.run (V := Obs.Visit Obs) (env toySite wholeKin 20 (fun s => ⟨s.mjd, none⟩) (fun k _ => k) (coreSched moonEnv wholeRest))
    { duration := 1 / 10, startSize := 2, appendSize := 2 } 30 (moonStart blob)).st.result.map
    fun r => r.map fun v => (decide (v.mjd < 1 / 50), v.target.ra, v.target.band, v.target.schedulerNote)

/-- C212 is violated for the place of a visit itself: pixel 0 is always too near to the moon, and the first visit is at the centre of the field of pixel 1, which is in
pixel 0. -/
theorem C212_field_violated : (∀ c, (Mask.moonAvoid 1 30 (moonWay c))[0]? = some none)
    ∧ (moonMade false)[0]? = some (some (true, 0, "r", "greedy")) ∧ toyE.q.hpid 4 0 0 = 0 := by
  refine ⟨?_, by decide +kernel, rfl⟩
  intro c
  unfold moonWay
  split_ifs <;> decide +kernel

/-- C212 is violated at the time of a visit: from a fiftieth of a day on, both pixels of field 1 are too near to the moon, and the second visit, of the block decided before,
is at this field all the same. -/
theorem C212_later_violated : (∀ t : ℚ, 1 / 50 ≤ t → Mask.moonAvoid 1 30 (moonWay ⟨t, none⟩) = [none, some 1, none, none])
    ∧ (moonMade false)[1]? = some (some (false, 1, "r", "greedy")) ∧ ∀ p < 4, ((moonCfg List.reverse false).tess (some (5, 0))).pos (((moonCfg List.reverse false).tess (some (5, 0))).field p) = (1, 0)
      → p = 2 ∨ p = 3 := by
  refine ⟨?_, by decide +kernel, ?_⟩
  · intro t ht
    unfold moonWay
    rw [if_neg (not_lt.2 ht)]
    decide +kernel
  · decide +kernel

/-- A blob survey of two passes: the fields in the first band, then in the second. -/
example : (moonMade true).take 4 = [some (true, 0, "r", "greedy"), some (false, 1, "r", "greedy"), some (false, 0, "i", "greedy"), some (false, 1, "i", "greedy")] := by
  decide +kernel

/-- The assumptions of C212 are met by these simulations. -/
example : (∀ i, WellMade (moonCfg List.reverse i))
    ∧ MapsBeside moonEnv (moonCfg List.reverse) { toyE.sv with gen := fun s _ => (s.visits.map fun o => { o with schedulerNote := "" }, s) }
    ∧ KeptColumns moonEnv wholeKin (fun o => (o.ra, o.dec, o.band, o.schedulerNote))
    ∧ (∀ i f c, ∃ b ∈ (moonCfg List.reverse i).basis f c, b.1.raw = .map ((Mask.moonAvoid 1 30 (moonWay c)).map masked))
    ∧ (∀ c, ClearOf (30 * 1) (moonWay c))
    ∧ ∀ i, (moonStart i).sched.1.conditions = none ∧ (moonStart i).sched.1.qm.desired = [] := by
  refine ⟨?_, ⟨rfl, ?_⟩, ⟨fun _ _ _ => rfl, fun _ _ => rfl, fun _ _ l o ho => ⟨o, ho, rfl⟩, ?_⟩, ?_, ?_, fun i => ⟨rfl, rfl⟩⟩
  · intro i
    refine ⟨fun _ _ => trivial, ?_, fun _ l o ho => ⟨o, ho, rfl⟩⟩
    intro nb a grow b1 b2 visits block order flush h
    rcases i with _ | _
    · simp [moonCfg] at h
    · simp only [moonCfg, if_true, Mrk.Pick.blob.injEq] at h
      obtain ⟨rfl, -, -, -, -, -, -, rfl, -⟩ := h
      refine ⟨?_, fun l f hf => List.mem_reverse.1 hf⟩
      intro p q hq
      dsimp only at hq ⊢
      split_ifs at hq with hp
      · rw [List.mem_singleton] at hq
        rw [if_neg (by omega)]
        simp; omega
      · rw [List.mem_singleton] at hq
        rw [if_pos (by omega)]
        simp; omega
  · intro s c g hg i
    obtain ⟨o', -, rfl⟩ := List.mem_map.1 hg
    show "greedy" ≠ ""
    decide
  · intro k t o o' h
    have h : some o = some o' := h
    cases h
    rfl
  · intro i f c
    exact ⟨_, List.mem_singleton.2 rfl, rfl⟩
  · intro c
    unfold moonWay
    split_ifs <;> (right; intro x hx; simp only [List.mem_cons, List.not_mem_nil, or_false] at hx; rcases hx with rfl | rfl | rfl | rfl <;> (unfold Feat.Clear; decide +kernel))

end Verif
