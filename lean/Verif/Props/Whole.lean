import Verif.Model.Whole
import Verif.Lemmas.SimKeeps
import Verif.Props.SimRunner
import Verif.Props.Observatory
import Verif.Props.Core
import Verif.Props.Kinem

/-!
Properties C183-C185: whole simulations, of the loop with the simulated observatory and a scheduler.
-/

namespace Verif

open Whole

section
variable {U K O C B : Type}

/-- Unexpected overheads are not negative. -/
def FairOverhead (D : Sched U O C B) : Prop := ∀ u v, 0 ≤ (D.overhead u v).2

/-- The simulated observatory keeps the clock contract that the theorems on simulations (C19, C20, C62-C64) ask for. -/
theorem whole_contract (S : Obs.Site) (hn : Obs.Nights S.nights) (hd : Down.Ordered S.downs) (M : Obs.Kin K O) (hM : Obs.NonNeg M) (fuel : ℕ)
    (conds : Obs.St K → C) (mount : K → B → K) (D : Sched U O C B) (hD : FairOverhead D) : Sim.Contract (env S M fuel conds mount D) where
  set _ _ := rfl
  conds _ := rfl
  check _ _ := rfl
  update _ _ := rfl
  request w x := by
    show (requestOf D w x).1.obs.mjd = w.obs.mjd
    unfold requestOf
    split <;> rfl
  observe w v := by
    show w.obs.mjd ≤ (observeOf S M fuel w v).1.obs.mjd
    unfold observeOf
    split
    · exact le_rfl
    · rename_i s r nn h
      exact Obs.observe_forward hn hd hM h
  overhead w v := ⟨rfl, hD _ _⟩
  add _ _ := rfl
  bandAdd _ _ := rfl
  flush _ := rfl
  bands _ _ := rfl
  mount _ _ := rfl

/-- When the telescope began to move to a visit, and when the visit was over (times in seconds turned into days). -/
def slewStart (v : Obs.Visit O) : ℚ := v.mjd - v.slewtime / 24 / 3600
def visitEnd (v : Obs.Visit O) : ℚ := v.mjd + v.visittime / 24 / 3600

theorem observe_some {S : Obs.Site} (hn : Obs.Nights S.nights) (hd : Down.Ordered S.downs) {M : Obs.Kin K O} (hM : Obs.NonNeg M) {fuel : ℕ}
    {s s' : Obs.St K} {o : O} {v : Obs.Visit O} {nn : Bool} (h : Obs.observe S M fuel s o = .ok (s', some v, nn)) :
    slewStart v = s.mjd ∧ visitEnd v = s'.mjd ∧ s.mjd ≤ s'.mjd ∧ v.ID = s.nextId ∧ s'.nextId = s.nextId + 1 ∧ Obs.Open S (visitEnd v)
    ∧ v.night = ⌊v.mjd - S.mjdStart⌋ ∧ (0 ≤ v.slewtime ∧ 0 ≤ v.visittime) ∧ ∃ k, M.prepare k s.mjd o = some v.target := by
  have hf := Obs.observe_forward hn hd hM h
  rcases Obs.observe_cases h with ⟨h1, -⟩ | ⟨k, o', slew, hp, -, hsl, h4⟩
  · cases h1
  · rcases h4 with ⟨x, hx, hv, h9, h10, -⟩ | ⟨-, h9, -⟩
    · cases hv
      have ho := ((Obs.check_spec hn hd fuel).1 _ _ _ hx).1 rfl
      have he : visitEnd (⟨o', s.mjd + slew / 24 / 3600, ⌊s.mjd + slew / 24 / 3600 - S.mjdStart⌋, s.nextId, slew,
          (M.observe k o' s.mjd).2.2⟩ : Obs.Visit O) = s.mjd + (slew + (M.observe k o' s.mjd).2.2) / 24 / 3600 := by
        unfold visitEnd; dsimp only; ring
      refine ⟨by unfold slewStart; dsimp only; ring, by rw [he, h9], hf, rfl, h10, by rw [he]; exact ho.2, rfl, ⟨(hM _ _ _).1 _ (by rw [hsl]; rfl), (hM _ _ _).2⟩, _, hp⟩
    · cases h9

theorem observe_none {S : Obs.Site} {M : Obs.Kin K O} {fuel : ℕ}
    {s s' : Obs.St K} {o : O} {nn : Bool} (h : Obs.observe S M fuel s o = .ok (s', none, nn)) : s'.nextId = s.nextId := by
  rcases Obs.observe_cases h with ⟨_, _, h3, _⟩ | ⟨k, o', slew, -, -, -, h4⟩
  · exact h3
  · rcases h4 with ⟨x, -, hv, -⟩ | ⟨-, -, h9, -⟩
    · cases hv
    · exact h9

/-- What is true of the record of a simulation that began at `t0` with the next ID `id0`. -/
structure Sound (S : Obs.Site) (t0 : ℚ) (id0 : ℕ) (p : World U K × List (Sim.Ev (Obs.Visit O) C B)) : Prop where
  apart : (Sim.completedOf p.2).Pairwise fun a b => visitEnd a ≤ slewStart b
  ids : (Sim.completedOf p.2).map Obs.Visit.ID = List.range' id0 (Sim.completedOf p.2).length
  next : p.1.obs.nextId = id0 + (Sim.completedOf p.2).length
  begun : t0 ≤ p.1.obs.mjd
  each : ∀ v ∈ Sim.completedOf p.2, t0 ≤ slewStart v ∧ visitEnd v ≤ p.1.obs.mjd ∧ Obs.Open S (visitEnd v) ∧ v.night = ⌊v.mjd - S.mjdStart⌋
    ∧ (0 ≤ v.slewtime ∧ 0 ≤ v.visittime) ∧ ∃ q ∈ Sim.requestsOf p.2, q.1 = slewStart v

theorem Sound.on {S : Obs.Site} {t0 : ℚ} {id0 : ℕ} {p q : World U K × List (Sim.Ev (Obs.Visit O) C B)} (h : Sound S t0 id0 p)
    (hc : Sim.completedOf q.2 = Sim.completedOf p.2) (hm : p.1.obs.mjd ≤ q.1.obs.mjd) (hi : q.1.obs.nextId = p.1.obs.nextId)
    (hr : ∀ r ∈ Sim.requestsOf p.2, r ∈ Sim.requestsOf q.2) : Sound S t0 id0 q := by
  refine ⟨by rw [hc]; exact h.apart, by rw [hc]; exact h.ids, by rw [hc, hi]; exact h.next, h.begun.trans hm, ?_⟩
  intro v hv
  rw [hc] at hv
  obtain ⟨a, b, c, d, z, r, hr', e⟩ := h.each v hv
  exact ⟨a, b.trans hm, c, d, z, r, hr r hr', e⟩

theorem requestsOf_append (l k : List (Sim.Ev (Obs.Visit O) C B)) : Sim.requestsOf (l ++ k) = Sim.requestsOf l ++ Sim.requestsOf k := by
  simp [Sim.requestsOf]

theorem Sound.one {S : Obs.Site} {t0 : ℚ} {id0 : ℕ} {p q : World U K × List (Sim.Ev (Obs.Visit O) C B)} (h : Sound S t0 id0 p)
    {e : Sim.Ev (Obs.Visit O) C B} (he : q.2 = p.2 ++ [e]) (hc : Sim.completedOf [e] = []) (hm : p.1.obs.mjd ≤ q.1.obs.mjd)
    (hi : q.1.obs.nextId = p.1.obs.nextId) : Sound S t0 id0 q := by
  refine h.on ?_ hm hi ?_
  · rw [he, Sim.completedOf_append, hc, List.append_nil]
  · intro r hr
    rw [he, requestsOf_append]
    exact List.mem_append_left _ hr

theorem sound_keeps (S : Obs.Site) (hn : Obs.Nights S.nights) (hd : Down.Ordered S.downs) (M : Obs.Kin K O) (hM : Obs.NonNeg M) (fuel : ℕ)
    (conds : Obs.St K → C) (mount : K → B → K) (D : Sched U O C B) (cfg : Sim.Cfg) (t0 : ℚ) (id0 : ℕ) :
    Sim.Keeps (env S M fuel conds mount D).recorded cfg (Sound S t0 id0) (Sound S t0 id0)
      (fun _ p => Sound S t0 id0 p ∧ ∃ q ∈ Sim.requestsOf p.2, q.1 = p.1.obs.mjd) (fun _ => Sound S t0 id0) := by
  have hconds : ∀ w, Sound S t0 id0 w → Sound S t0 id0 ((env S M fuel conds mount D).recorded.conds w).1 := fun w h => h.one rfl rfl le_rfl rfl
  have hcheck : ∀ w x, Sound S t0 id0 w → Sound S t0 id0 ((env S M fuel conds mount D).recorded.check w x).1 := fun w x h => h.one rfl rfl le_rfl rfl
  have hupdate : ∀ w c, Sound S t0 id0 w → Sound S t0 id0 ((env S M fuel conds mount D).recorded.update w c) := fun w c h => h.one rfl rfl le_rfl rfl
  have hreq : ∀ (w : World U K) x, (requestOf D w x).1.obs = w.obs := by
    intro w x
    unfold requestOf
    split <;> rfl
  have hset : ∀ w x, Sound S t0 id0 w → w.1.obs.mjd ≤ x → Sound S t0 id0 ((env S M fuel conds mount D).recorded.setClock w x) :=
    fun w x h hx => h.one rfl rfl hx rfl
  refine ⟨hconds, hcheck, hupdate, hset, fun w v h => h.one rfl rfl le_rfl rfl, fun w h => h.one rfl rfl le_rfl rfl,
    fun w c h => h.one rfl rfl le_rfl rfl, fun w b h => h.one rfl rfl le_rfl rfl, fun w h => Sim.refresh_keeps hconds hcheck hupdate w h,
    ?_, ?_, ?_, ?_, fun w v h => h.one rfl rfl le_rfl rfl, fun w v x h hx => hset w x h hx, fun w v h => h.one rfl rfl le_rfl rfl⟩
  · rintro w u h hr
    have hu : u = ((requestOf D w.1 w.1.obs.mjd).1, w.2 ++ [.request w.1.obs.mjd w.1.obs.mjd (requestOf D w.1 w.1.obs.mjd).2]) := (congrArg Prod.fst hr).symm
    subst hu
    exact h.one rfl rfl (by rw [hreq]) (by rw [hreq])
  · rintro w u v h hr
    have hu : u = ((requestOf D w.1 w.1.obs.mjd).1, w.2 ++ [.request w.1.obs.mjd w.1.obs.mjd (requestOf D w.1 w.1.obs.mjd).2]) := (congrArg Prod.fst hr).symm
    subst hu
    refine ⟨h.one rfl rfl (by rw [hreq]) (by rw [hreq]), (w.1.obs.mjd, w.1.obs.mjd), ?_, by rw [hreq]⟩
    rw [requestsOf_append]
    exact List.mem_append_right _ (List.mem_singleton.2 rfl)
  · rintro w v x nn ⟨h, -⟩ ho
    have hx : x = ((observeOf S M fuel w.1 v).1, w.2 ++ [.observe w.1.obs.mjd v (observeOf S M fuel w.1 v).1.obs.mjd
      (observeOf S M fuel w.1 v).2.1 (observeOf S M fuel w.1 v).2.2]) := (congrArg Prod.fst ho).symm
    have hv : (observeOf S M fuel w.1 v).2.1 = none := congrArg (fun z => z.2.1) ho
    subst hx
    rw [hv]
    unfold observeOf at hv ⊢
    cases hob : Obs.observe S M fuel w.1.obs v.target with
    | error e => exact h.one rfl rfl le_rfl rfl
    | ok r =>
      obtain ⟨s', r, nn'⟩ := r
      rw [hob] at hv
      dsimp only at hv
      subst hv
      exact h.one rfl rfl (Obs.observe_forward hn hd hM hob) (observe_none hob)
  · rintro w v x v' nn ⟨h, q, hq, hqt⟩ ho
    have hx : x = ((observeOf S M fuel w.1 v).1, w.2 ++ [.observe w.1.obs.mjd v (observeOf S M fuel w.1 v).1.obs.mjd
      (observeOf S M fuel w.1 v).2.1 (observeOf S M fuel w.1 v).2.2]) := (congrArg Prod.fst ho).symm
    have hv : (observeOf S M fuel w.1 v).2.1 = some v' := congrArg (fun z => z.2.1) ho
    subst hx
    rw [hv]
    unfold observeOf at hv ⊢
    cases hob : Obs.observe S M fuel w.1.obs v.target with
    | error e => rw [hob] at hv; cases hv
    | ok r =>
      obtain ⟨s', r, nn'⟩ := r
      rw [hob] at hv
      dsimp only at hv
      subst hv
      obtain ⟨h1, h2, h3, h4, h5, h6, h7, h8, -⟩ := observe_some hn hd hM hob
      have hc : ∀ z : List (Sim.Ev (Obs.Visit O) C B), Sim.completedOf (z ++ [.observe w.1.obs.mjd v s'.mjd (some v') nn']) = Sim.completedOf z ++ [v'] := by
        intro z; rw [Sim.completedOf_append]; rfl
      refine ⟨?_, ?_, ?_, h.begun.trans h3, ?_⟩
      · show (Sim.completedOf (w.2 ++ [.observe w.1.obs.mjd v s'.mjd (some v') nn'])).Pairwise _
        rw [hc, List.pairwise_append]
        refine ⟨h.apart, List.pairwise_singleton _ _, ?_⟩
        intro a ha b hb
        rw [List.mem_singleton] at hb
        subst hb
        rw [h1]
        exact (h.each a ha).2.1
      · show (Sim.completedOf (w.2 ++ [.observe w.1.obs.mjd v s'.mjd (some v') nn'])).map _ = List.range' id0 (Sim.completedOf (w.2 ++ [.observe w.1.obs.mjd v s'.mjd (some v') nn'])).length
        rw [hc, List.map_append, List.length_append, h.ids, List.length_singleton, List.range'_concat]
        simp [h4, h.next]
      · show s'.nextId = id0 + (Sim.completedOf (w.2 ++ [.observe w.1.obs.mjd v s'.mjd (some v') nn'])).length
        rw [hc, h5, h.next, List.length_append]
        rfl
      · intro a ha
        have ha : a ∈ Sim.completedOf (w.2 ++ [.observe w.1.obs.mjd v s'.mjd (some v') nn']) := ha
        rw [hc] at ha
        show t0 ≤ slewStart a ∧ visitEnd a ≤ s'.mjd ∧ Obs.Open S (visitEnd a) ∧ a.night = ⌊a.mjd - S.mjdStart⌋
          ∧ (0 ≤ a.slewtime ∧ 0 ≤ a.visittime) ∧ ∃ q ∈ Sim.requestsOf (w.2 ++ [.observe w.1.obs.mjd v s'.mjd (some v') nn']), q.1 = slewStart a
        rcases List.mem_append.1 ha with ha | ha
        · obtain ⟨a1, a2, a3, a4, a5, r, hr, e⟩ := h.each a ha
          exact ⟨a1, a2.trans h3, a3, a4, a5, r, by rw [requestsOf_append]; exact List.mem_append_left _ hr, e⟩
        · rw [List.mem_singleton] at ha
          subst ha
          exact ⟨by rw [h1]; exact h.begun, h2.le, h6, h7, h8, q, by rw [requestsOf_append]; exact List.mem_append_left _ hq, by rw [h1, hqt]⟩

/-- What the record says about the result of a simulation. -/
theorem recorded_result {W V C B : Type} (E : Sim.Env W V C B) (cfg : Sim.Cfg) (h1 : 0 < cfg.startSize) (h2 : 0 < cfg.appendSize) (n : ℕ) (w : W) :
    (Sim.run (V := V) E cfg n w).st.result = (Sim.completedOf (Sim.run (V := V) E.recorded cfg n (w, [])).st.w.2).map some
    ∧ (Sim.run (V := V) E cfg n w).st.w = (Sim.run (V := V) E.recorded cfg n (w, [])).st.w.1
    ∧ Sim.toldOf (Sim.run (V := V) E.recorded cfg n (w, [])).st.w.2 = Sim.completedOf (Sim.run (V := V) E.recorded cfg n (w, [])).st.w.2 := by
  have hl := C17_log_exact E cfg n w
  have hno := C17_no_index_error E cfg h1 h2 n w
  rw [← Sim.recording_is_faithful E cfg n w] at hno ⊢
  cases hr : Sim.run (V := V) E.recorded cfg n (w, []) with
  | indexError s => rw [hr] at hno; exact absurd rfl (hno _)
  | finished s => rw [hr] at hl; exact ⟨hl.1, rfl, hl.2.1⟩
  | gaveUp s => rw [hr] at hl; exact ⟨hl.1, rfl, hl.2.1⟩
  | running s => rw [hr] at hl; exact ⟨hl.1, rfl, hl.2.1⟩

/-- C183: the visits returned by a simulation, with any scheduler, are what a night of observing can give: from the start of the simulation on,
the telescope begins to move to a visit only when the visit before is over, never after the end of the simulation, every visit ends when the
observatory is open, and the visits have the night of their time and IDs that count on. -/
theorem C183_visits (S : Obs.Site) (hn : Obs.Nights S.nights) (hd : Down.Ordered S.downs) (M : Obs.Kin K O) (hM : Obs.NonNeg M) (fuel : ℕ)
    (conds : Obs.St K → C) (mount : K → B → K) (D : Sched U O C B) (hD : FairOverhead D)
    (cfg : Sim.Cfg) (hstep : 0 ≤ cfg.stepNone) (h1 : 0 < cfg.startSize) (h2 : 0 < cfg.appendSize) (n : ℕ) (w : World U K) :
    let s := (Sim.run (V := Obs.Visit O) (env S M fuel conds mount D) cfg n w).st
    let t0 := cfg.simStart.getD w.obs.mjd
    ∃ vs : List (Obs.Visit O), s.result = vs.map some
      ∧ vs.Pairwise (fun a b => a.mjd + a.visittime / 24 / 3600 ≤ b.mjd - b.slewtime / 24 / 3600)
      ∧ vs.map Obs.Visit.ID = List.range' w.obs.nextId vs.length
      ∧ ∀ v ∈ vs, t0 ≤ v.mjd - v.slewtime / 24 / 3600 ∧ v.mjd - v.slewtime / 24 / 3600 ≤ t0 + cfg.duration
        ∧ v.mjd + v.visittime / 24 / 3600 ≤ s.w.obs.mjd ∧ Obs.Open S (v.mjd + v.visittime / 24 / 3600) ∧ v.night = ⌊v.mjd - S.mjdStart⌋
        ∧ 0 ≤ v.slewtime ∧ 0 ≤ v.visittime := by
  have Kc := whole_contract S hn hd M hM fuel conds mount D hD
  obtain ⟨hres, hw, -⟩ := recorded_result (env S M fuel conds mount D) cfg h1 h2 n w
  have key : Sound S (cfg.simStart.getD w.obs.mjd) w.obs.nextId
      (Sim.run (V := Obs.Visit O) (env S M fuel conds mount D).recorded cfg n (w, [])).st.w := by
    refine Sim.run_keeps (Sim.recorded_contract Kc) hstep (sound_keeps S hn hd M hM fuel conds mount D cfg _ _) n (w, []) ?_ ?_
    · intro hs
      rw [hs]
      exact ⟨List.Pairwise.nil, rfl, rfl, le_rfl, fun v hv => absurd hv List.not_mem_nil⟩
    · intro m hs
      rw [hs]
      exact ⟨List.Pairwise.nil, rfl, rfl, le_rfl, fun v hv => absurd hv List.not_mem_nil⟩
  have htime := (C19_time_forward (env S M fuel conds mount D) Kc cfg hstep n w).2.2.1
  refine ⟨_, hres, key.apart, key.ids, ?_⟩
  intro v hv
  obtain ⟨a, b, c, d, z, q, hq, e⟩ := key.each v hv
  refine ⟨a, ?_, ?_, c, d, z⟩
  · have := (htime q hq).2
    rw [e] at this
    exact this
  · rw [hw]
    exact b

/-- C183: a simulation ends, if no visit is shorter than `δ` seconds and the step is more than 0: after so many passes through the loop it has
returned or raised. -/
theorem C183_ends (S : Obs.Site) (hn : Obs.Nights S.nights) (hd : Down.Ordered S.downs) (M : Obs.Kin K O) (hM : Obs.NonNeg M) (fuel : ℕ)
    (conds : Obs.St K → C) (mount : K → B → K) (D : Sched U O C B) (hD : FairOverhead D)
    (δ : ℚ) (hδ : 0 < δ) (hlong : ∀ k o t, δ ≤ (M.observe k o t).2.2)
    (cfg : Sim.Cfg) (hstep : 0 < cfg.stepNone) (w : World U K) (n : ℕ)
    (hfuel : 2 * ⌈cfg.duration / min (δ / 24 / 3600) (cfg.stepNone / 60 / 24) + 1⌉₊ + 1 ≤ n) :
    ∀ s, Sim.run (V := Obs.Visit O) (env S M fuel conds mount D) cfg n w ≠ .running s := by
  refine C62_simulation_ends _ (whole_contract S hn hd M hM fuel conds mount D hD) cfg (δ / 24 / 3600) (by positivity) hstep ?_ w n hfuel
  intro w v
  show w.obs.mjd + δ / 24 / 3600 ≤ (observeOf S M fuel w v).1.obs.mjd ∨ ((observeOf S M fuel w v).2.1 = none ∧ (observeOf S M fuel w v).1.obs.mjd = w.obs.mjd)
  unfold observeOf
  cases hob : Obs.observe S M fuel w.obs v.target with
  | error e => exact .inr ⟨rfl, rfl⟩
  | ok r =>
    obtain ⟨s', r, nn⟩ := r
    exact C62_observatory_progress S hn hd M hM δ hlong fuel _ _ _ _ _ hob

end

/-! ### The core scheduler in a simulation -/

section
variable {C Sv A H B K : Type}

/-- What the observatory does to a visit before it observes does not change its target id and its expiry time. -/
def KeepsTarget (M : Obs.Kin K Obs) : Prop := ∀ k t o o', M.prepare k t o = some o' → o'.targetId = o.targetId ∧ o'.flushBy = o.flushBy

theorem add_done (E : Env C Sv A) (s : Core C Sv A) (ha : s.qm.Aligned) (o : Obs) : Core.Done o.targetId (s.addObs E o).1 := by
  have hb : (backfillBand o).targetId = o.targetId := by unfold backfillBand; split <;> rfl
  refine ⟨?_, Core.qaddObs_aligned _ _ _ ha, ?_⟩
  · show o.targetId < Core.bump s.counter (backfillBand o).targetId
    rw [hb]; exact (Core.bump_ge _ _).2
  · show ∀ p ∈ rows (s.qm.addObs E.q (backfillBand o)), _
    rw [(C10_refines E.q s.qm ha).2.2.2.2.1]
    intro p hp hid
    obtain ⟨r, hr, rfl⟩ := List.mem_map.mp hp
    by_cases hr' : r.1.targetId = (backfillBand o).targetId
    · simp [hr']
    · rw [if_neg hr'] at hid; rw [hb] at hr'; exact absurd hid hr'

/-- The scheduler's queue is in order, and no visit it was told of is told twice or can be handed out again. -/
structure OnceOnly (p : World (Core C Sv A × H) K × List (Sim.Ev (Obs.Visit Obs) C B)) : Prop where
  aligned : p.1.sched.1.qm.Aligned
  nodup : ((Sim.toldOf p.2).map fun v => v.target.targetId).Nodup
  done : ∀ v ∈ Sim.toldOf p.2, Core.Done v.target.targetId p.1.sched.1

theorem OnceOnly.step {E : Env C Sv A} (hdet : Core.DetKeepsIds E.q) {p q : World (Core C Sv A × H) K × List (Sim.Ev (Obs.Visit Obs) C B)}
    (h : OnceOnly p) (ht : Sim.toldOf q.2 = Sim.toldOf p.2) {op : Core.Op C} {out : Option (List Obs)} {ev : List Ev}
    (hs : p.1.sched.1.step E op = .ok (q.1.sched.1, out, ev)) (h1 : ∀ n, op ≠ .setCounter n) (h2 : ∀ l, op ≠ .append l) : OnceOnly q := by
  refine ⟨Core.step_aligned hs h.aligned, by rw [ht]; exact h.nodup, ?_⟩
  intro v hv
  rw [ht] at hv
  exact (Core.step_done hdet hs (h.done v hv) h1 (fun l e => absurd e (h2 l))).1

theorem OnceOnly.same {p q : World (Core C Sv A × H) K × List (Sim.Ev (Obs.Visit Obs) C B)}
    (h : OnceOnly p) (ht : Sim.toldOf q.2 = Sim.toldOf p.2) (hs : q.1.sched.1 = p.1.sched.1) : OnceOnly q :=
  ⟨by rw [hs]; exact h.aligned, by rw [ht]; exact h.nodup, by rw [ht, hs]; exact h.done⟩

theorem told_one (l : List (Sim.Ev (Obs.Visit Obs) C B)) (e : Sim.Ev (Obs.Visit Obs) C B) (h : Sim.toldOf [e] = []) :
    Sim.toldOf (l ++ [e]) = Sim.toldOf l := by rw [Sim.toldOf_append, h, List.append_nil]

theorem once_keeps (S : Obs.Site) (hn : Obs.Nights S.nights) (hd : Down.Ordered S.downs) (M : Obs.Kin K Obs) (hM : Obs.NonNeg M) (hK : KeepsTarget M) (fuel : ℕ)
    (conds : Obs.St K → C) (mount : K → B → K) (E : Env C Sv A) (hdet : Core.DetKeepsIds E.q) (X : Rest H C B) (cfg : Sim.Cfg) :
    Sim.Keeps (env S M fuel conds mount (coreSched E X)).recorded cfg OnceOnly OnceOnly
      (fun v p => OnceOnly p ∧ ∀ u ∈ Sim.toldOf p.2, u.target.targetId ≠ v.target.targetId)
      (fun v p => OnceOnly p ∧ ∀ u ∈ Sim.toldOf p.2, u.target.targetId ≠ v.target.targetId) := by
  have hsame : ∀ (w q : World (Core C Sv A × H) K × List (Sim.Ev (Obs.Visit Obs) C B)) e, OnceOnly w → q.2 = w.2 ++ [e] → Sim.toldOf [e] = [] →
      q.1.sched.1 = w.1.sched.1 → OnceOnly q := fun w q e h h1 h2 h3 => h.same (by rw [h1, told_one _ _ h2]) h3
  have hconds : ∀ w, OnceOnly w → OnceOnly ((env S M fuel conds mount (coreSched E X)).recorded.conds w).1 := fun w h => hsame w _ _ h rfl rfl rfl
  have hcheck : ∀ w x, OnceOnly w → OnceOnly ((env S M fuel conds mount (coreSched E X)).recorded.check w x).1 := fun w x h => hsame w _ _ h rfl rfl rfl
  have hupdate : ∀ w c, OnceOnly w → OnceOnly ((env S M fuel conds mount (coreSched E X)).recorded.update w c) := fun w c h =>
    h.step (E := E) hdet (op := .update c) (told_one _ _ rfl) rfl (fun _ e => by cases e) (fun _ e => by cases e)
  have hreq : ∀ (w : World (Core C Sv A × H) K × List (Sim.Ev (Obs.Visit Obs) C B)) x, OnceOnly w → OnceOnly ((env S M fuel conds mount (coreSched E X)).recorded.request w x).1
      ∧ ∀ v ∈ ((env S M fuel conds mount (coreSched E X)).recorded.request w x).2, ∀ u ∈ Sim.toldOf w.2, u.target.targetId ≠ v.target.targetId := by
    intro w x h
    show OnceOnly ((requestOf (coreSched E X) w.1 x).1, w.2 ++ [.request w.1.obs.mjd x (requestOf (coreSched E X) w.1 x).2]) ∧ ∀ v ∈ (requestOf (coreSched E X) w.1 x).2, _
    have hr : (coreSched E X).request w.1.sched x = (coreRequest E w.1.sched.1 x).map fun r => ((r.1, w.1.sched.2), r.2) := rfl
    unfold requestOf
    rw [hr]
    unfold coreRequest
    cases hc : w.1.sched.1.request E (some x) false with
    | error e => exact ⟨h.same (told_one _ _ rfl) rfl, by rintro v ⟨⟩⟩
    | ok r =>
      obtain ⟨s', l, ev⟩ := r
      have hs : w.1.sched.1.step E (.request (some x) false) = .ok (s', l, ev) := hc
      refine ⟨h.step (E := E) hdet (told_one _ _ rfl) hs (fun _ e => by cases e) (fun _ e => by cases e), ?_⟩
      intro v hv u hu
      have hout := (Core.step_done hdet hs (h.done u hu) (fun _ e => by cases e) (fun _ e => by cases e)).2
      cases l with
      | none => cases hv
      | some l =>
        cases l with
        | nil => cases hv
        | cons o l =>
          have : v = asked o := by
            have : some (asked o) = some v := hv
            exact (Option.some.inj this).symm
          subst this
          exact fun e => hout o (by simp) e.symm
  have hobs : ∀ (w : World (Core C Sv A × H) K × List (Sim.Ev (Obs.Visit Obs) C B)) v, OnceOnly w → (∀ u ∈ Sim.toldOf w.2, u.target.targetId ≠ v.target.targetId) →
      OnceOnly ((env S M fuel conds mount (coreSched E X)).recorded.observe w v).1
      ∧ ∀ v' ∈ ((env S M fuel conds mount (coreSched E X)).recorded.observe w v).2.1, ∀ u ∈ Sim.toldOf ((env S M fuel conds mount (coreSched E X)).recorded.observe w v).1.2,
        u.target.targetId ≠ v'.target.targetId := by
    intro w v h hv
    show OnceOnly ((observeOf S M fuel w.1 v).1, w.2 ++ [.observe w.1.obs.mjd v (observeOf S M fuel w.1 v).1.obs.mjd
      (observeOf S M fuel w.1 v).2.1 (observeOf S M fuel w.1 v).2.2]) ∧ ∀ v' ∈ (observeOf S M fuel w.1 v).2.1, ∀ u ∈ Sim.toldOf (w.2 ++ [.observe w.1.obs.mjd v
      (observeOf S M fuel w.1 v).1.obs.mjd (observeOf S M fuel w.1 v).2.1 (observeOf S M fuel w.1 v).2.2]), _
    rw [told_one _ _ rfl]
    unfold observeOf
    cases hob : Obs.observe S M fuel w.1.obs v.target with
    | error e => exact ⟨h.same (told_one _ _ rfl) rfl, by rintro v ⟨⟩⟩
    | ok r =>
      obtain ⟨s', r, nn⟩ := r
      refine ⟨h.same (told_one _ _ rfl) rfl, ?_⟩
      intro v' hv' u hu
      have hv' : r = some v' := hv'
      subst hv'
      obtain ⟨-, -, -, -, -, -, -, -, k, hk⟩ := observe_some hn hd hM hob
      rw [(hK _ _ _ _ hk).1]
      exact hv u hu
  refine ⟨hconds, hcheck, hupdate, fun w x h _ => hsame w _ _ h rfl rfl rfl, fun w v h => hsame w _ _ h rfl rfl rfl,
    fun w h => h.step (E := E) hdet (op := .flush) (told_one _ _ rfl) rfl (fun _ e => by cases e) (fun _ e => by cases e),
    fun w c h => hsame w _ _ h rfl rfl rfl, fun w b h => hsame w _ _ h rfl rfl rfl, fun w h => Sim.refresh_keeps hconds hcheck hupdate w h,
    ?_, ?_, ?_, ?_, ?_, ?_, ?_⟩
  · intro w u h hr
    have := (hreq w ((env S M fuel conds mount (coreSched E X)).recorded.clock w) h).1
    rw [hr] at this
    exact this
  · intro w u v h hr
    have hq := hreq w ((env S M fuel conds mount (coreSched E X)).recorded.clock w) h
    have ht : Sim.toldOf u.2 = Sim.toldOf w.2 := by
      have hu : ((env S M fuel conds mount (coreSched E X)).recorded.request w ((env S M fuel conds mount (coreSched E X)).recorded.clock w)).1 = u := congrArg Prod.fst hr
      rw [← hu]
      exact told_one _ _ rfl
    rw [hr] at hq
    exact ⟨hq.1, by rw [ht]; exact hq.2 v rfl⟩
  · intro w v x nn h ho
    have := (hobs w v h.1 h.2).1
    rw [ho] at this
    exact this
  · intro w v x v' nn h ho
    have := hobs w v h.1 h.2
    rw [ho] at this
    exact ⟨this.1, this.2 v' rfl⟩
  · intro w v h
    refine ⟨hsame w _ _ h.1 rfl rfl rfl, ?_⟩
    show ∀ u ∈ Sim.toldOf (w.2 ++ [_]), _
    rw [told_one _ _ rfl]
    exact h.2
  · intro w v x h _
    refine ⟨hsame w _ _ h.1 rfl rfl rfl, ?_⟩
    show ∀ u ∈ Sim.toldOf (w.2 ++ [_]), _
    rw [told_one _ _ rfl]
    exact h.2
  · intro w v h
    have ht : Sim.toldOf ((env S M fuel conds mount (coreSched E X)).recorded.add w v).2 = Sim.toldOf w.2 ++ [v] := by
      show Sim.toldOf (w.2 ++ [.add w.1.obs.mjd v]) = _
      rw [Sim.toldOf_append]
      rfl
    have hs : w.1.sched.1.step E (.add (told v)) = .ok (((env S M fuel conds mount (coreSched E X)).recorded.add w v).1.sched.1, none, [.reported (backfillBand (told v)).targetId]) := rfl
    refine ⟨Core.step_aligned hs h.1.aligned, ?_, ?_⟩
    · rw [ht, List.map_append, List.nodup_append]
      refine ⟨h.1.nodup, List.nodup_singleton _, ?_⟩
      intro a ha b hb
      obtain ⟨u, hu, rfl⟩ := List.mem_map.1 ha
      rw [List.map_singleton, List.mem_singleton] at hb
      rw [hb]
      exact h.2 u hu
    · intro u hu
      rw [ht] at hu
      rcases List.mem_append.1 hu with hu | hu
      · exact (Core.step_done hdet hs (h.1.done u hu) (fun _ e => by cases e) (fun _ e => by cases e)).1
      · rw [List.mem_singleton] at hu
        subst hu
        exact add_done E _ h.1.aligned (told u)

/-- C184: a simulation with the core scheduler never completes the same target id twice, whatever the surveys, the weather and the telescope do. -/
theorem C184_once (S : Obs.Site) (hn : Obs.Nights S.nights) (hd : Down.Ordered S.downs) (M : Obs.Kin K Obs) (hM : Obs.NonNeg M) (hK : KeepsTarget M) (fuel : ℕ)
    (conds : Obs.St K → C) (mount : K → B → K) (E : Env C Sv A) (hdet : Core.DetKeepsIds E.q) (X : Rest H C B) (hX : ∀ h v, 0 ≤ (X.overhead h v).2)
    (cfg : Sim.Cfg) (hstep : 0 ≤ cfg.stepNone) (h1 : 0 < cfg.startSize) (h2 : 0 < cfg.appendSize) (n : ℕ)
    (w : World (Core C Sv A × H) K) (ha : w.sched.1.qm.Aligned) :
    ∃ vs : List (Obs.Visit Obs), (Sim.run (V := Obs.Visit Obs) (env S M fuel conds mount (coreSched E X)) cfg n w).st.result = vs.map some
      ∧ vs.Pairwise fun a b => a.target.targetId ≠ b.target.targetId := by
  have Kc := whole_contract S hn hd M hM fuel conds mount (coreSched E X) (fun u v => hX _ _)
  obtain ⟨hres, -, ht⟩ := recorded_result (env S M fuel conds mount (coreSched E X)) cfg h1 h2 n w
  have key : OnceOnly (Sim.run (V := Obs.Visit Obs) (env S M fuel conds mount (coreSched E X)).recorded cfg n (w, [])).st.w := by
    refine Sim.run_keeps (Sim.recorded_contract Kc) hstep (once_keeps S hn hd M hM hK fuel conds mount E hdet X cfg) n (w, []) ?_ ?_
    · intro _
      exact ⟨ha, List.nodup_nil, fun v hv => absurd hv List.not_mem_nil⟩
    · intro m _
      exact ⟨ha, List.nodup_nil, fun v hv => absurd hv List.not_mem_nil⟩
  refine ⟨_, hres, ?_⟩
  have := key.nodup
  rw [ht, List.nodup_iff_pairwise_ne, List.pairwise_map] at this
  exact this

/-! ### C185 -/

/-- Every completed visit was begun no later than a day after its expiry time. -/
structure InTime1 (p : World (Core C Sv A × H) K × List (Sim.Ev (Obs.Visit Obs) C B)) : Prop where
  aligned : p.1.sched.1.qm.Aligned
  each : ∀ v ∈ Sim.completedOf p.2, slewStart v ≤ v.target.flushBy + 1 ∨ v.target.flushBy = 0

theorem InTime1.on {p q : World (Core C Sv A × H) K × List (Sim.Ev (Obs.Visit Obs) C B)} (h : InTime1 p) {e : Sim.Ev (Obs.Visit Obs) C B}
    (he : q.2 = p.2 ++ [e]) (hc : Sim.completedOf [e] = []) (ha : q.1.sched.1.qm.Aligned) : InTime1 q :=
  ⟨ha, by rw [he, Sim.completedOf_append, hc, List.append_nil]; exact h.each⟩

/-- After the refreshing of conditions with every visit, the scheduler has the conditions of now. -/
theorem refresh_now {S : Obs.Site} {M : Obs.Kin K Obs} {fuel : ℕ} {conds : Obs.St K → C} {mount : K → B → K} {E : Env C Sv A} {X : Rest H C B} {cfg : Sim.Cfg}
    (hev : cfg.updateEvery = true) (hnow : ∀ s, E.q.mjdOf (conds s) = s.mjd) (w : World (Core C Sv A × H) K × List (Sim.Ev (Obs.Visit Obs) C B)) :
    ∃ c, (Sim.refresh (env S M fuel conds mount (coreSched E X)).recorded cfg w).1.sched.1.conditions = some c
      ∧ E.q.mjdOf c = (Sim.refresh (env S M fuel conds mount (coreSched E X)).recorded cfg w).1.obs.mjd := by
  have hup : ∀ z : World (Core C Sv A × H) K × List (Sim.Ev (Obs.Visit Obs) C B), ∃ c,
      (Sim.updateNow (env S M fuel conds mount (coreSched E X)).recorded z).1.sched.1.conditions = some c
      ∧ E.q.mjdOf c = (Sim.updateNow (env S M fuel conds mount (coreSched E X)).recorded z).1.obs.mjd := fun z => ⟨conds z.1.obs, rfl, hnow _⟩
  unfold Sim.refresh
  dsimp only
  rw [hev, Bool.true_and]
  by_cases h1 : (env S M fuel conds mount (coreSched E X)).recorded.hasConds w = true
  · rw [if_pos h1]
    dsimp only
    by_cases h2 : ((env S M fuel conds mount (coreSched E X)).recorded.check w ((env S M fuel conds mount (coreSched E X)).recorded.clock w)).2 = true
    · rw [if_pos h2]
      exact hup _
    · rw [if_neg h2]
      exact hup _
  · rw [if_neg h1]
    dsimp only
    split_ifs
    · exact absurd ‹_› (by simp)
    all_goals exact hup _

theorem core_gives {E : Env C Sv A} (hdet : ∀ a c l, ∀ o ∈ (E.q.detail a c l).1, ∃ o' ∈ l, o'.flushBy = o.flushBy)
    {s s' : Core C Sv A} {x : ℚ} {o : Obs} (ha : s.qm.Aligned) {c : C} (hc : s.conditions = some c)
    (h : coreRequest E s x = some (s', some o)) : E.q.mjdOf c ≤ o.flushBy + 1 ∨ o.flushBy = 0 := by
  unfold coreRequest at h
  cases hr : s.request E (some x) false with
  | error e => rw [hr] at h; cases h
  | ok r =>
    obtain ⟨s1, l, ev⟩ := r
    rw [hr] at h
    cases l with
    | none => cases h
    | some l =>
      cases l with
      | nil => cases h
      | cons y l =>
        have hy : y = o := by
          have h : some (s1, some y) = some (s', some o) := h
          simp only [Option.some.injEq, Prod.mk.injEq] at h
          exact h.2
        subst hy
        obtain ⟨c', q, hc', hq, -, -, -, hl, -⟩ := Core.request_source ha hr
        rw [hc] at hc'
        cases hc'
        have hm : y ∈ (q.request E.q c false).1.map Core.setNote := by rw [← hl]; simp
        obtain ⟨y', hy', rfl⟩ := List.mem_map.1 hm
        exact C04_at_most_one_day E.q q c false hq hdet y' hy'

theorem coreRequest_aligned {E : Env C Sv A} {s s' : Core C Sv A} {x : ℚ} {o : Option Obs} (ha : s.qm.Aligned)
    (h : coreRequest E s x = some (s', o)) : s'.qm.Aligned := by
  unfold coreRequest at h
  cases hr : s.request E (some x) false with
  | error e => rw [hr] at h; cases h
  | ok r =>
    obtain ⟨s1, l, ev⟩ := r
    rw [hr] at h
    have h : some (s1, l.bind List.head?) = some (s', o) := h
    simp only [Option.some.injEq, Prod.mk.injEq] at h
    rw [← h.1]
    exact Core.step_aligned (op := .request (some x) false) hr ha

theorem inTime_keeps (S : Obs.Site) (hn : Obs.Nights S.nights) (hd : Down.Ordered S.downs) (M : Obs.Kin K Obs) (hM : Obs.NonNeg M) (hK : KeepsTarget M) (fuel : ℕ)
    (conds : Obs.St K → C) (mount : K → B → K) (E : Env C Sv A) (hnow : ∀ s, E.q.mjdOf (conds s) = s.mjd)
    (hdet : ∀ a c l, ∀ o ∈ (E.q.detail a c l).1, ∃ o' ∈ l, o'.flushBy = o.flushBy) (X : Rest H C B) (cfg : Sim.Cfg) (hev : cfg.updateEvery = true) :
    Sim.Keeps (env S M fuel conds mount (coreSched E X)).recorded cfg InTime1
      (fun p => InTime1 p ∧ ∃ c, p.1.sched.1.conditions = some c ∧ E.q.mjdOf c = p.1.obs.mjd)
      (fun v p => InTime1 p ∧ (p.1.obs.mjd ≤ v.target.flushBy + 1 ∨ v.target.flushBy = 0)) (fun _ => InTime1) := by
  have hconds : ∀ w, InTime1 w → InTime1 ((env S M fuel conds mount (coreSched E X)).recorded.conds w).1 := fun w h => h.on rfl rfl h.aligned
  have hcheck : ∀ w x, InTime1 w → InTime1 ((env S M fuel conds mount (coreSched E X)).recorded.check w x).1 := fun w x h => h.on rfl rfl h.aligned
  have hupdate : ∀ w c, InTime1 w → InTime1 ((env S M fuel conds mount (coreSched E X)).recorded.update w c) := fun w c h =>
    h.on rfl rfl (Core.step_aligned (E := E) (op := .update c) rfl h.aligned)
  have hreq : ∀ (w : World (Core C Sv A × H) K × List (Sim.Ev (Obs.Visit Obs) C B)) x, InTime1 w → InTime1 ((env S M fuel conds mount (coreSched E X)).recorded.request w x).1
      ∧ ((env S M fuel conds mount (coreSched E X)).recorded.request w x).1.1.obs = w.1.obs
      ∧ ∀ v ∈ ((env S M fuel conds mount (coreSched E X)).recorded.request w x).2, ∀ c, w.1.sched.1.conditions = some c →
        E.q.mjdOf c ≤ v.target.flushBy + 1 ∨ v.target.flushBy = 0 := by
    intro w x h
    show InTime1 ((requestOf (coreSched E X) w.1 x).1, w.2 ++ [.request w.1.obs.mjd x (requestOf (coreSched E X) w.1 x).2]) ∧
      (requestOf (coreSched E X) w.1 x).1.obs = w.1.obs ∧ ∀ v ∈ (requestOf (coreSched E X) w.1 x).2, _
    have hr : (coreSched E X).request w.1.sched x = (coreRequest E w.1.sched.1 x).map fun r => ((r.1, w.1.sched.2), r.2) := rfl
    unfold requestOf
    rw [hr]
    cases hc : coreRequest E w.1.sched.1 x with
    | none => exact ⟨h.on rfl rfl h.aligned, rfl, by rintro v ⟨⟩⟩
    | some r =>
      obtain ⟨s', o⟩ := r
      refine ⟨h.on rfl rfl (coreRequest_aligned h.aligned hc), rfl, ?_⟩
      intro v hv c hcc
      cases o with
      | none => cases hv
      | some o =>
        have : some (asked o) = some v := hv
        have := Option.some.inj this
        subst this
        exact core_gives hdet h.aligned hcc hc
  refine ⟨hconds, hcheck, hupdate, fun w x h _ => h.on rfl rfl h.aligned, fun w v h => h.on rfl rfl h.aligned,
    fun w h => h.on rfl rfl (Core.step_aligned (E := E) (op := .flush) rfl h.aligned),
    fun w c h => h.on rfl rfl h.aligned, fun w b h => h.on rfl rfl h.aligned,
    fun w h => ⟨Sim.refresh_keeps hconds hcheck hupdate w h, refresh_now hev hnow w⟩,
    ?_, ?_, ?_, ?_, fun w v h => h.on rfl rfl h.aligned, fun w v x h _ => h.on rfl rfl h.aligned, ?_⟩
  · intro w u h hr
    have := (hreq w ((env S M fuel conds mount (coreSched E X)).recorded.clock w) h.1).1
    rw [hr] at this
    exact this
  · rintro w u v ⟨h, c, hc, hcm⟩ hr
    have hq := hreq w ((env S M fuel conds mount (coreSched E X)).recorded.clock w) h
    rw [hr] at hq
    refine ⟨hq.1, ?_⟩
    have := hq.2.2 v rfl c hc
    rw [hcm] at this
    have e : u.1.obs = w.1.obs := hq.2.1
    rw [e]
    exact this
  · rintro w v x nn ⟨h, -⟩ ho
    have hx : x = ((observeOf S M fuel w.1 v).1, w.2 ++ [.observe w.1.obs.mjd v (observeOf S M fuel w.1 v).1.obs.mjd
      (observeOf S M fuel w.1 v).2.1 (observeOf S M fuel w.1 v).2.2]) := (congrArg Prod.fst ho).symm
    have hv : (observeOf S M fuel w.1 v).2.1 = none := congrArg (fun z => z.2.1) ho
    subst hx
    rw [hv]
    refine h.on rfl rfl ?_
    unfold observeOf
    split <;> exact h.aligned
  · rintro w v x v' nn ⟨h, hq⟩ ho
    have hx : x = ((observeOf S M fuel w.1 v).1, w.2 ++ [.observe w.1.obs.mjd v (observeOf S M fuel w.1 v).1.obs.mjd
      (observeOf S M fuel w.1 v).2.1 (observeOf S M fuel w.1 v).2.2]) := (congrArg Prod.fst ho).symm
    have hv : (observeOf S M fuel w.1 v).2.1 = some v' := congrArg (fun z => z.2.1) ho
    subst hx
    rw [hv]
    unfold observeOf at hv ⊢
    cases hob : Obs.observe S M fuel w.1.obs v.target with
    | error e => rw [hob] at hv; cases hv
    | ok r =>
      obtain ⟨s', r, nn'⟩ := r
      rw [hob] at hv
      dsimp only at hv
      subst hv
      obtain ⟨h1, -, -, -, -, -, -, -, k, hk⟩ := observe_some hn hd hM hob
      refine ⟨h.aligned, ?_⟩
      show ∀ a ∈ Sim.completedOf (w.2 ++ [.observe w.1.obs.mjd v s'.mjd (some v') nn']), _
      rw [Sim.completedOf_append]
      intro a ha
      rcases List.mem_append.1 ha with ha | ha
      · exact h.each a ha
      · have ha : a ∈ [v'] := ha
        rw [List.mem_singleton] at ha
        subst ha
        rw [h1, (hK _ _ _ _ hk).2]
        exact hq
  · intro w v h
    exact h.on rfl rfl (Core.step_aligned (E := E) (op := .add (told v)) rfl h.aligned)

/-- C185, in part: a simulation that gives the scheduler new conditions before every visit begins no visit more than a day after its expiry time.
Missing: the day (the comparison of times is rounded, see C04), and simulations with the default argument. -/
theorem C185_fresh_partial (S : Obs.Site) (hn : Obs.Nights S.nights) (hd : Down.Ordered S.downs) (M : Obs.Kin K Obs) (hM : Obs.NonNeg M) (hK : KeepsTarget M)
    (fuel : ℕ) (conds : Obs.St K → C) (mount : K → B → K) (E : Env C Sv A) (hnow : ∀ s, E.q.mjdOf (conds s) = s.mjd)
    (hdet : ∀ a c l, ∀ o ∈ (E.q.detail a c l).1, ∃ o' ∈ l, o'.flushBy = o.flushBy) (X : Rest H C B) (hX : ∀ h v, 0 ≤ (X.overhead h v).2)
    (cfg : Sim.Cfg) (hev : cfg.updateEvery = true) (hstep : 0 ≤ cfg.stepNone) (h1 : 0 < cfg.startSize) (h2 : 0 < cfg.appendSize) (n : ℕ)
    (w : World (Core C Sv A × H) K) (ha : w.sched.1.qm.Aligned) :
    ∃ vs : List (Obs.Visit Obs), (Sim.run (V := Obs.Visit Obs) (env S M fuel conds mount (coreSched E X)) cfg n w).st.result = vs.map some
      ∧ ∀ v ∈ vs, v.mjd - v.slewtime / 24 / 3600 ≤ v.target.flushBy + 1 ∨ v.target.flushBy = 0 := by
  have Kc := whole_contract S hn hd M hM fuel conds mount (coreSched E X) (fun u v => hX _ _)
  obtain ⟨hres, -, -⟩ := recorded_result (env S M fuel conds mount (coreSched E X)) cfg h1 h2 n w
  have key : InTime1 (Sim.run (V := Obs.Visit Obs) (env S M fuel conds mount (coreSched E X)).recorded cfg n (w, [])).st.w := by
    refine Sim.run_keeps (Sim.recorded_contract Kc) hstep (inTime_keeps S hn hd M hM hK fuel conds mount E hnow hdet X cfg hev) n (w, []) ?_ ?_
    · intro _
      exact ⟨ha, fun v hv => absurd hv List.not_mem_nil⟩
    · intro m _
      exact ⟨ha, fun v hv => absurd hv List.not_mem_nil⟩
  exact ⟨_, hres, key.each⟩

end

/-! ### C186: the telescope -/

section
variable {U C : Type}

/-- The bands put into the camera last. -/
def lastMounted {V C B : Type} (l : List (Sim.Ev V C B)) : Option B := (l.filterMap fun e => match e with | .mount _ b => some b | _ => none).getLast?

/-- A visit that the telescope could begin at `t` with these bands in the camera. -/
def Reachable (T : Kinem.Cfg ℚ) (bands : List String) (t : ℚ) (r : Kinem.Req ℚ) : Prop :=
  r.band ∈ bands ∧ T.altMin ≤ (T.altaz r.ra r.dec t).1 ∧ (T.altaz r.ra r.dec t).1 ≤ T.altMax
    ∧ T.rotMin ≤ (Kinem.rotTarget T { r with rotTel := none } (T.altaz r.ra r.dec t).2.2).2
    ∧ (Kinem.rotTarget T { r with rotTel := none } (T.altaz r.ra r.dec t).2.2).2 ≤ T.rotMax

/-- Every completed visit of a record could be begun when it was. -/
def AllReachable (T : Kinem.Cfg ℚ) (m0 : List String) (l : List (Sim.Ev (Obs.Visit Kinem.GoodReq) C (List String))) : Prop :=
  ∀ pre t v a v' nn post, l = pre ++ .observe t v a (some v') nn :: post → Reachable T ((lastMounted pre).getD m0) t v'.target.1

theorem AllReachable.one {T : Kinem.Cfg ℚ} {m0 : List String} {l : List (Sim.Ev (Obs.Visit Kinem.GoodReq) C (List String))} (h : AllReachable T m0 l)
    (e : Sim.Ev (Obs.Visit Kinem.GoodReq) C (List String))
    (he : ∀ t v a v' nn, e = .observe t v a (some v') nn → Reachable T ((lastMounted l).getD m0) t v'.target.1) : AllReachable T m0 (l ++ [e]) := by
  intro pre t v a v' nn post hl
  rcases List.eq_nil_or_concat post with rfl | ⟨post', x, rfl⟩
  · obtain ⟨h1, h2⟩ := List.append_inj' hl rfl
    rw [← h1]
    exact he t v a v' nn (List.cons.inj h2).1
  · rw [List.concat_eq_append] at hl
    have hl' : l ++ [e] = (pre ++ .observe t v a (some v') nn :: post') ++ [x] := by rw [hl]; simp
    exact h pre t v a v' nn post' (List.append_inj' hl' rfl).1

theorem lastMounted_one {V C B : Type} (l : List (Sim.Ev V C B)) (e : Sim.Ev V C B) :
    lastMounted (l ++ [e]) = match e with | .mount _ b => some b | _ => lastMounted l := by
  unfold lastMounted
  rw [List.filterMap_append]
  cases e <;> simp

theorem observe_mounted (T : Kinem.Cfg ℚ) (s : Kinem.Tel ℚ) (r : Kinem.Req ℚ) (t : ℚ) (lax sw : Bool) : (Kinem.observe T s r t lax sw).1.mounted = s.mounted := by
  unfold Kinem.observe
  cases h : Kinem.slew T s r t lax sw with
  | none => rfl
  | some p =>
    obtain ⟨d, s'⟩ := p
    obtain ⟨-, _, _, _, -, -, -, -, -, he⟩ := Kinem.slew_some h
    subst he
    rfl

theorem tel_observe {S : Obs.Site} {T : Kinem.Cfg ℚ} {resolve lax : Bool} {fuel : ℕ} {s s' : Obs.St (Kinem.Tel ℚ)} {o : Kinem.GoodReq}
    {v : Option (Obs.Visit Kinem.GoodReq)} {nn : Bool} (h : Obs.observe S (Kinem.kin T resolve lax) fuel s o = .ok (s', v, nn)) :
    s'.kin.mounted = s.kin.mounted ∧ ∀ v', v = some v' → Reachable T s.kin.mounted s.mjd v'.target.1 := by
  unfold Obs.observe at h
  cases hp : (Kinem.kin T resolve lax).prepare s.kin s.mjd o with
  | none => rw [hp] at h; cases h
  | some o' =>
    rw [hp] at h
    dsimp only at h
    have hk : ∀ b : Prop, [Decidable b] → (if b then (Kinem.kin T resolve lax).park s.kin else s.kin).mounted = s.kin.mounted := by
      intro b _; split <;> rfl
    have hk := hk (S.parkAfter < s.mjd - (Kinem.kin T resolve lax).lastMjd s.kin)
    generalize (if S.parkAfter < s.mjd - (Kinem.kin T resolve lax).lastMjd s.kin then (Kinem.kin T resolve lax).park s.kin else s.kin) = k at h hk
    have hob : (Kinem.kin T resolve lax).observe k o' s.mjd = Kinem.observe T k { o'.1 with rotTel := none } s.mjd lax false := rfl
    have hm := observe_mounted T k { o'.1 with rotTel := none } s.mjd lax false
    rw [hob] at h
    cases hr : (Kinem.observe T k { o'.1 with rotTel := none } s.mjd lax false).2.1 with
    | none =>
      rw [hr] at h
      simp only [Except.ok.injEq, Prod.mk.injEq] at h
      obtain ⟨rfl, rfl, rfl⟩ := h
      exact ⟨hm.trans hk, fun v' e => by cases e⟩
    | some slew =>
      rw [hr] at h
      dsimp only at h
      cases hc : Obs.checkMjd S fuel (s.mjd + (slew + (Kinem.observe T k { o'.1 with rotTel := none } s.mjd lax false).2.2) / 24 / 3600) with
      | error e => rw [hc] at h; cases h
      | ok r =>
        obtain ⟨b, x⟩ := r
        rw [hc] at h
        cases b with
        | true =>
          simp only [Except.ok.injEq, Prod.mk.injEq] at h
          obtain ⟨rfl, rfl, rfl⟩ := h
          refine ⟨hm.trans hk, ?_⟩
          intro v' e
          cases e
          unfold Kinem.observe at hr
          cases hs : Kinem.slew T k { o'.1 with rotTel := none } s.mjd lax false with
          | none => rw [hs] at hr; cases hr
          | some p =>
            obtain ⟨d, k'⟩ := p
            obtain ⟨h1, _, rs, rt, h2, -, h3, h4, -, -⟩ := Kinem.slew_some hs
            refine ⟨by rw [← hk]; exact h1, h4.1, h4.2, ?_⟩
            have h2 : (Kinem.rotTarget T { o'.1 with rotTel := none } (T.altaz o'.1.ra o'.1.dec s.mjd).2.2).2 = rt := congrArg Prod.snd h2
            rw [h2]
            exact h3
        | false =>
          simp only [Except.ok.injEq, Prod.mk.injEq] at h
          obtain ⟨rfl, rfl, rfl⟩ := h
          exact ⟨hm.trans hk, fun v' e => by cases e⟩

theorem mountTel_mounted (s : Kinem.Tel ℚ) (b : List String) : (mountTel s b).mounted = b := by
  unfold mountTel Kinem.mount
  cases b.getLast? <;> rfl

/-- The invariant: the bands in the camera are the ones mounted last. -/
structure InCamera (T : Kinem.Cfg ℚ) (m0 : List String) (p : World U (Kinem.Tel ℚ) × List (Sim.Ev (Obs.Visit Kinem.GoodReq) C (List String))) : Prop where
  mounted : p.1.obs.kin.mounted = (lastMounted p.2).getD m0
  all : AllReachable T m0 p.2

theorem InCamera.one {T : Kinem.Cfg ℚ} {m0 : List String} {p q : World U (Kinem.Tel ℚ) × List (Sim.Ev (Obs.Visit Kinem.GoodReq) C (List String))} (h : InCamera T m0 p)
    {e : Sim.Ev (Obs.Visit Kinem.GoodReq) C (List String)} (he : q.2 = p.2 ++ [e]) (h1 : ∀ t b, e ≠ .mount t b) (h2 : ∀ t v a v' nn, e ≠ .observe t v a (some v') nn)
    (hk : q.1.obs.kin.mounted = p.1.obs.kin.mounted) : InCamera T m0 q := by
  refine ⟨?_, ?_⟩
  · rw [hk, he, lastMounted_one, h.mounted]
    cases e with
    | mount t b => exact absurd rfl (h1 t b)
    | _ => rfl
  · rw [he]
    exact h.all.one e fun t v a v' nn e' => absurd e' (h2 t v a v' nn)

/-- C186: in every simulation with the modelled telescope, a completed visit was, at the time the telescope set out for it, within the limits of altitude and
rotator and in a band that was in the camera, that is one of the bands mounted last. -/
theorem C186_reachable (S : Obs.Site) (hn : Obs.Nights S.nights) (hd : Down.Ordered S.downs) (T : Kinem.Cfg ℚ) (hT : Sane T) (resolve lax : Bool) (fuel : ℕ)
    (conds : Obs.St (Kinem.Tel ℚ) → C) (D : Sched U Kinem.GoodReq C (List String)) (hD : FairOverhead D)
    (cfg : Sim.Cfg) (hstep : 0 ≤ cfg.stepNone) (n : ℕ) (w : World U (Kinem.Tel ℚ)) :
    AllReachable T w.obs.kin.mounted
      (Sim.run (V := Obs.Visit Kinem.GoodReq) (env S (Kinem.kin T resolve lax) fuel conds mountTel D).recorded cfg n (w, [])).st.w.2 := by
  have Kc := whole_contract S hn hd (Kinem.kin T resolve lax) (C21_telescope_times T hT resolve lax) fuel conds mountTel D hD
  have hconds : ∀ p, InCamera T w.obs.kin.mounted p → InCamera T w.obs.kin.mounted ((env S (Kinem.kin T resolve lax) fuel conds mountTel D).recorded.conds p).1 := by
    refine fun p h => h.one rfl (by intros; simp) (by intros; simp) ?_
    show (if _ then Kinem.park T p.1.obs.kin else p.1.obs.kin).mounted = _
    split_ifs <;> rfl
  have hcheck : ∀ p x, InCamera T w.obs.kin.mounted p → InCamera T w.obs.kin.mounted ((env S (Kinem.kin T resolve lax) fuel conds mountTel D).recorded.check p x).1 :=
    fun p x h => h.one rfl (by intros; simp) (by intros; simp) rfl
  have hupdate : ∀ p c, InCamera T w.obs.kin.mounted p → InCamera T w.obs.kin.mounted ((env S (Kinem.kin T resolve lax) fuel conds mountTel D).recorded.update p c) :=
    fun p c h => h.one rfl (by intros; simp) (by intros; simp) rfl
  have hreq : ∀ (p : World U (Kinem.Tel ℚ) × List (Sim.Ev (Obs.Visit Kinem.GoodReq) C (List String))) x, InCamera T w.obs.kin.mounted p →
      InCamera T w.obs.kin.mounted ((env S (Kinem.kin T resolve lax) fuel conds mountTel D).recorded.request p x).1 := by
    intro p x h
    refine h.one rfl (by intros; simp) (by intros; simp) ?_
    show (requestOf D p.1 x).1.obs.kin.mounted = _
    unfold requestOf
    split <;> rfl
  have hobs : ∀ (p : World U (Kinem.Tel ℚ) × List (Sim.Ev (Obs.Visit Kinem.GoodReq) C (List String))) v, InCamera T w.obs.kin.mounted p →
      InCamera T w.obs.kin.mounted ((env S (Kinem.kin T resolve lax) fuel conds mountTel D).recorded.observe p v).1 := by
    intro p v h
    show InCamera T w.obs.kin.mounted ((observeOf S (Kinem.kin T resolve lax) fuel p.1 v).1, p.2 ++ [.observe p.1.obs.mjd v (observeOf S (Kinem.kin T resolve lax) fuel p.1 v).1.obs.mjd
      (observeOf S (Kinem.kin T resolve lax) fuel p.1 v).2.1 (observeOf S (Kinem.kin T resolve lax) fuel p.1 v).2.2])
    unfold observeOf
    cases hob : Obs.observe S (Kinem.kin T resolve lax) fuel p.1.obs v.target with
    | error e => exact h.one rfl (by intros; simp) (by intros; simp) rfl
    | ok r =>
      obtain ⟨s', r, nn⟩ := r
      obtain ⟨h1, h2⟩ := tel_observe hob
      refine ⟨?_, h.all.one _ ?_⟩
      · show s'.kin.mounted = (lastMounted (p.2 ++ [.observe _ _ _ _ _])).getD _
        rw [h1, lastMounted_one]
        exact h.mounted
      · intro t v1 a v' nn' e
        simp only [Sim.Ev.observe.injEq] at e
        obtain ⟨rfl, -, -, e4, -⟩ := e
        rw [← h.mounted]
        exact h2 v' e4
  have keep : Sim.Keeps (env S (Kinem.kin T resolve lax) fuel conds mountTel D).recorded cfg (InCamera T w.obs.kin.mounted) (InCamera T w.obs.kin.mounted)
      (fun _ => InCamera T w.obs.kin.mounted) (fun _ => InCamera T w.obs.kin.mounted) := by
    refine ⟨hconds, hcheck, hupdate, fun p x h _ => h.one rfl (by intros; simp) (by intros; simp) rfl,
      fun p v h => h.one rfl (by intros; simp) (by intros; simp) rfl, fun p h => h.one rfl (by intros; simp) (by intros; simp) rfl,
      fun p c h => h.one rfl (by intros; simp) (by intros; simp) rfl, ?_, fun p h => Sim.refresh_keeps hconds hcheck hupdate p h, ?_, ?_, ?_, ?_,
      fun p v h => h.one rfl (by intros; simp) (by intros; simp) rfl, fun p v x h _ => h.one rfl (by intros; simp) (by intros; simp) rfl,
      fun p v h => h.one rfl (by intros; simp) (by intros; simp) rfl⟩
    · intro p b h
      refine ⟨?_, h.all.one _ (by intros; simp_all)⟩
      show (mountTel p.1.obs.kin b).mounted = (lastMounted (p.2 ++ [.mount p.1.obs.mjd b])).getD _
      rw [mountTel_mounted, lastMounted_one]
      rfl
    · intro p u h hr
      have := hreq p ((env S (Kinem.kin T resolve lax) fuel conds mountTel D).recorded.clock p) h
      rw [hr] at this
      exact this
    · intro p u v h hr
      have := hreq p ((env S (Kinem.kin T resolve lax) fuel conds mountTel D).recorded.clock p) h
      rw [hr] at this
      exact this
    · intro p v x nn h ho
      have := hobs p v h
      rw [ho] at this
      exact this
    · intro p v x v' nn h ho
      have := hobs p v h
      rw [ho] at this
      exact this
  refine (Sim.run_keeps (Sim.recorded_contract Kc) hstep keep n (w, []) ?_ ?_).all
  · intro _
    exact ⟨rfl, fun pre t v a v' nn post e => by simp at e⟩
  · intro m _
    refine ⟨rfl, ?_⟩
    intro pre t v a v' nn post e
    have e : [(Sim.Ev.setClock w.obs.mjd m m : Sim.Ev (Obs.Visit Kinem.GoodReq) C (List String))] = pre ++ .observe t v a (some v') nn :: post := e
    have hm : (Sim.Ev.observe t v a (some v') nn : Sim.Ev (Obs.Visit Kinem.GoodReq) C (List String)) ∈ [Sim.Ev.setClock w.obs.mjd m m] := by rw [e]; simp
    simp at hm

/-- A scheduler with a list of visits, whose bands are u, g and r. -/
def listSched : Sched (List Kinem.GoodReq) Kinem.GoodReq Unit (List String) where
  hasConds _ := true
  check _ _ := true
  update u _ := u
  request u _ := some (u.tail, u.head?)
  add u _ := u
  bandAdd u _ := u
  flush u := u
  bands u _ := (u, ["u", "g", "r"])
  overhead u _ := (u, 0)

/-- Two visits can be made, the one between them in y cannot: no such band is in the camera. -/
example : (Sim.completedOf (Sim.run (V := Obs.Visit Kinem.GoodReq) (env toySite (Kinem.kin toyCfg true true) 20 (fun _ => ()) mountTel listSched).recorded
      { duration := 1 / 100, startSize := 2, appendSize := 2 } 20
      (⟨⟨0, Kinem.new toyCfg "r" 0, 0⟩, [⟨toyReq 10, by norm_num [toyReq]⟩, ⟨{ toyReq 10 with band := "y" }, by norm_num [toyReq]⟩,
        ⟨{ toyReq 12 with band := "g" }, by norm_num [toyReq]⟩], false⟩, [])).st.w.2).map (fun v => (v.target.1.band, v.slewtime)) = [("r", 69), ("g", 125)] := by
  decide +kernel

end

/-! ### A small simulation -/

/-- Every visit takes 2000 s after a slew of 60 s; right ascensions above 2 cannot be reached. -/
def wholeKin : Obs.Kin ℚ Obs where
  lastMjd k := k
  park k := k
  observe _ o t := (t, if 2 < o.ra then none else some 60, 2000)
  prepare _ _ o := some o

/-- One survey with four visits: the second is good for a hundredth of a day. -/
def wholeSurvey : ToySv :=
  ⟨[.fin 1], [{ targetId := 0, band := "r" }, { targetId := 0, ra := 1, flushBy := 1 / 100 }, { targetId := 0, band := "g", flushBy := 3 / 2 }, { targetId := 0, band := "g" }], none⟩

/-- The scheduler at the start. -/
def wholeCore : Core ToyC ToySv Unit := Core.init () [[wholeSurvey]] 5 true []

def wholeRest : Rest Unit ToyC Unit := ⟨fun _ _ => (), fun _ _ => ((), ()), fun _ _ => ((), 5)⟩

def wholeEnv : Sim.Env (World (Core ToyC ToySv Unit × Unit) ℚ) (Obs.Visit Obs) ToyC Unit :=
  env toySite wholeKin 20 (fun s => ⟨s.mjd, none⟩) (fun k _ => k) (coreSched toyE wholeRest)

def wholeStart : World (Core ToyC ToySv Unit × Unit) ℚ := ⟨⟨0, 0, 40⟩, (wholeCore, ()), false⟩

/-- What comes out of a simulation: target ids, IDs, and times of expiry with begin of slew. -/
def wholeOut (o : Sim.Out (World (Core ToyC ToySv Unit × Unit) ℚ) (Obs.Visit Obs)) : List (Option (Int × ℕ × ℚ × ℚ)) × Bool :=
  (o.st.result.map fun r => r.map fun v => (v.target.targetId, v.ID, v.target.flushBy, slewStart v), o.st.w.raised)

/-- C185 is violated by the default of simulations: conditions are not renewed while some visit of the queue is good, and the scheduler then goes by the
time of its old conditions. Here the second visit expires at 1/100 and is begun at 103/4320. -/
theorem C185_stale_violated :
    wholeOut (Sim.run wholeEnv { duration := 1 / 20, startSize := 2, appendSize := 2 } 20 wholeStart)
      = ([some (5, 40, 0, 0), some (6, 41, 1 / 100, 103 / 4320), some (7, 42, 3 / 2, 103 / 2160)], false) := by
  decide +kernel

/-- With new conditions before every visit the second visit is passed over. -/
example : wholeOut (Sim.run wholeEnv { duration := 1 / 20, startSize := 2, appendSize := 2, updateEvery := true } 20 wholeStart)
      = ([some (5, 40, 0, 0), some (7, 41, 3 / 2, 103 / 4320), some (8, 42, 0, 103 / 2160)], false) := by
  decide +kernel

/-- The assumptions of C183-C185 are met by this simulation. -/
example : Obs.NonNeg wholeKin ∧ KeepsTarget wholeKin ∧ Core.DetKeepsIds toyE.q ∧ FairOverhead (coreSched toyE wholeRest) ∧ wholeStart.sched.1.qm.Aligned := by
  refine ⟨?_, ?_, fun _ _ l o ho => ⟨o, ho, rfl⟩, fun _ _ => by norm_num [coreSched, wholeRest], rfl⟩
  · intro k o t
    refine ⟨?_, by norm_num [wholeKin]⟩
    intro x hx
    simp only [wholeKin] at hx
    split_ifs at hx
    · cases hx
    · cases hx; norm_num
  · intro k t o o' h
    cases h
    exact ⟨rfl, rfl⟩

end Verif
