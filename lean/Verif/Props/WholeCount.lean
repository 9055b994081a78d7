import Verif.Lemmas.SimUntil
import Verif.Props.WholeBusy
import Verif.Props.WholeEnds

/-!
Property C262: the number of visits of a simulation lies between what fits with the longest visits and what fits with the shortest.
-/

namespace Verif

open Whole

/-! ### At most -/

section
variable {W V C B : Type} {E : Sim.Env W V C B}

/-- What holds between passes: every visit took its time, and the last one was begun in time. -/
structure Spaced (E : Sim.Env W V C B) (δ t0 te : ℚ) (s : Sim.St W V) : Prop where
  took : t0 + s.counter * δ ≤ E.clock s.w
  till : s.endMjd = te
  near : s.mjd = E.clock s.w ∨ E.clock s.w ≤ te
  few : (s.counter : ℚ) * δ ≤ max (te - t0) 0 + δ

theorem pass_spaced (K : Sim.Contract E) (cfg : Sim.Cfg) (hstep : 0 ≤ cfg.stepNone) {δ t0 te : ℚ}
    (hobs : ∀ w v, E.clock w + δ ≤ E.clock (E.observe w v).1 ∨ ((E.observe w v).2.1 = none ∧ E.clock (E.observe w v).1 = E.clock w))
    (hδ : 0 ≤ δ) (s : Sim.St W V) (h : Spaced E δ t0 te s) (hs : s.mjd < s.endMjd) :
    (∀ s', Sim.pass E cfg s = .again s' → Spaced E δ t0 te s') ∧ ((Sim.pass E cfg s).st.counter : ℚ) * δ ≤ max (te - t0) 0 + δ := by
  have hcl : E.clock s.w ≤ te := by
    rcases h.near with e | e
    · rw [← e, ← h.till]
      exact hs.le
    · exact e
  have hend : ∀ (nn : Bool) (s1 : Sim.St W V), t0 + s1.counter * δ ≤ E.clock s1.w → s1.endMjd = te → (s1.counter : ℚ) * δ ≤ max (te - t0) 0 + δ →
      (∀ s', Sim.endOfPass E cfg nn s1 = .again s' → Spaced E δ t0 te s') ∧ ((Sim.endOfPass E cfg nn s1).st.counter : ℚ) * δ ≤ max (te - t0) 0 + δ := by
    intro nn s1 h1 h2 h3
    have hst := Sim.endOfPass_st (E := E) cfg nn s1
    refine ⟨fun s' e => ?_, by rw [hst]; exact h3⟩
    rw [e] at hst
    have hst : s' = _ := hst
    have hc : E.clock (if nn then Sim.mountNow E s1.w else s1.w) = E.clock s1.w := by
      split_ifs
      · exact Sim.mountNow_clock K _
      · rfl
    rw [hst]
    exact ⟨by show _ ≤ E.clock (if nn then Sim.mountNow E s1.w else s1.w); rw [hc]; exact h1, h2, .inl rfl, h3⟩
  have hr := (K.request (Sim.refresh E cfg s.w) (E.clock (Sim.refresh E cfg s.w))).trans (Sim.refresh_clock K cfg s.w)
  unfold Sim.pass
  dsimp only
  generalize E.request (Sim.refresh E cfg s.w) (E.clock (Sim.refresh E cfg s.w)) = r at hr
  obtain ⟨u, _ | v⟩ := r
  · have hr : E.clock u = E.clock s.w := hr
    dsimp only
    unfold Sim.skipPass
    dsimp only
    have hst : 0 ≤ cfg.step := by unfold Sim.Cfg.step; positivity
    have hc : E.clock (Sim.updateNow E (E.setClock u (E.clock u + cfg.step))) = E.clock s.w + cfg.step := by
      rw [Sim.updateNow_clock K, K.set, hr]
    split_ifs with hlt
    · exact ⟨fun s' e => (by cases e), h.few⟩
    · refine ⟨fun s' e => ?_, h.few⟩
      cases e
      refine ⟨?_, h.till, .inr ?_, h.few⟩
      · show t0 + s.counter * δ ≤ E.clock (Sim.updateNow E (E.setClock u (E.clock u + cfg.step)))
        rw [hc]
        linarith [h.took]
      · rw [h.till] at hlt
        exact not_lt.1 hlt
  · have hr : E.clock u = E.clock s.w := hr
    dsimp only
    have ho := hobs u v
    have hmono := K.observe u v
    generalize E.observe u v = o at ho hmono
    obtain ⟨w1, v', nn⟩ := o
    dsimp only at ho hmono ⊢
    cases v' with
    | none =>
      dsimp only
      unfold Sim.rejectedPass
      split_ifs
      · exact ⟨fun s' e => (by cases e), h.few⟩
      · refine hend nn _ ?_ h.till h.few
        show t0 + s.counter * δ ≤ E.clock (E.flush w1)
        rw [K.flush]
        linarith [h.took]
    | some v' =>
      dsimp only
      have ho : E.clock u + δ ≤ E.clock w1 := ho.resolve_right fun h => by cases h.1
      have hmore : ((s.counter + 1 : ℕ) : ℚ) * δ ≤ max (te - t0) 0 + δ := by
        push_cast
        have := le_max_left (te - t0) 0
        linarith [h.took]
      unfold Sim.completedPass
      dsimp only
      split
      · exact ⟨fun s' e => (by cases e), h.few⟩
      · refine hend nn _ ?_ h.till hmore
        show t0 + ((s.counter + 1 : ℕ) : ℚ) * δ ≤ E.clock (E.bandAdd (E.add (Sim.addOverhead E cfg w1 v') v') v')
        rw [K.bandAdd, K.add]
        have h5 := Sim.addOverhead_clock K cfg w1 v'
        push_cast
        linarith [h.took]

theorem count_most (K : Sim.Contract E) (cfg : Sim.Cfg) (hstep : 0 ≤ cfg.stepNone) {δ : ℚ} (hδ : 0 ≤ δ)
    (hobs : ∀ w v, E.clock w + δ ≤ E.clock (E.observe w v).1 ∨ ((E.observe w v).2.1 = none ∧ E.clock (E.observe w v).1 = E.clock w)) (n : ℕ) (w : W) :
    ((Sim.run (V := V) E cfg n w).st.counter : ℚ) * δ ≤ max cfg.duration 0 + δ := by
  have key : ∀ t0, t0 = cfg.simStart.getD (E.clock w) → Spaced E δ t0 (t0 + cfg.duration) (Sim.start (V := V) E cfg w) := by
    intro t0 ht
    have h0 : ((0 : ℕ) : ℚ) * δ ≤ max (t0 + cfg.duration - t0) 0 + δ := by
      have := le_max_right (t0 + cfg.duration - t0) 0
      simp only [Nat.cast_zero, zero_mul]
      linarith
    unfold Sim.start
    cases hc : cfg.simStart with
    | none =>
      rw [hc] at ht
      subst ht
      have e : E.clock (Sim.mountNow E w) = E.clock w := Sim.mountNow_clock K w
      exact ⟨by simp [e], rfl, .inl e.symm, h0⟩
    | some m =>
      rw [hc] at ht
      have ht : t0 = m := ht
      subst ht
      have e : E.clock (Sim.mountNow E (E.setClock w t0)) = t0 := by rw [Sim.mountNow_clock K, K.set]
      exact ⟨by simp [e], rfl, .inl e.symm, h0⟩
  set t0 := cfg.simStart.getD (E.clock w)
  have hm : max cfg.duration 0 = max (t0 + cfg.duration - t0) 0 := by rw [add_sub_cancel_left]
  rw [hm]
  have hp := pass_spaced K cfg hstep hobs hδ (t0 := t0) (te := t0 + cfg.duration)
  refine Sim.loop_inv (E := E) (cfg := cfg) (P := Spaced E δ t0 (t0 + cfg.duration)) (Q := fun o => (o.st.counter : ℚ) * δ ≤ max (t0 + cfg.duration - t0) 0 + δ)
    (fun s s' h hs e => (hp s h hs).1 s' e) ?_ ?_ ?_ (fun s h _ => h.few) (fun s h _ => h.few) n _ (key t0 rfl)
  all_goals
    intro s s' h hs e
    have := (hp s h hs).2
    rw [e] at this
    exact this

end

section
variable {U K O C B : Type}

/-- **C262**, at most: if every visit takes at least `δ` seconds, a simulation makes at most one visit more than fit into its duration. -/
theorem C262_at_most (S : Obs.Site) (hn : Obs.Nights S.nights) (hd : Down.Ordered S.downs) (M : Obs.Kin K O) (hM : Obs.NonNeg M) (fuel : ℕ)
    (conds : Obs.St K → C) (mount : K → B → K) (D : Sched U O C B) (hD : FairOverhead D) (δ : ℚ) (hδ : 0 < δ) (hlong : ∀ k o t, δ ≤ (M.observe k o t).2.2)
    (cfg : Sim.Cfg) (hstep : 0 ≤ cfg.stepNone) (w : World U K) (n : ℕ) :
    ((Sim.run (V := Obs.Visit O) (env S M fuel conds mount D) cfg n w).st.counter : ℚ) ≤ max cfg.duration 0 * 86400 / δ + 1 := by
  have key := count_most (V := Obs.Visit O) (whole_contract S hn hd M hM fuel conds mount D hD) cfg hstep (δ := δ / 24 / 3600) (by positivity) (by
    intro w v
    show w.obs.mjd + δ / 24 / 3600 ≤ (observeOf S M fuel w v).1.obs.mjd ∨ ((observeOf S M fuel w v).2.1 = none ∧ (observeOf S M fuel w v).1.obs.mjd = w.obs.mjd)
    unfold observeOf
    cases hob : Obs.observe S M fuel w.obs v.target with
    | error e => exact .inr ⟨rfl, rfl⟩
    | ok r =>
      obtain ⟨s', r, nn⟩ := r
      exact C62_observatory_progress S hn hd M hM δ hlong fuel _ _ _ _ _ hob) n w
  have e : max cfg.duration 0 * 86400 / δ + 1 = (max cfg.duration 0 + δ / 24 / 3600) / (δ / 24 / 3600) := by
    field_simp
    ring
  rw [e, le_div_iff₀ (by positivity)]
  exact key

/-! ### At least -/

variable {S : Obs.Site} {M : Obs.Kin K O} {fuel : ℕ} {conds : Obs.St K → C} {mount : K → B → K} {D : Sched U O C B}
  {I : U → Prop} {Good : ℚ → O → Prop} {most over : ℚ} {t0 te : ℚ}

/-- A time at which the observatory is open passes at once. -/
theorem check_open (hn : Obs.Nights S.nights) (hd : Down.Ordered S.downs) {t : ℚ} (ho : Obs.Open S t) (hf : 0 < fuel) : Obs.checkMjd S fuel t = .ok (true, t) := by
  obtain ⟨n, rfl⟩ : ∃ n, fuel = n + 1 := ⟨fuel - 1, by omega⟩
  have hc : ¬ S.cloudLimit < S.cloud t := not_lt.2 ho.clear
  have hk : Obs.skipClouds S n t = .ok t := by
    cases n <;> rw [Obs.skipClouds, if_neg hc]
  obtain ⟨N, hN, -, h2⟩ := ho.night
  obtain ⟨p3, t3, hnp, -⟩ := night_ok hn hN (!decide (S.cloudLimit < S.cloud t)) t h2
  obtain ⟨u, x, hu, -⟩ := Obs.checkUp_spec hd t
  obtain ⟨p, new, hs⟩ : ∃ p new, Obs.screen S n t = .ok (p, new) := by
    unfold Obs.screen
    cases u <;> simp [hk, hnp, hu, bind, Except.bind, pure, Except.pure]
  have hp := (Obs.screen_spec hn hd hs).1.2 ho
  subst hp
  rw [Obs.checkMjd, hs]

/-- What holds between passes when no pass is idle: the clock has gone on by at most the longest time for each visit. -/
structure Steady (I : U → Prop) (c t0 te : ℚ) (s : Sim.St (World U K) (Obs.Visit O)) : Prop where
  calm : s.w.raised = false
  inv : I s.w.sched
  since : t0 ≤ s.w.obs.mjd
  till : s.endMjd = te
  now : s.mjd = s.w.obs.mjd
  soon : s.w.obs.mjd ≤ t0 + s.counter * c

def SteadyPass (I : U → Prop) (c t0 te : ℚ) (cfg : Sim.Cfg) : Sim.Pass (World U K) (Obs.Visit O) → Prop
  | .again s => Steady I c t0 te s
  | .brk s => s.w.raised = false ∧ cfg.visitLimit = some (s.counter : ℤ)
  | .gaveUp _ => False
  | .indexError _ => True

theorem pass_steady (hn : Obs.Nights S.nights) (hd : Down.Ordered S.downs) (hM : Obs.NonNeg M) (hD : FairOverhead D) (hover : ∀ u v, (D.overhead u v).2 ≤ over)
    (hA : Answers D I Good) (hbusy : ∀ u x u', I u → D.hasConds u = true → D.request u x ≠ some (u', none)) (hr : Attainable M Good most) (hf : 0 < fuel)
    (hopen : ∀ t, t0 ≤ t → t ≤ te + most / 24 / 3600 → Obs.Open S t) (cfg : Sim.Cfg)
    (s : Sim.St (World U K) (Obs.Visit O)) (h : Steady I ((most + over) / 24 / 3600) t0 te s) (hs : s.mjd < s.endMjd) :
    SteadyPass I ((most + over) / 24 / 3600) t0 te cfg (Sim.pass (env S M fuel conds mount D) cfg s) := by
  have hcl : s.w.obs.mjd ≤ te := by
    rw [← h.now, ← h.till]
    exact hs.le
  unfold Sim.pass
  dsimp only
  obtain ⟨hc, hh⟩ := refresh_calm (S := S) (M := M) (fuel := fuel) (conds := conds) (mount := mount) hA cfg s.w
  set w := Sim.refresh (env S M fuel conds mount D) cfg s.w
  obtain ⟨u, r, hreq, hu, hg⟩ := hA.request w.sched w.obs.mjd (hc.inv h.inv) hh
  have hq : (env S M fuel conds mount D).request w ((env S M fuel conds mount D).clock w) = ({ w with sched := u }, r.map asked) := by
    show requestOf D w w.obs.mjd = _
    unfold requestOf
    rw [hreq]
  rw [hq]
  cases r with
  | none => exact absurd hreq (hbusy _ _ _ (hc.inv h.inv) hh)
  | some o =>
    set k := if S.parkAfter < w.obs.mjd - M.lastMjd w.obs.kin then M.park w.obs.kin else w.obs.kin with hk
    obtain ⟨o', slew, e1, e2, e3⟩ := hr w.obs.kin k w.obs.mjd o (hg o rfl)
    have h2 := (hM k o' w.obs.mjd).1 slew (by rw [e2]; rfl)
    have h3 := (hM k o' w.obs.mjd).2
    have h4 : 0 ≤ (slew + (M.observe k o' w.obs.mjd).2.2) / 24 / 3600 := by positivity
    have h5 : (slew + (M.observe k o' w.obs.mjd).2.2) / 24 / 3600 ≤ most / 24 / 3600 :=
      div_le_div_of_nonneg_right (div_le_div_of_nonneg_right e3 (by norm_num)) (by norm_num)
    have hclk := hc.clock
    have hchk := check_open (fuel := fuel) hn hd (hopen (w.obs.mjd + (slew + (M.observe k o' w.obs.mjd).2.2) / 24 / 3600) (by linarith [h.since]) (by linarith)) hf
    obtain ⟨s', v, hob, hs'⟩ : ∃ s' v, Obs.observe S M fuel w.obs o = .ok (s', some v, false) ∧ s'.mjd = w.obs.mjd + (slew + (M.observe k o' w.obs.mjd).2.2) / 24 / 3600 := by
      unfold Obs.observe
      rw [e1]
      dsimp only
      rw [← hk, e2]
      dsimp only
      rw [hchk]
      refine ⟨_, _, rfl, ?_⟩
      show w.obs.mjd + slew / 24 / 3600 + (M.observe k o' w.obs.mjd).2.2 / 24 / 3600 = _
      ring
    have hob' : (env S M fuel conds mount D).observe { w with sched := u } (asked o) = ({ w with sched := u, obs := s' }, some v, false) := by
      show observeOf S M fuel _ _ = _
      unfold observeOf
      show (match Obs.observe S M fuel w.obs o with
        | .error _ => _
        | .ok (s, r, nn) => _) = _
      rw [hob]
    dsimp only [Option.map]
    rw [hob']
    dsimp only
    unfold Sim.completedPass
    dsimp only
    split
    · trivial
    · set w3 : World U K := { w with sched := u, obs := s' } with hw3
      have hadd : (Sim.addOverhead (env S M fuel conds mount D) cfg w3 v).raised = false ∧ I (Sim.addOverhead (env S M fuel conds mount D) cfg w3 v).sched
          ∧ s'.mjd ≤ (Sim.addOverhead (env S M fuel conds mount D) cfg w3 v).obs.mjd ∧ (Sim.addOverhead (env S M fuel conds mount D) cfg w3 v).obs.mjd ≤ s'.mjd + over / 24 / 3600 := by
        have hv := hD u v
        have hv' := hover u v
        unfold Sim.addOverhead
        split_ifs
        · refine ⟨hc.calm h.calm, hA.overhead _ _ hu, ?_, ?_⟩
          · show s'.mjd ≤ s'.mjd + (D.overhead u v).2 / 86400
            have : 0 ≤ (D.overhead u v).2 / 86400 := by positivity
            linarith
          · show s'.mjd + (D.overhead u v).2 / 86400 ≤ _
            have : (D.overhead u v).2 / 86400 ≤ over / 86400 := div_le_div_of_nonneg_right hv' (by norm_num)
            have e : over / 24 / 3600 = over / 86400 := by ring
            linarith
        · have : 0 ≤ over / 24 / 3600 := by
            have : 0 ≤ over := by linarith
            positivity
          exact ⟨hc.calm h.calm, hu, le_rfl, by show s'.mjd ≤ _; linarith⟩
      have hsoon : (Sim.addOverhead (env S M fuel conds mount D) cfg w3 v).obs.mjd ≤ t0 + ((s.counter + 1 : ℕ) : ℚ) * ((most + over) / 24 / 3600) := by
        have h6 := h.soon
        have e : ((s.counter + 1 : ℕ) : ℚ) * ((most + over) / 24 / 3600) = s.counter * ((most + over) / 24 / 3600) + most / 24 / 3600 + over / 24 / 3600 := by
          push_cast
          ring
        rw [e]
        linarith [hadd.2.2.2]
      set w4 : World U K := Sim.addOverhead (env S M fuel conds mount D) cfg w3 v
      unfold Sim.endOfPass
      rw [if_neg (by simp)]
      dsimp only
      cases hv : cfg.visitLimit with
      | none =>
        exact ⟨hadd.1, hA.bandAdd _ _ (hA.add _ _ hadd.2.1), show t0 ≤ w4.obs.mjd by linarith [h.since, hadd.2.2.1], h.till, rfl, hsoon⟩
      | some m =>
        dsimp only
        split_ifs with hm
        · exact ⟨hadd.1, by rw [hv, ← hm]⟩
        · exact ⟨hadd.1, hA.bandAdd _ _ (hA.add _ _ hadd.2.1), show t0 ≤ w4.obs.mjd by linarith [h.since, hadd.2.2.1], h.till, rfl, hsoon⟩

/-- **C262**, at least: if the site is open throughout the simulation and the time of one visit, the scheduler always has a visit that the telescope can make, and slew, visit and
overhead take at most so many seconds, then the visits fill the duration: their number times the longest time is at least the duration, or it is the limit asked for. -/
theorem C262_at_least (S : Obs.Site) (hn : Obs.Nights S.nights) (hd : Down.Ordered S.downs) (M : Obs.Kin K O) (hM : Obs.NonNeg M) (fuel : ℕ) (hf : 0 < fuel)
    (conds : Obs.St K → C) (mount : K → B → K)
    (D : Sched U O C B) (hD : FairOverhead D) (over : ℚ) (hover : ∀ u v, (D.overhead u v).2 ≤ over) (I : U → Prop) (Good : ℚ → O → Prop) (hA : Answers D I Good)
    (hbusy : ∀ u x u', I u → D.hasConds u = true → D.request u x ≠ some (u', none)) (most : ℚ) (hr : Attainable M Good most)
    (δ : ℚ) (hδ : 0 < δ) (hlong : ∀ k o t, δ ≤ (M.observe k o t).2.2)
    (cfg : Sim.Cfg) (hstep : 0 < cfg.stepNone) (hsize : 0 < cfg.startSize) (hmore : 0 < cfg.appendSize) (w : World U K) (hw : w.raised = false) (hI : I w.sched)
    (t0 : ℚ) (ht0 : t0 = cfg.simStart.getD w.obs.mjd) (hopen : ∀ t, t0 ≤ t → t ≤ t0 + cfg.duration + most / 24 / 3600 → Obs.Open S t)
    (n : ℕ) (hfuel : 2 * ⌈cfg.duration / min (δ / 24 / 3600) (cfg.stepNone / 60 / 24) + 1⌉₊ + 1 ≤ n) :
    ∃ s, Sim.run (V := Obs.Visit O) (env S M fuel conds mount D) cfg n w = .finished s ∧ s.w.raised = false
      ∧ (cfg.duration * 86400 ≤ s.counter * (most + over) ∨ cfg.visitLimit = some (s.counter : ℤ)) := by
  have h1 := C183_ends S hn hd M hM fuel conds mount D hD δ hδ hlong cfg hstep w n hfuel
  have h2 := C17_no_index_error (V := Obs.Visit O) (env S M fuel conds mount D) cfg hsize hmore n w
  have hstart : Steady I ((most + over) / 24 / 3600) t0 (t0 + cfg.duration) (Sim.start (V := Obs.Visit O) (env S M fuel conds mount D) cfg w) := by
    have h0 : ∀ x : ℚ, x ≤ x + ((0 : ℕ) : ℚ) * ((most + over) / 24 / 3600) := by simp
    unfold Sim.start
    cases hc : cfg.simStart with
    | none =>
      rw [hc] at ht0
      subst ht0
      exact ⟨hw, hA.bands _ _ hI, le_rfl, rfl, rfl, h0 _⟩
    | some m =>
      rw [hc] at ht0
      subst ht0
      exact ⟨hw, hA.bands _ _ hI, le_rfl, rfl, rfl, h0 _⟩
  have hpass := pass_steady hn hd hM hD hover hA hbusy hr hf hopen cfg (conds := conds) (mount := mount)
  have key := Sim.loop_inv (E := env S M fuel conds mount D) (cfg := cfg) (P := Steady I ((most + over) / 24 / 3600) t0 (t0 + cfg.duration))
    (Q := fun o => match o with
      | .finished s => s.w.raised = false ∧ (cfg.duration * 86400 ≤ s.counter * (most + over) ∨ cfg.visitLimit = some (s.counter : ℤ))
      | .gaveUp _ => False
      | .indexError _ => True
      | .running _ => True)
    (fun s s' h hs e => by have := hpass s h hs; rw [e] at this; exact this)
    (fun s s' h hs e => by have := hpass s h hs; rw [e] at this; exact ⟨this.1, .inr this.2⟩)
    (fun s s' h hs e => by have := hpass s h hs; rw [e] at this; exact this)
    (fun s s' h hs e => trivial)
    (fun s h hs => ⟨h.calm, .inl (by
      have e1 := not_lt.1 hs
      rw [h.till, h.now] at e1
      have e2 := h.soon
      have e3 : (s.counter : ℚ) * ((most + over) / 24 / 3600) = s.counter * (most + over) / 86400 := by ring
      rw [e3] at e2
      have e4 : cfg.duration ≤ s.counter * (most + over) / 86400 := by linarith
      rwa [le_div_iff₀ (by norm_num)] at e4)⟩)
    (fun s h hs => trivial) n _ hstart
  unfold Sim.run at h1 h2 ⊢
  revert h1 h2 key
  cases Sim.loop (V := Obs.Visit O) (env S M fuel conds mount D) cfg n (Sim.start (env S M fuel conds mount D) cfg w) with
  | finished s => exact fun _ _ key => ⟨s, rfl, key⟩
  | gaveUp s => exact fun _ _ key => key.elim
  | indexError s => exact fun _ h2 _ => absurd rfl (h2 s)
  | running s => exact fun h1 _ _ => absurd rfl (h1 s)

end

/-! ### The core scheduler -/

section
variable {K C B Sv A H : Type} {E : Env C Sv A} {d : List (String × String)} {R : Sv → Prop}

/-- Surveys that are feasible whatever the conditions, and stay so. -/
structure Ready (E : Env C Sv A) (R : Sv → Prop) : Prop where
  feasible : ∀ v c, R v → ∃ r ∈ (E.sv.reward v c).1, XReal.ltB .ninf r = true
  reward : ∀ v c, R v → R (E.sv.reward v c).2
  gen : ∀ v c, R v → R (E.sv.gen v c).2
  addObs : ∀ v o, R v → R (E.sv.addObs v o)
  update : ∀ v c, R v → R (E.sv.update v c)

/-- Some survey of some tier. -/
def Some2 (R : Sv → Prop) (ts : List (List Sv)) : Prop := ∃ t ∈ ts, ∃ v ∈ t, R v

theorem Some2.map {ts : List (List Sv)} (h : Some2 R ts) {f : Sv → Sv} (hf : ∀ v, R v → R (f v)) : Some2 R (ts.map (List.map f)) := by
  obtain ⟨t, ht, v, hv, hr⟩ := h
  exact ⟨_, List.mem_map_of_mem ht, _, List.mem_map_of_mem hv, hf v hr⟩

theorem fillQueue_ready (hR : Ready E R) {s s' : Core C Sv A} {c : C} {ev : List Ev} (hc : s.conditions = some c) (h : Stocked d s) (hs : Some2 R s.tiers)
    (he : s.fillQueue E = .ok (s', ev)) : Some2 R s'.tiers := by
  rcases Verif.fillQueue_cases E hc h.full h.some with ⟨-, e⟩ | ⟨pre, a, sv, b, post, hsp, -, -, -, -, e⟩
  · rw [e] at he
    cases he
    exact hs.map fun v => hR.reward v c
  · rw [e] at he
    unfold Core.chosen at he
    dsimp only at he
    split at he
    · cases he
    · cases he
      obtain ⟨t, ht, v, hv, hr⟩ := hs
      rw [hsp] at ht
      show Some2 R (_ ++ _ :: _)
      rcases List.mem_append.1 ht with ht | ht
      · exact ⟨_, List.mem_append_left _ (List.mem_map_of_mem ht), _, List.mem_map_of_mem hv, hR.reward v c hr⟩
      · rcases List.mem_cons.1 ht with rfl | ht
        · refine ⟨_, List.mem_append_right _ List.mem_cons_self, ?_⟩
          rcases List.mem_append.1 hv with hv | hv
          · exact ⟨_, List.mem_append_left _ (List.mem_map_of_mem hv), hR.reward v c hr⟩
          · rcases List.mem_cons.1 hv with rfl | hv
            · exact ⟨_, List.mem_append_right _ List.mem_cons_self, hR.gen _ c (hR.reward _ c hr)⟩
            · exact ⟨_, List.mem_append_right _ (List.mem_cons_of_mem _ (List.mem_map_of_mem hv)), hR.reward v c hr⟩
        · exact ⟨t, List.mem_append_right _ (List.mem_cons_of_mem _ ht), v, hv, hr⟩

theorem request_ready (hR : Ready E R) (hg : Named E d) {s s' : Core C Sv A} {x : ℚ} {r : Option Obs} (h : Stocked d s) (hs : Some2 R s.tiers)
    (he : coreRequest E s x = some (s', r)) : Some2 R s'.tiers := by
  unfold coreRequest at he
  cases hr : s.request E (some x) false with
  | error e => rw [hr] at he; cases he
  | ok z =>
    obtain ⟨s1, l, ev⟩ := z
    rw [hr] at he
    have he : some (s1, l.bind List.head?) = some (s', r) := he
    simp only [Option.some.injEq, Prod.mk.injEq] at he
    obtain ⟨rfl, -⟩ := he
    obtain ⟨c, s2, ev1, hc, hfirst, hrest⟩ := Core.request_cases hr
    have h2 : Stocked d s2 ∧ s2.conditions = some c ∧ Some2 R s2.tiers := by
      rcases hfirst with ⟨-, hf⟩ | ⟨-, rfl, -⟩
      · obtain ⟨s3, ev3, e3, h3, h4⟩ := fillQueue_total hg hc h
        rw [hf] at e3
        cases e3
        exact ⟨h3, h4, fillQueue_ready hR hc h hs hf⟩
      · exact ⟨h, hc, hs⟩
    rcases hrest with ⟨-, rfl, -, -⟩ | ⟨-, -, rfl, -, -⟩ | ⟨-, -, s3, ev2, hf, rfl, -⟩
    · exact h2.2.2
    · exact h2.2.2
    · show Some2 R s3.tiers
      exact fillQueue_ready (d := d) hR (s := { s2 with qm := (s2.qm.request E.q c false).2.flush }) h2.2.1 ⟨h2.1.full, h2.1.some, h2.1.dict⟩ h2.2.2 hf

theorem noExpiry_add {q : QM A} (h : NoExpiry q) (o : Obs) : NoExpiry (q.addObs E.q o) := by
  refine ⟨Core.qaddObs_aligned _ _ _ h.1, ?_⟩
  unfold QM.addObs
  dsimp only
  split_ifs
  · exact h.2
  · exact h.2

/-- States of a core scheduler that always has something to observe. -/
structure Stands (d : List (String × String)) (R : Sv → Prop) (s : Core C Sv A) : Prop where
  stocked : Stocked d s
  queue : NoExpiry s.qm
  ready : Some2 R s.tiers

theorem core_steady (X : Rest H C B) (hg : Named E d) (Good : ℚ → Obs → Prop)
    (hgood : ∀ s x s' o, Stocked d s → coreRequest E s x = some (s', some o) → Good x o) (hR : Ready E R)
    (hmask : ∀ a c, (E.q.reward a c).length ≤ 1) (hdet : ∀ a c l, l ≠ [] → (E.q.detail a c l).1 ≠ []) (hexp : ∀ sv c, ∀ g ∈ (E.sv.gen sv c).1, g.flushBy = 0)
    (hgen : ∀ sv c, (∃ r ∈ (E.sv.reward sv c).1, XReal.ltB .ninf r = true) → (E.sv.gen (E.sv.reward sv c).2 c).1 ≠ []) :
    Answers (coreSched E X) (fun u => Stands d R u.1) Good ∧
      ∀ u x u', Stands d R u.1 → (coreSched E X).hasConds u = true → (coreSched E X).request u x ≠ some (u', none) := by
  have hA := core_answers X hg Good hgood
  have hsplit : ∀ (u : Core C Sv A × H) x u' r, (coreSched E X).request u x = some (u', r) → coreRequest E u.1 x = some (u'.1, r) := by
    intro u x u' r h
    have h : (coreRequest E u.1 x).map (fun r => ((r.1, u.2), r.2)) = some (u', r) := h
    obtain ⟨z, hz, e⟩ := Option.map_eq_some_iff.1 h
    cases e
    exact hz
  refine ⟨⟨hA.conds, ?_, ?_, ?_, fun _ _ h => h, ?_, fun _ _ h => h, fun _ _ h => h⟩, ?_⟩
  · intro u x h hc
    obtain ⟨u', r, e, h', hgd⟩ := hA.request u x h.stocked hc
    have e' := hsplit _ _ _ _ e
    exact ⟨u', r, e, ⟨h', (core_idle hmask hdet hexp hgen h.queue e').1, request_ready hR hg h.stocked h.ready e'⟩, hgd⟩
  · intro u c h
    refine ⟨hA.update u c h.stocked, noExpiry_update _ _ h.queue, ?_⟩
    have : (u.1.tooStep E c).tiers = u.1.tiers := by
      unfold Core.tooStep
      split_ifs
      · split
        · rfl
        · dsimp only
          split_ifs <;> rfl
      · rfl
    show Some2 R ((u.1.tooStep E c).tiers.map _)
    rw [this]
    exact h.ready.map fun v => hR.update v c
  · exact fun u v h => ⟨hA.add u v h.stocked, noExpiry_add h.queue _, h.ready.map fun s => hR.addObs s _⟩
  · exact fun u h => ⟨hA.flush u h.stocked, ⟨rfl, fun o ho => absurd ho List.not_mem_nil⟩, h.ready⟩
  · intro u x u' h hc e
    have e' := hsplit _ _ _ _ e
    obtain ⟨c, hc⟩ := Option.isSome_iff_exists.1 hc
    obtain ⟨t, ht, v, hv, hr⟩ := h.ready
    exact ((core_idle hmask hdet hexp hgen h.queue e').2 rfl).2 c hc t ht v hv (hR.feasible v c hr)

/-- C262 for the core scheduler, as in C222 without masks in its queue and expiry times, with a survey that is always feasible: in open skies its visits fill the duration. -/
theorem C262_core (S : Obs.Site) (hn : Obs.Nights S.nights) (hd : Down.Ordered S.downs) (M : Obs.Kin K Obs) (hM : Obs.NonNeg M) (fuel : ℕ) (hf : 0 < fuel)
    (conds : Obs.St K → C) (mount : K → B → K) (E : Env C Sv A) (X : Rest H C B) (hD : FairOverhead (coreSched E X)) (over : ℚ) (hover : ∀ u v, (X.overhead u v).2 ≤ over)
    (d : List (String × String)) (hg : Named E d) (Good : ℚ → Obs → Prop) (hgood : ∀ s x s' o, Stocked d s → coreRequest E s x = some (s', some o) → Good x o)
    (R : Sv → Prop) (hR : Ready E R) (hmask : ∀ a c, (E.q.reward a c).length ≤ 1) (hdet : ∀ a c l, l ≠ [] → (E.q.detail a c l).1 ≠ [])
    (hexp : ∀ sv c, ∀ g ∈ (E.sv.gen sv c).1, g.flushBy = 0)
    (hgen : ∀ sv c, (∃ r ∈ (E.sv.reward sv c).1, XReal.ltB .ninf r = true) → (E.sv.gen (E.sv.reward sv c).2 c).1 ≠ [])
    (most : ℚ) (hr : Attainable M Good most) (δ : ℚ) (hδ : 0 < δ) (hlong : ∀ k o t, δ ≤ (M.observe k o t).2.2)
    (cfg : Sim.Cfg) (hstep : 0 < cfg.stepNone) (hsize : 0 < cfg.startSize) (hmore : 0 < cfg.appendSize) (w : World (Core C Sv A × H) K) (hw : w.raised = false)
    (hfull : ∀ t ∈ w.sched.1.tiers, t ≠ []) (hready : ∃ t ∈ w.sched.1.tiers, ∃ v ∈ t, R v) (hdict : w.sched.1.bandToFilter = d)
    (hq : w.sched.1.qm.desired = []) (hq' : w.sched.1.qm.need = [])
    (t0 : ℚ) (ht0 : t0 = cfg.simStart.getD w.obs.mjd) (hopen : ∀ t, t0 ≤ t → t ≤ t0 + cfg.duration + most / 24 / 3600 → Obs.Open S t)
    (n : ℕ) (hfuel : 2 * ⌈cfg.duration / min (δ / 24 / 3600) (cfg.stepNone / 60 / 24) + 1⌉₊ + 1 ≤ n) :
    ∃ s, Sim.run (V := Obs.Visit Obs) (env S M fuel conds mount (coreSched E X)) cfg n w = .finished s ∧ s.w.raised = false
      ∧ (cfg.duration * 86400 ≤ s.counter * (most + over) ∨ cfg.visitLimit = some (s.counter : ℤ)) := by
  obtain ⟨hA, hb⟩ := core_steady X hg Good hgood hR hmask hdet hexp hgen
  refine C262_at_least S hn hd M hM fuel hf conds mount _ hD over (fun u v => hover _ _) _ Good hA hb most hr δ hδ hlong cfg hstep hsize hmore w hw ⟨⟨hfull, ?_, hdict⟩, ⟨?_, ?_⟩, hready⟩ t0 ht0
    hopen n hfuel
  · obtain ⟨t, ht, -⟩ := hready
    exact List.ne_nil_of_mem ht
  · unfold QM.Aligned
    rw [hq, hq']
    rfl
  · rw [hq]
    exact fun o ho => absurd ho List.not_mem_nil

/-- Surveys that always want a visit. -/
def countE : Env ToyC ToySv Unit := { busyE false with sv := { (busyE false).sv with reward := fun s _ => (s.reward, s) } }

/-- A simulation of almost four hours in the second night meets the assumptions; see below for what comes out. -/
example : Named countE [] ∧ Ready countE (fun v => v = ⟨[.fin 1], [], none⟩) ∧ (∀ a c, (countE.q.reward a c).length ≤ 1) ∧ (∀ a c l, l ≠ [] → (countE.q.detail a c l).1 ≠ [])
    ∧ (∀ sv c, ∀ g ∈ (countE.sv.gen sv c).1, g.flushBy = 0) ∧ (∀ sv c, (countE.sv.gen (countE.sv.reward sv c).2 c).1 ≠ [])
    ∧ (∀ t, (21 / 20 : ℚ) ≤ t → t ≤ 21 / 20 + 16 / 100 + 2060 / 24 / 3600 → Obs.Open toySite t) := by
  refine ⟨fun sv c o _ _ h => absurd rfl h, ⟨?_, ?_, ?_, ?_, ?_⟩, fun a c => ?_, fun a c l h => h, ?_, ?_, fun t h1 h2 => ⟨?_, ⟨(1, 3 / 2), by simp [toySite], by linarith, ?_⟩, ?_⟩⟩
  · rintro v c rfl
    exact ⟨.fin 1, List.mem_singleton.2 rfl, rfl⟩
  · rintro v c rfl; rfl
  · rintro v c rfl; rfl
  · rintro v c rfl; rfl
  · rintro v c rfl; rfl
  · show ([XReal.fin 0]).length ≤ 1
    exact le_rfl
  · intro sv c g hg
    obtain ⟨x, -, rfl⟩ := List.mem_map.1 hg
    rfl
  · intro sv c
    show List.map _ (if sv.visits = [] then _ else _) ≠ []
    split_ifs with h
    · simp
    · rw [Ne, List.map_eq_nil_iff]
      exact h
  · simp only [toySite]
    rw [if_neg fun h => by linarith [h.2]]
    norm_num
  · show t ≤ 3 / 2
    norm_num at h2
    linarith
  · rintro ⟨d, hd, h3, h4⟩
    simp only [toySite, List.mem_cons, List.not_mem_nil, or_false] at hd
    subst hd
    dsimp only at h4
    linarith

/-- How a simulation of this scheduler ends. -/
def countOut (over : Bool) (limit : Option ℤ) : String × Bool × ℕ × ℚ :=
  endOut (Sim.run (env toySite freeKin 20 (fun s => ⟨s.mjd, none⟩) (fun k _ => k) (coreSched countE wholeRest))
    { simStart := some (21 / 20), duration := 16 / 100, startSize := 2, appendSize := 2, useOverhead := over, visitLimit := limit } 100 { busyStart with sched := (Core.init () [[⟨[.fin 1], [], none⟩]] 5 false [], ()) })

/-- The 13824 seconds are filled by seven visits of 2060 seconds and overheads of 5, or by the visits asked for. -/
example : countOut true none = ("finished", false, 7, 4207 / 3456) ∧ countOut false none = ("finished", false, 7, 5257 / 4320) ∧ countOut true (some 3) = ("finished", false, 3, 6461 / 5760) := by
  decide +kernel

/-- Each of the bounds of C262 leaves only seven visits. -/
example : (16 / 100 * 86400 : ℚ) ≤ 7 * (2060 + 5) ∧ ¬ (16 / 100 * 86400 : ℚ) ≤ 6 * (2060 + 5) ∧ (7 : ℚ) ≤ 16 / 100 * 86400 / 2000 + 1 ∧ ¬ (8 : ℚ) ≤ 16 / 100 * 86400 / 2000 + 1 := by
  norm_num

end

end Verif
