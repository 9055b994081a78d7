import Verif.Lemmas.CoreSwap
import Verif.Props.SearchEnds
import Verif.Props.Whole

/-!
Property C261: a simulation inside the almanac, with a scheduler that can answer, ends without an error, and at its end.
-/

namespace Verif

open Whole

section
variable {U K O C B : Type}

/-- A scheduler that answers: in the states kept by its calls a request does not raise once it has conditions, and asks for visits that are good at that time. -/
structure Answers (D : Sched U O C B) (I : U → Prop) (Good : ℚ → O → Prop) : Prop where
  conds : ∀ u c, D.hasConds (D.update u c) = true
  request : ∀ u x, I u → D.hasConds u = true → ∃ u' r, D.request u x = some (u', r) ∧ I u' ∧ ∀ o ∈ r, Good x o
  update : ∀ u c, I u → I (D.update u c)
  add : ∀ u v, I u → I (D.add u v)
  bandAdd : ∀ u v, I u → I (D.bandAdd u v)
  flush : ∀ u, I u → I (D.flush u)
  bands : ∀ u c, I u → I (D.bands u c).1
  overhead : ∀ u v, I u → I (D.overhead u v).1

/-- Visits that are good at a time can be made by the telescope then, slew and visit within some seconds. -/
def Attainable (M : Obs.Kin K O) (Good : ℚ → O → Prop) (most : ℚ) : Prop :=
  ∀ k k' t o, Good t o → ∃ o' slew, M.prepare k t o = some o' ∧ (M.observe k' o' t).2.1 = some slew ∧ slew + (M.observe k' o' t).2.2 ≤ most

/-- A night of the almanac, open throughout and twenty minutes long. -/
structure OpenNight (S : Obs.Site) (N : ℚ × ℚ) : Prop where
  mem : N ∈ S.nights
  long : N.1 + 20 / 60 / 24 ≤ N.2
  all : ∀ t, N.1 ≤ t → t ≤ N.2 → Obs.Open S t

/-- The search for the next open time is given enough steps: the real search has no bound. -/
def Enough (S : Obs.Site) (fuel : ℕ) (N : ℚ × ℚ) (t : ℚ) : Prop :=
  2 * (S.nights.length + S.downs.length) + 3 * ⌈(N.2 - t) / (20 / 60 / 24)⌉₊ + 2 ≤ fuel

variable {S : Obs.Site} {M : Obs.Kin K O} {fuel : ℕ} {conds : Obs.St K → C} {mount : K → B → K} {D : Sched U O C B}
  {I : U → Prop} {Good : ℚ → O → Prop} {most : ℚ} {N : ℚ × ℚ} {t0 : ℚ}

/-- Before the end of an open night the observatory takes every good visit, or moves its clock on. -/
theorem observe_total (hn : Obs.Nights S.nights) (hd : Down.Ordered S.downs) (hM : Obs.NonNeg M) (hr : Attainable M Good most) (hN : OpenNight S N) (hf : Enough S fuel N t0)
    (s : Obs.St K) (o : O) (hg : Good s.mjd o) (h0 : t0 ≤ s.mjd) (h1 : s.mjd + most / 24 / 3600 ≤ N.2) :
    ∃ s' v nn, Obs.observe S M fuel s o = .ok (s', v, nn) ∧ s.mjd ≤ s'.mjd ∧ (v = none → s.mjd < s'.mjd) := by
  unfold Obs.observe
  set k := if S.parkAfter < s.mjd - M.lastMjd s.kin then M.park s.kin else s.kin with hk
  obtain ⟨o', slew, e1, e2, e3⟩ := hr s.kin k s.mjd o hg
  rw [e1]
  dsimp only
  rw [e2]
  dsimp only
  have h2 := (hM k o' s.mjd).1 slew (by rw [e2]; rfl)
  have h3 := (hM k o' s.mjd).2
  have h4 : 0 ≤ (slew + (M.observe k o' s.mjd).2.2) / 24 / 3600 := by positivity
  have h5 : (slew + (M.observe k o' s.mjd).2.2) / 24 / 3600 ≤ most / 24 / 3600 :=
    div_le_div_of_nonneg_right (div_le_div_of_nonneg_right e3 (by norm_num)) (by norm_num)
  obtain ⟨b, t', hc, -⟩ := C24_clouds_end S hn hd N hN.mem hN.long hN.all (s.mjd + (slew + (M.observe k o' s.mjd).2.2) / 24 / 3600) (by linarith) fuel (by
    refine le_trans ?_ hf
    have : ⌈(N.2 - (s.mjd + (slew + (M.observe k o' s.mjd).2.2) / 24 / 3600)) / (20 / 60 / 24)⌉₊ ≤ ⌈(N.2 - t0) / (20 / 60 / 24)⌉₊ :=
      Nat.ceil_mono (div_le_div_of_nonneg_right (by linarith) (by norm_num))
    omega)
  rw [hc]
  cases b with
  | true =>
    refine ⟨_, _, _, rfl, ?_, fun h => by cases h⟩
    show s.mjd ≤ s.mjd + slew / 24 / 3600 + (M.observe k o' s.mjd).2.2 / 24 / 3600
    have : 0 ≤ slew / 24 / 3600 := by positivity
    have : 0 ≤ (M.observe k o' s.mjd).2.2 / 24 / 3600 := by positivity
    linarith
  | false =>
    have h6 := (((Obs.check_spec hn hd fuel).1 _ _ _ hc).2 rfl).2.1
    refine ⟨_, _, _, rfl, ?_, fun _ => ?_⟩ <;> show _ <;> dsimp only <;> linarith

/-- What holds between passes: nothing was raised, and the clock is not before the start and the last flush. -/
structure Fine (I : U → Prop) (t0 te : ℚ) (s : Sim.St (World U K) (Obs.Visit O)) : Prop where
  calm : s.w.raised = false
  inv : I s.w.sched
  since : t0 ≤ s.w.obs.mjd
  flushed : s.lastFlush ≤ s.w.obs.mjd
  till : s.endMjd = te
  behind : s.mjd ≤ s.w.obs.mjd
  near : s.mjd = s.w.obs.mjd ∨ s.w.obs.mjd ≤ te

/-- Worlds that differ in the conditions of the scheduler and the place of the telescope only. -/
structure Calm (I : U → Prop) (w' w : World U K) : Prop where
  calm : w.raised = false → w'.raised = false
  inv : I w.sched → I w'.sched
  clock : w'.obs.mjd = w.obs.mjd

theorem updateNow_calm (hA : Answers D I Good) (w : World U K) :
    Calm I (Sim.updateNow (env S M fuel conds mount D) w) w ∧ D.hasConds (Sim.updateNow (env S M fuel conds mount D) w).sched = true :=
  ⟨⟨id, hA.update _ _, rfl⟩, hA.conds _ _⟩

theorem mountNow_calm (hA : Answers D I Good) (w : World U K) : Calm I (Sim.mountNow (env S M fuel conds mount D) w) w :=
  ⟨id, hA.bands _ _, rfl⟩

theorem refresh_calm (hA : Answers D I Good) (cfg : Sim.Cfg) (w : World U K) :
    Calm I (Sim.refresh (env S M fuel conds mount D) cfg w) w ∧ D.hasConds (Sim.refresh (env S M fuel conds mount D) cfg w).sched = true := by
  have up : ∀ w2 : World U K, Calm I w2 w → Calm I (Sim.updateNow (env S M fuel conds mount D) w2) w ∧ D.hasConds (Sim.updateNow (env S M fuel conds mount D) w2).sched = true := by
    intro w2 h2
    have h3 := updateNow_calm (S := S) (M := M) (fuel := fuel) (conds := conds) (mount := mount) hA w2
    exact ⟨⟨fun e => h3.1.calm (h2.calm e), fun e => h3.1.inv (h2.inv e), h3.1.clock.trans h2.clock⟩, h3.2⟩
  unfold Sim.refresh
  set a := (if (env S M fuel conds mount D).hasConds w then (w, false) else (Sim.updateNow (env S M fuel conds mount D) w, true)) with ha
  have h1 : Calm I a.1 w ∧ D.hasConds a.1.sched = true := by
    rw [ha]
    split_ifs with hc
    · exact ⟨⟨id, id, rfl⟩, hc⟩
    · exact up _ ⟨id, id, rfl⟩
  set k := (env S M fuel conds mount D).check a.1 ((env S M fuel conds mount D).clock a.1) with hk
  have h2 : Calm I k.1 w ∧ D.hasConds k.1.sched = true := h1
  set b := (if k.2 then (k.1, a.2) else (Sim.updateNow (env S M fuel conds mount D) k.1, true)) with hb
  have h3 : Calm I b.1 w ∧ D.hasConds b.1.sched = true := by
    rw [hb]
    split_ifs
    · exact h2
    · exact up _ h2.1
  show Calm I (if cfg.updateEvery && !b.2 then Sim.updateNow (env S M fuel conds mount D) b.1 else b.1) w
    ∧ D.hasConds (if cfg.updateEvery && !b.2 then Sim.updateNow (env S M fuel conds mount D) b.1 else b.1).sched = true
  split_ifs
  · exact up _ h3.1
  · exact h3

/-- How a pass may end: not by an error, with what holds between passes, or at the end of the simulation or at the limit of visits. -/
def GoodPass (I : U → Prop) (t0 te : ℚ) (cfg : Sim.Cfg) : Sim.Pass (World U K) (Obs.Visit O) → Prop
  | .again s => Fine I t0 te s
  | .brk s => s.w.raised = false ∧ (te ≤ s.w.obs.mjd ∨ cfg.visitLimit = some (s.counter : ℤ))
  | .gaveUp _ => False
  | .indexError _ => True

theorem endOfPass_good (hA : Answers D I Good) (cfg : Sim.Cfg) (nn : Bool) {te : ℚ} (s : Sim.St (World U K) (Obs.Visit O)) (h1 : s.w.raised = false) (h2 : I s.w.sched)
    (h3 : t0 ≤ s.w.obs.mjd) (h4 : s.lastFlush ≤ s.w.obs.mjd) (h5 : s.endMjd = te) : GoodPass I t0 te cfg (Sim.endOfPass (env S M fuel conds mount D) cfg nn s) := by
  unfold Sim.endOfPass
  set w := (if nn then Sim.mountNow (env S M fuel conds mount D) s.w else s.w) with hw
  have hc : Calm I w s.w := by
    rw [hw]
    split_ifs
    · exact mountNow_calm hA _
    · exact ⟨id, id, rfl⟩
  have hf : Fine I t0 te { s with w := w, mjd := (env S M fuel conds mount D).clock w } :=
    ⟨hc.calm h1, hc.inv h2, by rw [hc.clock]; exact h3, by rw [hc.clock]; exact h4, h5, le_rfl, .inl rfl⟩
  cases hv : cfg.visitLimit with
  | none => exact hf
  | some n =>
    dsimp only
    split_ifs with hn
    · exact ⟨hf.calm, .inr (by rw [hv, ← hn])⟩
    · exact hf

theorem pass_good (hn : Obs.Nights S.nights) (hd : Down.Ordered S.downs) (hM : Obs.NonNeg M) (hD : FairOverhead D) (hA : Answers D I Good) (hr : Attainable M Good most)
    (hN : OpenNight S N) (hf : Enough S fuel N t0) {te : ℚ} (hend : te + most / 24 / 3600 ≤ N.2) (cfg : Sim.Cfg) (hstep : 0 ≤ cfg.stepNone)
    (s : Sim.St (World U K) (Obs.Visit O)) (h : Fine I t0 te s) (hs : s.mjd < s.endMjd) : GoodPass I t0 te cfg (Sim.pass (env S M fuel conds mount D) cfg s) := by
  have hcl : s.w.obs.mjd ≤ te := by
    rcases h.near with e | e
    · rw [← e, ← h.till]
      exact hs.le
    · exact e
  unfold Sim.pass
  dsimp only
  obtain ⟨hc, hh⟩ := refresh_calm (S := S) (M := M) (fuel := fuel) (conds := conds) (mount := mount) hA cfg s.w
  set w := Sim.refresh (env S M fuel conds mount D) cfg s.w
  obtain ⟨u, r, hreq, hu, hg⟩ := hA.request w.sched w.obs.mjd (hc.inv h.inv) hh
  have hq : (env S M fuel conds mount D).request w ((env S M fuel conds mount D).clock w) = ({ w with sched := u }, r.map asked) := by
    show requestOf D w w.obs.mjd = _
    unfold requestOf
    rw [hreq]
  rw [hq]
  cases r with
  | none =>
    show GoodPass I t0 te cfg (Sim.skipPass (env S M fuel conds mount D) cfg { s with w := { w with sched := u } })
    unfold Sim.skipPass
    dsimp only
    have hst : 0 ≤ cfg.step := by unfold Sim.Cfg.step; positivity
    set w2 : World U K := (env S M fuel conds mount D).setClock { w with sched := u } ((env S M fuel conds mount D).clock { w with sched := u } + cfg.step) with hw2
    have e2 : w2.obs.mjd = s.w.obs.mjd + cfg.step := by
      show w.obs.mjd + cfg.step = _
      rw [hc.clock]
    have h3 := (updateNow_calm (S := S) (M := M) (fuel := fuel) (conds := conds) (mount := mount) hA w2).1
    have e3 := h3.clock.trans e2
    have hcalm := h3.calm (hc.calm h.calm)
    split_ifs with hlt
    · refine ⟨hcalm, .inl ?_⟩
      rw [h.till] at hlt
      exact hlt.le
    · refine ⟨hcalm, h3.inv hu, ?_, ?_, h.till, ?_, .inr ?_⟩
      · show t0 ≤ (Sim.updateNow (env S M fuel conds mount D) w2).obs.mjd
        rw [e3]
        linarith [h.since]
      · show s.lastFlush ≤ (Sim.updateNow (env S M fuel conds mount D) w2).obs.mjd
        rw [e3]
        linarith [h.flushed]
      · show s.mjd ≤ (Sim.updateNow (env S M fuel conds mount D) w2).obs.mjd
        rw [e3]
        linarith [h.behind]
      · rw [h.till] at hlt
        exact not_lt.1 hlt
  | some o =>
    obtain ⟨s', v, nn, hob, hle, hlt⟩ := observe_total hn hd hM hr hN hf w.obs o (hg o rfl) (by rw [hc.clock]; exact h.since) (by rw [hc.clock]; linarith)
    have hob' : (env S M fuel conds mount D).observe { w with sched := u } (asked o) = ({ w with sched := u, obs := s' }, v, nn) := by
      show observeOf S M fuel _ _ = _
      unfold observeOf
      show (match Obs.observe S M fuel w.obs o with
        | .error _ => _
        | .ok (s, r, nn) => _) = _
      rw [hob]
    have hs1 : t0 ≤ s'.mjd := by linarith [h.since, hc.clock]
    have hs2 : s.lastFlush ≤ s'.mjd := by linarith [h.flushed, hc.clock]
    dsimp only [Option.map]
    rw [hob']
    cases v with
    | some v =>
      dsimp only
      unfold Sim.completedPass
      dsimp only
      split
      · trivial
      · set w3 : World U K := { w with sched := u, obs := s' } with hw3
        have h4 : (Sim.addOverhead (env S M fuel conds mount D) cfg w3 v).raised = false ∧ I (Sim.addOverhead (env S M fuel conds mount D) cfg w3 v).sched
            ∧ s'.mjd ≤ (Sim.addOverhead (env S M fuel conds mount D) cfg w3 v).obs.mjd := by
          unfold Sim.addOverhead
          split_ifs
          · refine ⟨hc.calm h.calm, hA.overhead _ _ hu, ?_⟩
            show s'.mjd ≤ s'.mjd + (D.overhead u v).2 / 86400
            have := hD u v
            have : 0 ≤ (D.overhead u v).2 / 86400 := by positivity
            linarith
          · exact ⟨hc.calm h.calm, hu, le_rfl⟩
        exact endOfPass_good hA cfg nn _ h4.1 (hA.bandAdd _ _ (hA.add _ _ h4.2.1)) (le_trans hs1 h4.2.2) (le_trans hs2 h4.2.2) h.till
    | none =>
      have hlt := hlt rfl
      dsimp only
      unfold Sim.rejectedPass
      have hne : ¬ (env S M fuel conds mount D).clock ({ w with sched := u, obs := s' } : World U K) = s.lastFlush := by
        show ¬ s'.mjd = s.lastFlush
        have := h.flushed
        rw [← hc.clock] at this
        exact ne_of_gt (by linarith)
      rw [if_neg hne]
      exact endOfPass_good hA cfg nn _ (hc.calm h.calm) (hA.flush _ hu) hs1 le_rfl h.till

/-- **C261**: a simulation ends without an error, at its end or at the limit of visits, if its scheduler can answer, the telescope can make the visits asked for, every visit takes some
time, and the almanac goes on, after the end of the simulation and the time of one visit, up to the end of some night that is open for twenty minutes at least. -/
theorem C261_ends (S : Obs.Site) (hn : Obs.Nights S.nights) (hd : Down.Ordered S.downs) (M : Obs.Kin K O) (hM : Obs.NonNeg M) (fuel : ℕ) (conds : Obs.St K → C) (mount : K → B → K)
    (D : Sched U O C B) (hD : FairOverhead D) (I : U → Prop) (Good : ℚ → O → Prop) (hA : Answers D I Good) (most : ℚ) (hr : Attainable M Good most)
    (δ : ℚ) (hδ : 0 < δ) (hlong : ∀ k o t, δ ≤ (M.observe k o t).2.2)
    (cfg : Sim.Cfg) (hstep : 0 < cfg.stepNone) (hsize : 0 < cfg.startSize) (hmore : 0 < cfg.appendSize) (w : World U K) (hw : w.raised = false) (hI : I w.sched)
    (t0 : ℚ) (ht0 : t0 = cfg.simStart.getD w.obs.mjd) (hpos : -1 ≤ t0) (N : ℚ × ℚ) (hN : OpenNight S N) (hlate : t0 + cfg.duration + most / 24 / 3600 ≤ N.2)
    (hf : Enough S fuel N t0) (n : ℕ) (hfuel : 2 * ⌈cfg.duration / min (δ / 24 / 3600) (cfg.stepNone / 60 / 24) + 1⌉₊ + 1 ≤ n) :
    ∃ s, Sim.run (V := Obs.Visit O) (env S M fuel conds mount D) cfg n w = .finished s ∧ s.w.raised = false
      ∧ (t0 + cfg.duration ≤ s.w.obs.mjd ∨ cfg.visitLimit = some (s.counter : ℤ)) := by
  have h1 := C183_ends S hn hd M hM fuel conds mount D hD δ hδ hlong cfg hstep w n hfuel
  have h2 := C17_no_index_error (V := Obs.Visit O) (env S M fuel conds mount D) cfg hsize hmore n w
  have hstart : Fine I t0 (t0 + cfg.duration) (Sim.start (V := Obs.Visit O) (env S M fuel conds mount D) cfg w) := by
    unfold Sim.start
    cases hc : cfg.simStart with
    | none =>
      rw [hc] at ht0
      subst ht0
      exact ⟨hw, hA.bands _ _ hI, le_rfl, hpos, rfl, le_rfl, .inl rfl⟩
    | some m =>
      rw [hc] at ht0
      subst ht0
      exact ⟨hw, hA.bands _ _ hI, le_rfl, hpos, rfl, le_rfl, .inl rfl⟩
  have hpass := pass_good hn hd hM hD hA hr hN hf hlate cfg hstep.le (conds := conds) (mount := mount)
  have key := Sim.loop_inv (E := env S M fuel conds mount D) (cfg := cfg) (P := Fine I t0 (t0 + cfg.duration))
    (Q := fun o => match o with
      | .finished s => s.w.raised = false ∧ (t0 + cfg.duration ≤ s.w.obs.mjd ∨ cfg.visitLimit = some (s.counter : ℤ))
      | .gaveUp _ => False
      | .indexError _ => True
      | .running _ => True)
    (fun s s' h hs e => by have := hpass s h hs; rw [e] at this; exact this)
    (fun s s' h hs e => by have := hpass s h hs; rw [e] at this; exact this)
    (fun s s' h hs e => by have := hpass s h hs; rw [e] at this; exact this)
    (fun s s' h hs e => trivial)
    (fun s h hs => ⟨h.calm, .inl (by have := h.behind; rw [h.till] at hs; linarith [not_lt.1 hs])⟩)
    (fun s h hs => trivial) n _ hstart
  unfold Sim.run at h1 h2 ⊢
  revert h1 h2 key
  cases Sim.loop (V := Obs.Visit O) (env S M fuel conds mount D) cfg n (Sim.start (env S M fuel conds mount D) cfg w) with
  | finished s => exact fun _ _ key => ⟨s, rfl, key⟩
  | gaveUp s => exact fun _ _ key => key.elim
  | indexError s => exact fun _ h2 _ => absurd rfl (h2 s)
  | running s => exact fun h1 _ _ => absurd rfl (h1 s)

end

/-! ### The core scheduler -/

section
variable {K C B Sv A H : Type} {E : Env C Sv A} {d : List (String × String)}

/-- A scheduler with surveys in every tier, and its dictionary from bands to filters. -/
structure Stocked (d : List (String × String)) (s : Core C Sv A) : Prop where
  full : ∀ t ∈ s.tiers, t ≠ []
  some : s.tiers ≠ []
  dict : s.bandToFilter = d

/-- Surveys name a filter, or a band of the dictionary, if there is one. -/
def Named (E : Env C Sv A) (d : List (String × String)) : Prop :=
  ∀ sv c, ∀ o ∈ (E.sv.gen sv c).1, o.filter = "" → d ≠ [] → ∃ f, d.lookup o.band = some f

theorem fillFilters_total (d : List (String × String)) (l : List Obs) (h : ∀ o ∈ l, o.filter = "" → d ≠ [] → ∃ f, d.lookup o.band = some f) : ∃ l', fillFilters d l = .ok l' := by
  induction l with
  | nil => exact ⟨[], rfl⟩
  | cons o l ih =>
    obtain ⟨l', hl⟩ := ih fun x hx => h x (List.mem_cons_of_mem _ hx)
    unfold fillFilters fillFilter
    by_cases hc : o.filter = "" ∧ d.length > 0
    · obtain ⟨f, hf⟩ := h o List.mem_cons_self hc.1 (List.ne_nil_of_length_pos hc.2)
      rw [if_pos hc, hf, hl]
      exact ⟨_, rfl⟩
    · rw [if_neg hc, hl]
      exact ⟨_, rfl⟩

theorem mem_tagIds {l : List Obs} {n : Int} {o : Obs} (h : o ∈ tagIds n l) : ∃ x ∈ l, x.filter = o.filter ∧ x.band = o.band := by
  induction l generalizing n with
  | nil => cases h
  | cons x l ih =>
    rcases List.mem_cons.1 h with rfl | h
    · exact ⟨x, List.mem_cons_self, rfl, rfl⟩
    · obtain ⟨y, hy, e⟩ := ih h
      exact ⟨y, List.mem_cons_of_mem _ hy, e⟩

theorem Stocked.maps {s : Core C Sv A} (h : Stocked d s) (f : Sv → Sv) : (∀ t ∈ s.tiers.map (List.map f), t ≠ []) ∧ s.tiers.map (List.map f) ≠ [] := by
  refine ⟨fun t ht => ?_, by simpa using h.some⟩
  obtain ⟨t0, h0, rfl⟩ := List.mem_map.1 ht
  simpa using h.full t0 h0

/-- Filling the queue does not raise. -/
theorem fillQueue_total (hg : Named E d) {s : Core C Sv A} {c : C} (hc : s.conditions = some c) (h : Stocked d s) :
    ∃ s' ev, s.fillQueue E = .ok (s', ev) ∧ Stocked d s' ∧ s'.conditions = some c := by
  rcases Verif.fillQueue_cases E hc h.full h.some with ⟨-, e⟩ | ⟨pre, a, sv, b, post, hs, -, -, -, -, e⟩
  · exact ⟨_, _, e, ⟨(h.maps _).1, (h.maps _).2, h.dict⟩, hc⟩
  · unfold Core.chosen at e
    dsimp only at e
    obtain ⟨l, hl⟩ := fillFilters_total d (tagIds s.counter (E.sv.gen (E.sv.reward sv c).2 c).1) (by
      intro o ho h1 h2
      obtain ⟨x, hx, e1, e2⟩ := mem_tagIds ho
      rw [← e2]
      exact hg _ _ x hx (e1.trans h1) h2)
    rw [h.dict, hl] at e
    refine ⟨_, _, e, ⟨?_, by simp, rfl⟩, hc⟩
    intro t ht
    rcases List.mem_append.1 ht with ht | ht
    · obtain ⟨t0, h0, rfl⟩ := List.mem_map.1 ht
      simpa using h.full t0 (by rw [hs]; exact List.mem_append_left _ h0)
    · rcases List.mem_cons.1 ht with rfl | ht
      · simp
      · exact h.full t (by rw [hs]; exact List.mem_append_right _ (List.mem_cons_of_mem _ ht))

theorem request_total (hg : Named E d) {s : Core C Sv A} (hc : s.conditions.isSome = true) (h : Stocked d s) (x : Option ℚ) (b : Bool) :
    ∃ s' r ev, s.request E x b = .ok (s', r, ev) ∧ Stocked d s' := by
  obtain ⟨c, hc⟩ := Option.isSome_iff_exists.1 hc
  unfold Core.request
  rw [hc]
  dsimp only
  have first : ∃ s1 ev, (if s.qm.nonePending then s.fillQueue E else .ok (s, [])) = .ok (s1, ev) ∧ Stocked d s1 ∧ s1.conditions = some c := by
    split_ifs
    · exact fillQueue_total hg hc h
    · exact ⟨s, [], rfl, h, hc⟩
  obtain ⟨s1, ev, e1, h1, hc1⟩ := first
  rw [e1]
  dsimp only
  by_cases hp : s1.qm.nonePending = true
  · rw [if_pos hp]
    exact ⟨_, _, _, rfl, h1⟩
  · rw [if_neg hp]
    by_cases hl : (s1.qm.request E.q c b).1.length = 0
    · rw [if_pos hl]
      obtain ⟨s3, ev3, e3, h3, hc3⟩ := fillQueue_total (E := E) hg (s := { s1 with qm := (s1.qm.request E.q c b).2.flush }) (c := c) hc1 ⟨h1.full, h1.some, h1.dict⟩
      rw [e3]
      dsimp only
      split_ifs
      · exact ⟨_, _, _, rfl, ⟨h3.full, h3.some, h3.dict⟩⟩
      · exact ⟨_, _, _, rfl, ⟨h3.full, h3.some, h3.dict⟩⟩
    · rw [if_neg hl]
      exact ⟨_, _, _, rfl, ⟨h1.full, h1.some, h1.dict⟩⟩

theorem tooStep_stocked {s : Core C Sv A} (h : Stocked d s) (c : C) : Stocked d (s.tooStep E c) := by
  unfold Core.tooStep
  split_ifs
  · split
    · exact h
    · dsimp only
      split_ifs
      · exact ⟨h.full, h.some, h.dict⟩
      · exact ⟨h.full, h.some, h.dict⟩
  · exact h

/-- The core scheduler answers if it has surveys in every tier and its dictionary has the bands of the visits; the visits asked for are good by assumption. -/
theorem core_answers (X : Rest H C B) (hg : Named E d) (Good : ℚ → Obs → Prop)
    (hgood : ∀ s x s' o, Stocked d s → coreRequest E s x = some (s', some o) → Good x o) : Answers (coreSched E X) (fun u => Stocked d u.1) Good where
  conds _ _ := rfl
  request u x h hc := by
    obtain ⟨s', r, ev, e, h'⟩ := request_total hg hc h (some x) false
    have e' : coreRequest E u.1 x = some (s', r.bind List.head?) := by
      unfold coreRequest
      rw [e]
    refine ⟨(s', u.2), r.bind List.head?, ?_, h', fun o ho => ?_⟩
    · show (coreRequest E u.1 x).map _ = _
      rw [e']
      rfl
    · rw [Option.mem_def] at ho
      rw [ho] at e'
      exact hgood _ _ _ _ h e'
  update u c h := by
    have := (tooStep_stocked (E := E) h c)
    exact ⟨(this.maps _).1, (this.maps _).2, this.dict⟩
  add u v h := ⟨(h.maps _).1, (h.maps _).2, h.dict⟩
  bandAdd _ _ h := h
  flush _ h := ⟨h.full, h.some, h.dict⟩
  bands _ _ h := h
  overhead _ _ h := h

/-- C261 for the core scheduler: with surveys in every tier, bands known to its dictionary, and a telescope that can make the visits asked for, a simulation inside the almanac
ends without an error. -/
theorem C261_core (S : Obs.Site) (hn : Obs.Nights S.nights) (hd : Down.Ordered S.downs) (M : Obs.Kin K Obs) (hM : Obs.NonNeg M) (fuel : ℕ) (conds : Obs.St K → C) (mount : K → B → K)
    (E : Env C Sv A) (X : Rest H C B) (hD : FairOverhead (coreSched E X)) (d : List (String × String)) (hg : Named E d) (Good : ℚ → Obs → Prop)
    (hgood : ∀ s x s' o, Stocked d s → coreRequest E s x = some (s', some o) → Good x o) (most : ℚ) (hr : Attainable M Good most)
    (δ : ℚ) (hδ : 0 < δ) (hlong : ∀ k o t, δ ≤ (M.observe k o t).2.2)
    (cfg : Sim.Cfg) (hstep : 0 < cfg.stepNone) (hsize : 0 < cfg.startSize) (hmore : 0 < cfg.appendSize) (w : World (Core C Sv A × H) K) (hw : w.raised = false)
    (hfull : ∀ t ∈ w.sched.1.tiers, t ≠ []) (hsome : w.sched.1.tiers ≠ []) (hdict : w.sched.1.bandToFilter = d)
    (t0 : ℚ) (ht0 : t0 = cfg.simStart.getD w.obs.mjd) (hpos : -1 ≤ t0) (N : ℚ × ℚ) (hN : OpenNight S N) (hlate : t0 + cfg.duration + most / 24 / 3600 ≤ N.2)
    (hf : Enough S fuel N t0) (n : ℕ) (hfuel : 2 * ⌈cfg.duration / min (δ / 24 / 3600) (cfg.stepNone / 60 / 24) + 1⌉₊ + 1 ≤ n) :
    ∃ s, Sim.run (V := Obs.Visit Obs) (env S M fuel conds mount (coreSched E X)) cfg n w = .finished s ∧ s.w.raised = false
      ∧ (t0 + cfg.duration ≤ s.w.obs.mjd ∨ cfg.visitLimit = some (s.counter : ℤ)) :=
  C261_ends S hn hd M hM fuel conds mount _ hD _ Good (core_answers X hg Good hgood) most hr δ hδ hlong cfg hstep hsize hmore w hw ⟨hfull, hsome, hdict⟩ t0 ht0 hpos N hN hlate hf n hfuel

/-- A telescope that reaches everything. -/
def freeKin : Obs.Kin ℚ Obs := { wholeKin with observe := fun _ _ t => (t, some 60, 2000) }

/-- The small observatory with this telescope; a simulation of almost two days, over clouds and a downtime, meets what is asked. -/
example : Obs.NonNeg freeKin ∧ FairOverhead (coreSched toyE wholeRest) ∧ Named toyE wholeStart.sched.1.bandToFilter ∧ Attainable freeKin (fun _ _ => True) 2060
    ∧ (∀ k o t, (2000 : ℚ) ≤ (freeKin.observe k o t).2.2) ∧ (∀ t ∈ wholeStart.sched.1.tiers, t ≠ []) ∧ wholeStart.sched.1.tiers ≠ []
    ∧ OpenNight toySite (2, 5 / 2) ∧ (0 : ℚ) + 19 / 10 + 2060 / 24 / 3600 ≤ 5 / 2 ∧ Enough toySite 600 (2, 5 / 2) 0 := by
  refine ⟨fun k o t => ⟨fun x hx => ?_, ?_⟩, fun _ _ => by norm_num [coreSched, wholeRest], ?_, fun k k' t o _ => ⟨o, 60, rfl, rfl, ?_⟩, fun _ _ _ => le_rfl, by decide +kernel, by decide +kernel,
    ⟨by simp [toySite], by norm_num, fun t h1 h2 => ⟨?_, ⟨(2, 5 / 2), by simp [toySite], h1, h2⟩, ?_⟩⟩, by norm_num, ?_⟩
  · have : x = 60 := by
      simp only [freeKin, Option.mem_def, Option.some.injEq] at hx
      exact hx.symm
    rw [this]; norm_num
  · show (0 : ℚ) ≤ 2000
    norm_num
  · intro sv c o _ _ h
    exact absurd rfl h
  · show (60 : ℚ) + 2000 ≤ 2060
    norm_num
  · simp only [toySite]
    rw [if_neg fun h => by linarith [h.2]]
    norm_num
  · rintro ⟨d, hd, h3, h4⟩
    simp only [toySite, List.mem_cons, List.not_mem_nil, or_false] at hd
    subst hd
    dsimp only at h4
    linarith
  · unfold Enough
    have h : ⌈(((2, 5 / 2) : ℚ × ℚ).2 - 0) / (20 / 60 / 24)⌉₊ = 180 := by
      have e : (((2, 5 / 2) : ℚ × ℚ).2 - 0) / (20 / 60 / 24) = ((180 : ℕ) : ℚ) := by norm_num
      rw [e, Nat.ceil_natCast]
    rw [h]
    decide

/-- How a simulation ended: whether it finished, whether a call raised, the number of visits and the clock. -/
def endOut (o : Sim.Out (World (Core ToyC ToySv Unit × Unit) ℚ) (Obs.Visit Obs)) : String × Bool × ℕ × ℚ :=
  (match o with
    | .finished _ => "finished"
    | .gaveUp _ => "gave up"
    | .indexError _ => "index error"
    | .running _ => "running", o.st.w.raised, o.st.counter, o.st.w.obs.mjd)

/-- Small simulations with a scheduler of the tiers given. -/
def endSim (M : Obs.Kin ℚ Obs) (tiers : List (List ToySv)) (d : List (String × String)) (from_ duration : ℚ) : String × Bool × ℕ × ℚ :=
  endOut (Sim.run (env toySite M 600 (fun s => ⟨s.mjd, none⟩) (fun k _ => k) (coreSched toyE wholeRest)) { simStart := some from_, duration := duration, startSize := 2, appendSize := 2 } 100
    { wholeStart with sched := (Core.init () tiers 5 false d, ()) })

/-- The simulation above goes over two nights and ends with the first clock reading after its end. -/
example : endSim freeKin [[wholeSurvey]] [] 0 (19 / 10) = ("finished", false, 30, 2) := by decide +kernel

/-- Each assumption of C261 is needed: the simulation fails after the last night of the almanac, … -/
theorem C261_almanac_needed : (endSim freeKin [[wholeSurvey]] [] (245 / 100) (19 / 10)).2.1 = true := by decide +kernel

/-- … if a visit asked for again cannot be made, … -/
theorem C261_reach_needed :
    (endSim { freeKin with observe := fun _ o t => (t, if o.band = "u" then none else some 60, 2000) } [[⟨[.fin 1], [{ targetId := 0, band := "u" }], none⟩]] [] 0 1).1 = "gave up" := by
  decide +kernel

/-- … if a tier has no surveys … -/
theorem C261_tiers_needed : (endSim freeKin [[], [wholeSurvey]] [] 0 (1 / 10)).2.1 = true := by decide +kernel

/-- … and if a band is not in the dictionary. -/
theorem C261_bands_needed : (endSim freeKin [[wholeSurvey]] [("g", "g_6")] 0 (1 / 10)).2.1 = true := by decide +kernel

end

end Verif
