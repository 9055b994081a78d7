import Verif.Props.WholeLater

/-!
C260: what happens at the site in daytime does not change a simulation.

Two sites are closed at the same times of the night; in daytime one may be closed and the other not, and the tables of downtimes may be cut in other ways.
Simulations at both are the same.  For clouds this does not hold.
-/

namespace Verif
open Whole

/-! ### Specification -/

/-- Two sites with the same almanac, settings and clouds that are closed at the same times of the night. -/
structure SameAtNight (S S' : Obs.Site) : Prop where
  nights : S'.nights = S.nights
  start : S'.mjdStart = S.mjdStart
  park : S'.parkAfter = S.parkAfter
  limit : S'.cloudLimit = S.cloudLimit
  cloud : S'.cloud = S.cloud
  downs : ∀ t, Obs.InNight S.nights t → (Down.Closed S'.downs t ↔ Down.Closed S.downs t)

/-! ### The search for the next open time -/

/-- Night, and not closed. -/
def Avail (S : Obs.Site) (t : ℚ) : Prop := Obs.InNight S.nights t ∧ ¬ Down.Closed S.downs t

/-- The times tried lead from `t` to `x`. -/
inductive Reach (S : Obs.Site) : ℚ → ℚ → Prop
  | here {t : ℚ} : Obs.Open S t → Reach S t t
  | on {t new x : ℚ} {n : ℕ} : Obs.screen S n t = .ok (false, new) → Reach S new x → Reach S t x

section
variable {S S' : Obs.Site}

/-- The start of a night that is tried next is that of the next night. -/
theorem next_night (h : Obs.Nights S.nights) {p p' : Bool} {t t1 t' u : ℚ} (hr : Obs.nightPart S p t t1 = .ok (p', t')) (ht : ¬ Obs.InNight S.nights t) (h1 : t ≤ u) (h2 : u < t') :
    ¬ Obs.InNight S.nights u := by
  have hst := Obs.nights_starts h
  rcases Obs.lookup S.nights t (hst.imp le_of_lt) with ⟨k1, k2⟩ | ⟨pre, x, q, k1, k2, k3, k4, k5, k6⟩
  · unfold Obs.nightPart at hr
    dsimp only at hr
    rw [k1] at hr
    cases hn : Obs.row S.nights (-1) with
    | error e => rw [hn] at hr; cases hr
    | ok n =>
      rw [hn] at hr
      have hlt : t < n.1 := k2 n (Obs.row_ok hn)
      have hle : n.1 ≤ n.2 := h.1 n (Obs.row_ok hn)
      simp only [bind, Except.bind, if_neg (show ¬ n.2 < t by linarith), if_pos hlt, pure, Except.pure] at hr
      cases hm : Obs.row S.nights (-1 + 1) with
      | error e => rw [hm] at hr; cases hr
      | ok m =>
        rw [hm] at hr
        simp only [Except.ok.injEq, Prod.mk.injEq] at hr
        rintro ⟨z, hz, hz1, -⟩
        cases hl : S.nights with
        | nil => rw [hl] at hz; cases hz
        | cons a l =>
          have ha : m = a := by
            rw [hl] at hm
            simp [Obs.row] at hm
            exact hm.symm
          rw [hl] at hz hst
          rcases List.mem_cons.1 hz with rfl | hz
          · rw [← ha, hr.2] at hz1; linarith
          · have := (List.pairwise_cons.1 hst).1 z hz
            rw [← ha, hr.2] at this; linarith
  · unfold Obs.nightPart at hr
    dsimp only at hr
    rw [k3] at hr
    simp only [bind, Except.bind, if_neg (show ¬ t < x.1 by linarith), pure, Except.pure] at hr
    have hx : x.2 < t := by
      by_contra hc
      exact ht ⟨x, by rw [k1]; simp, k5, not_lt.1 hc⟩
    rw [if_pos hx] at hr
    cases hm : Obs.row S.nights (Obs.lastStarted S.nights t + 1) with
    | error e => rw [hm] at hr; cases hr
    | ok m =>
      rw [hm] at hr
      simp only [Except.ok.injEq, Prod.mk.injEq] at hr
      rw [k2] at hm
      have hq := Obs.row_succ rfl (k1 ▸ hm)
      rintro ⟨z, hz, hz1, hz2⟩
      have hp := h.2
      rw [k1] at hz hst hp
      rcases List.mem_append.1 hz with hz | hz
      · have := (List.pairwise_append.1 hp).2.2 z hz x (by simp)
        linarith
      · rcases List.mem_cons.1 hz with rfl | hz
        · linarith
        · cases q with
          | nil => cases hz
          | cons a q =>
            simp only [List.head?_cons, Option.some.injEq] at hq
            subst hq
            rcases List.mem_cons.1 hz with rfl | hz
            · rw [hr.2] at hz1; linarith
            · have h3 := (List.pairwise_append.1 hst).2.1
              have h4 := (List.pairwise_cons.1 (List.pairwise_cons.1 h3).2).1 z hz
              rw [hr.2] at h4; linarith

/-- Where a time that does not pass leads: by the clouds, or over times that are not available. -/
theorem screen_false (hn : Obs.Nights S.nights) (hd : Down.Ordered S.downs) {n : ℕ} {t new : ℚ} (h : Obs.screen S n t = .ok (false, new)) :
    (Avail S t → ∃ m, Obs.skipClouds S m t = .ok new) ∧ (¬ Avail S t → t < new ∧ ∀ u, t ≤ u → u < new → ¬ Avail S u) := by
  have hlt := (Obs.screen_spec hn hd h).2 rfl
  unfold Obs.screen at h
  cases hc : Obs.skipClouds S n t with
  | error e => rw [hc] at h; cases h
  | ok t1 =>
    rw [hc] at h
    cases hnp : Obs.nightPart S (!decide (S.cloudLimit < S.cloud t)) t t1 with
    | error e => simp [bind, Except.bind, hnp] at h
    | ok r =>
      obtain ⟨p3, t3⟩ := r
      obtain ⟨u, x, hu, hu1, hu2, hu3⟩ := Obs.checkUp_spec hd t
      simp only [bind, Except.bind, hnp, hu] at h
      cases u with
      | false =>
        simp [pure, Except.pure] at h
        subst h
        obtain ⟨k1, d, k2, k3, rfl⟩ := hu3 rfl
        have hcl : Down.Closed S.downs t := ⟨d, k2, k3, k1⟩
        exact ⟨fun ha => absurd hcl ha.2, fun _ => ⟨hlt, fun u h1 h2 ha => ha.2 ⟨d, k2, le_trans k3 h1, h2⟩⟩⟩
      | true =>
        simp [pure, Except.pure] at h
        obtain ⟨rfl, rfl⟩ := h
        have hup := hu1.1 rfl
        rcases Obs.nightPart_spec hn hnp with ⟨h1, h2, h3⟩ | ⟨h1, -⟩
        · exact ⟨fun _ => ⟨n, by rw [hc, h3]⟩, fun ha => absurd ⟨h1, hup⟩ ha⟩
        · exact ⟨fun ha => absurd ha.1 h1, fun _ => ⟨hlt, fun u h4 h5 ha => next_night hn hnp h1 h4 h5 ha.1⟩⟩

theorem reach_trans {t x y : ℚ} (h : Reach S t x) (hy : Reach S x y) : Reach S t y := by
  induction h with
  | here _ => exact hy
  | on hs _ ih => exact .on hs (ih hy)

theorem check_reach (hn : Obs.Nights S.nights) (hd : Down.Ordered S.downs) (n : ℕ) :
    (∀ t x, Obs.checkMjd S n t = .ok (false, x) → Reach S t x) ∧ ∀ t x, Obs.search S n t = .ok x → Reach S t x := by
  induction n with
  | zero =>
    refine ⟨fun t x h => ?_, fun t x h => ?_⟩
    · rw [Obs.checkMjd] at h; cases h
    · rw [Obs.search] at h; cases h
  | succ n ih =>
    refine ⟨fun t x h => ?_, fun t x h => ?_⟩
    · rw [Obs.checkMjd] at h
      cases hs : Obs.screen S n t with
      | error e => rw [hs] at h; cases h
      | ok r =>
        obtain ⟨p, new⟩ := r
        rw [hs] at h
        cases p with
        | true => simp at h
        | false =>
          cases hse : Obs.search S n new with
          | error e => simp [hse] at h
          | ok z =>
            simp only [hse, Except.ok.injEq, Prod.mk.injEq, true_and] at h
            subst h
            exact .on hs (ih.2 _ _ hse)
    · rw [Obs.search] at h
      cases hc : Obs.checkMjd S n t with
      | error e => rw [hc] at h; cases h
      | ok r =>
        obtain ⟨p, z⟩ := r
        rw [hc] at h
        cases p with
        | true =>
          obtain ⟨rfl, ho⟩ := ((Obs.check_spec hn hd n).1 _ _ _ hc).1 rfl
          cases h
          exact .here ho
        | false => exact reach_trans (ih.1 _ _ hc) (ih.2 _ _ h)

theorem skip_unique {S' : Obs.Site} (hl : S'.cloudLimit = S.cloudLimit) (hc : S'.cloud = S.cloud) {n m : ℕ} {t x y : ℚ} (h : Obs.skipClouds S n t = .ok x)
    (h' : Obs.skipClouds S' m t = .ok y) : y = x := by
  induction n generalizing t m with
  | zero =>
    rw [Obs.skipClouds] at h
    split_ifs at h with h1
    cases h
    exact (Obs.skipClouds_spec h').2.2 (by rw [hl, hc]; exact h1)
  | succ n ih =>
    rw [Obs.skipClouds] at h
    split_ifs at h with h1
    · cases m with
      | zero =>
        rw [Obs.skipClouds, hl, hc, if_pos h1] at h'
        cases h'
      | succ m =>
        rw [Obs.skipClouds, hl, hc, if_pos h1] at h'
        exact ih h h'
    · cases h
      exact (Obs.skipClouds_spec h').2.2 (by rw [hl, hc]; exact h1)

theorem same_avail (L : SameAtNight S S') (t : ℚ) : Avail S' t ↔ Avail S t := by
  unfold Avail
  rw [L.nights]
  constructor
  · rintro ⟨h1, h2⟩
    exact ⟨h1, fun h => h2 ((L.downs t h1).2 h)⟩
  · rintro ⟨h1, h2⟩
    exact ⟨h1, fun h => h2 ((L.downs t h1).1 h)⟩

/-- From times with no available time between them both searches come to the same open time. -/
theorem reach_same (L : SameAtNight S S') (hn : Obs.Nights S.nights) (hd : Down.Ordered S.downs) (hd' : Down.Ordered S'.downs) {t x t' x' : ℚ} (h : Reach S t x) (h' : Reach S' t' x')
    (hr : ∀ u, Avail S u → (t ≤ u ↔ t' ≤ u)) : x' = x := by
  have hn' : Obs.Nights S'.nights := by rw [L.nights]; exact hn
  have both : ∀ t t', (∀ u, Avail S u → (t ≤ u ↔ t' ≤ u)) → Avail S t → Avail S t' → t' = t := fun t t' hr a b =>
    le_antisymm ((hr t a).1 le_rfl) ((hr t' b).2 le_rfl)
  have hop : ∀ t, Obs.Open S' t ↔ Obs.Open S t := by
    intro t
    have := same_avail L t
    constructor
    · intro h
      have := this.1 ⟨h.night, h.up⟩
      exact ⟨by have := h.clear; rwa [L.limit, L.cloud] at this, this.1, this.2⟩
    · intro h
      have := this.2 ⟨h.night, h.up⟩
      exact ⟨by rw [L.limit, L.cloud]; exact h.clear, this.1, this.2⟩
  -- the second search goes on over times that are not available
  have skip : ∀ {t t' new : ℚ} {n : ℕ}, (∀ u, Avail S u → (t ≤ u ↔ t' ≤ u)) → Obs.screen S' n t' = .ok (false, new) → ¬ Avail S t' → ∀ u, Avail S u → (t ≤ u ↔ new ≤ u) := by
    intro t t' new n hr hs ha u hu
    obtain ⟨h1, h2⟩ := (screen_false hn' hd' hs).2 (fun h => ha ((same_avail L t').1 h))
    rw [hr u hu]
    constructor
    · intro h
      by_contra hc
      exact h2 u h (not_le.1 hc) ((same_avail L u).2 hu)
    · intro h
      linarith
  induction h generalizing t' x' with
  | @here t ho =>
    induction h' with
    | @here t' ho' => exact both t t' hr ⟨ho.night, ho.up⟩ ⟨((hop _).1 ho').night, ((hop _).1 ho').up⟩
    | @on t' new x' n hs _ ih =>
      by_cases ha : Avail S t'
      · have := both t t' hr ⟨ho.night, ho.up⟩ ha
        subst this
        exact absurd ((Obs.screen_spec hn' hd' hs).1.2 ((hop _).2 ho)) (by simp)
      · exact ih (skip hr hs ha)
  | @on t new x n hs _ ih =>
    by_cases hat : Avail S t
    · obtain ⟨m, hm⟩ := (screen_false hn hd hs).1 hat
      induction h' with
      | @here t' ho' =>
        have := both t t' hr hat ⟨((hop _).1 ho').night, ((hop _).1 ho').up⟩
        subst this
        exact absurd ((Obs.screen_spec hn hd hs).1.2 ((hop _).1 ho')) (by simp)
      | @on t' new' x' n' hs' r' ih' =>
        by_cases ha : Avail S t'
        · have := both t t' hr hat ha
          subst this
          obtain ⟨m', hm'⟩ := (screen_false hn' hd' hs').1 ((same_avail L _).2 hat)
          have := skip_unique L.limit L.cloud hm hm'
          subst this
          exact ih r' fun _ _ => Iff.rfl
        · exact ih' (skip hr hs' ha)
    · obtain ⟨h1, h2⟩ := (screen_false hn hd hs).2 hat
      refine ih h' fun u hu => ?_
      rw [← hr u hu]
      constructor
      · intro h; linarith
      · intro h
        by_contra hc
        exact h2 u h (not_le.1 hc) hu

theorem check_same (L : SameAtNight S S') (hn : Obs.Nights S.nights) (hd : Down.Ordered S.downs) (hd' : Down.Ordered S'.downs) {n n' : ℕ} {t : ℚ} {r r' : Bool × ℚ}
    (h : Obs.checkMjd S n t = .ok r) (h' : Obs.checkMjd S' n' t = .ok r') : r' = r := by
  have hn' : Obs.Nights S'.nights := by rw [L.nights]; exact hn
  obtain ⟨b, x⟩ := r
  obtain ⟨b', x'⟩ := r'
  have hs := (Obs.check_spec hn hd n).1 _ _ _ h
  have hs' := (Obs.check_spec hn' hd' n').1 _ _ _ h'
  have reach : ∀ {S : Obs.Site} {n b x}, Obs.Nights S.nights → Down.Ordered S.downs → Obs.checkMjd S n t = .ok (b, x) → Reach S t x := by
    intro S n b x hn hd h
    cases b with
    | true =>
      obtain ⟨rfl, ho⟩ := ((Obs.check_spec hn hd n).1 _ _ _ h).1 rfl
      exact .here ho
    | false => exact (check_reach hn hd n).1 _ _ h
  have hx : x' = x := reach_same L hn hd hd' (reach hn hd h) (reach hn' hd' h') fun _ _ => Iff.rfl
  subst hx
  cases b <;> cases b' <;> simp_all

end

/-! ### Simulations -/

section
variable {W V C B : Type}

/-- Simulations whose observations are the same unless something bad happens. -/
theorem Sim.run_or {E : Sim.Env W V C B} {ob : W → V → W × Option V × Bool} {bad : W → Prop} (h : Sim.Lasting E bad) (h' : Sim.Lasting (E.later E.conds ob) bad)
    (ho : ∀ w v, ob w v = E.observe w v ∨ bad (E.observe w v).1 ∨ bad (ob w v).1) (cfg : Sim.Cfg) (n : ℕ) (w : W) :
    bad (Sim.run (V := V) E cfg n w).st.w ∨ bad (Sim.run (V := V) (E.later E.conds ob) cfg n w).st.w ∨ Sim.run (V := V) (E.later E.conds ob) cfg n w = Sim.run (V := V) E cfg n w := by
  unfold Sim.run
  have hs : Sim.start (V := V) (E.later E.conds ob) cfg w = Sim.start E cfg w := rfl
  rw [hs]
  generalize Sim.start (V := V) E cfg w = s
  induction n generalizing s with
  | zero => right; right; rw [Sim.loop, Sim.loop]
  | succ n ih =>
    rw [Sim.loop_ending, Sim.loop_ending]
    split_ifs
    · have hp : Sim.pass (E.later E.conds ob) cfg s = Sim.pass E cfg s ∨ bad (Sim.pass E cfg s).st.w ∨ bad (Sim.pass (E.later E.conds ob) cfg s).st.w := by
        rw [Sim.pass_after, Sim.pass_after]
        show (match (E.request (Sim.refresh E cfg s.w) (E.clock (Sim.refresh E cfg s.w))).2 with
          | none => Sim.skipPass E cfg { s with w := (E.request (Sim.refresh E cfg s.w) (E.clock (Sim.refresh E cfg s.w))).1 }
          | some v => Sim.after (E.later E.conds ob) cfg s (ob (E.request (Sim.refresh E cfg s.w) (E.clock (Sim.refresh E cfg s.w))).1 v)) = _ ∨ _
            ∨ bad (Sim.Pass.st (match (E.request (Sim.refresh E cfg s.w) (E.clock (Sim.refresh E cfg s.w))).2 with
          | none => Sim.skipPass E cfg { s with w := (E.request (Sim.refresh E cfg s.w) (E.clock (Sim.refresh E cfg s.w))).1 }
          | some v => Sim.after (E.later E.conds ob) cfg s (ob (E.request (Sim.refresh E cfg s.w) (E.clock (Sim.refresh E cfg s.w))).1 v))).w
        generalize E.request (Sim.refresh E cfg s.w) (E.clock (Sim.refresh E cfg s.w)) = r
        obtain ⟨u, _ | v⟩ := r
        · exact .inl rfl
        · dsimp only
          rcases ho u v with e | e | e
          · left; rw [e]; rfl
          · exact .inr (.inl (Sim.after_bad h s e))
          · exact .inr (.inr (Sim.after_bad h' s e))
      rcases hp with e | e | e
      · rw [e]
        cases Sim.pass E cfg s with
        | again s' => exact ih s'
        | _ => exact .inr (.inr rfl)
      · exact .inl (Sim.ending_bad h n e)
      · exact .inr (.inl (Sim.ending_bad h' n e))
    · exact .inr (.inr rfl)

end

section
variable {U K O C B : Type} {S S' : Obs.Site}

/-- **C260 (partial)** Downtimes of daytime do not change a simulation, and neither does the way in which times of closure are cut into downtimes: simulations at two sites
that are closed at the same times of the night are the same, in all visits and in the final state, unless a call of one of them raises. The bounds that the model sets to the search for the next open time do not matter either. Missing: clouds of daytime
(`C260_clouds_violated`). -/
theorem C260_day_partial (hn : Obs.Nights S.nights) (hd : Down.Ordered S.downs) (hd' : Down.Ordered S'.downs) (L : SameAtNight S S') (M : Obs.Kin K O) (fuel fuel' : ℕ)
    (conds : Obs.St K → C) (mount : K → B → K) (D : Sched U O C B) (cfg : Sim.Cfg) (n : ℕ) (w : World U K)
    (h1 : (Sim.run (V := Obs.Visit O) (env S M fuel conds mount D) cfg n w).st.w.raised = false)
    (h2 : (Sim.run (V := Obs.Visit O) (env S' M fuel' conds mount D) cfg n w).st.w.raised = false) :
    Sim.run (V := Obs.Visit O) (env S' M fuel' conds mount D) cfg n w = Sim.run (V := Obs.Visit O) (env S M fuel conds mount D) cfg n w := by
  have hE : env S' M fuel' conds mount D = (env S M fuel conds mount D).later (env S M fuel conds mount D).conds (observeOf S' M fuel') := by
    unfold env Obs.idle
    rw [L.park]
  have hob : ∀ (w : World U K) (v : Obs.Visit O), observeOf S' M fuel' w v = observeOf S M fuel w v ∨ (observeOf S M fuel w v).1.raised = true
      ∨ (observeOf S' M fuel' w v).1.raised = true := by
    intro w v
    unfold observeOf Obs.observe
    rw [L.park]
    cases M.prepare w.obs.kin w.obs.mjd v.target with
    | none => exact .inl rfl
    | some o' =>
      dsimp only
      generalize M.observe (if S.parkAfter < w.obs.mjd - M.lastMjd w.obs.kin then M.park w.obs.kin else w.obs.kin) o' w.obs.mjd = m
      obtain ⟨r1, r2, r3⟩ := m
      cases r2 with
      | none => exact .inl rfl
      | some slew =>
        dsimp only
        cases hc : Obs.checkMjd S fuel (w.obs.mjd + (slew + r3) / 24 / 3600) with
        | error e => exact .inr (.inl rfl)
        | ok c =>
          cases hc' : Obs.checkMjd S' fuel' (w.obs.mjd + (slew + r3) / 24 / 3600) with
          | error e => exact .inr (.inr rfl)
          | ok c' =>
            left
            rw [check_same L hn hd hd' hc hc']
            unfold Obs.St.night
            rw [L.start]
  have hlast := raised_lasting S' M fuel' conds mount D
  rw [hE] at h2 hlast ⊢
  rcases Sim.run_or (raised_lasting S M fuel conds mount D) hlast hob cfg n w with h | h | h
  · rw [h1] at h; cases h
  · rw [h2] at h; cases h
  · exact h

end

/-! ### A small simulation -/

/-- The toy site with its downtime cut in two, ending earlier in the day, and closed for a while on the same day. -/
def cutSite : Obs.Site := { toySite with downs := [(1 / 4, 3 / 8), (3 / 8, 2 / 3), (4 / 5, 9 / 10)] }

/-- Both sites are closed at the same times of the night. -/
example : SameAtNight toySite cutSite ∧ Down.Ordered toySite.downs ∧ Down.Ordered cutSite.downs ∧ toySite.downs ≠ cutSite.downs := by
  refine ⟨⟨rfl, rfl, rfl, rfl, rfl, fun t ht => ?_⟩, ?_, ?_, by decide +kernel⟩
  · obtain ⟨n, hn, h1, h2⟩ := ht
    simp only [toySite, List.mem_cons, List.not_mem_nil, or_false] at hn
    simp only [Down.Closed, cutSite, toySite, List.mem_cons, List.not_mem_nil, or_false, exists_eq_or_imp, exists_eq_left]
    rcases hn with rfl | rfl | rfl <;> dsimp only at h1 h2 <;> constructor
    · rintro (h | h | h) <;> constructor <;> linarith [h.1, h.2]
    · intro h
      by_cases hc : t < 3 / 8
      · exact .inl ⟨h.1, hc⟩
      · exact .inr (.inl ⟨not_lt.1 hc, by linarith⟩)
    · rintro (h | h | h) <;> linarith [h.1, h.2]
    · intro h; linarith [h.1, h.2]
    · rintro (h | h | h) <;> linarith [h.1, h.2]
    · intro h; linarith [h.1, h.2]
  · simp [toySite, Down.Ordered]
  · simp only [cutSite, Down.Ordered]
    norm_num

/-- Ends of the visits of a simulation from 1/5 on, and whether a call has raised. -/
def dayOut (S : Obs.Site) : List ℚ × Bool :=
  let o := Sim.run (V := Obs.Visit Obs) (env S wholeKin 100 (fun s => (⟨s.mjd, none⟩ : ToyC)) (fun k (_ : Unit) => k) (coreSched toyE wholeRest))
    { simStart := some (1 / 5), duration := 17 / 20, startSize := 2, appendSize := 2 } 20 wholeStart
  ((o.st.result.filterMap id).map visitEnd, o.st.w.raised)

/-- Nothing changes. -/
example : dayOut toySite = ([967 / 4320, 107 / 432, 4483 / 4320, 2293 / 2160], false) ∧ dayOut cutSite = dayOut toySite := by decide +kernel

/-- A site that is never closed, with clouds from 9/40 until a given time. -/
def cloudyUntil (t1 : ℚ) : Obs.Site := { toySite with cloud := fun t => if 9 / 40 ≤ t ∧ t < t1 then 1 else 0, downs := [] }

/-- C260 is violated by clouds: cloudy times are passed over in steps of twenty minutes, day or night, so when it is cloudy also in daytime the search comes to a time
after the start of the next night (model_observatory.py 621-627). Here the clouds of all nights are the same, and it is clear from the start of the second night on; with clouds all
day its first visit is later. -/
theorem C260_clouds_violated : (∀ t, Obs.InNight (cloudyUntil 1).nights t → (cloudyUntil 1).cloud t = (cloudyUntil (3 / 5)).cloud t)
    ∧ dayOut (cloudyUntil (3 / 5)) = ([967 / 4320, 4423 / 4320, 2263 / 2160, 1543 / 1440], false)
    ∧ dayOut (cloudyUntil 1) = ([967 / 4320, 497 / 480, 143 / 135], false) := by
  refine ⟨?_, ?_⟩
  · rintro t ⟨n, hn, h1, h2⟩
    simp only [cloudyUntil, toySite, List.mem_cons, List.not_mem_nil, or_false] at hn ⊢
    rcases hn with rfl | rfl | rfl <;> dsimp only at h1 h2
    · by_cases hc : 9 / 40 ≤ t
      · rw [if_pos ⟨hc, by linarith⟩, if_pos ⟨hc, by linarith⟩]
      · rw [if_neg fun h => hc h.1, if_neg fun h => hc h.1]
    · rw [if_neg fun h => by linarith [h.2], if_neg fun h => by linarith [h.2]]
    · rw [if_neg fun h => by linarith [h.2], if_neg fun h => by linarith [h.2]]
  · decide +kernel

end Verif
