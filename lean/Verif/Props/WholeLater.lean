import Verif.Lemmas.SimUntil
import Verif.Props.Whole
import Verif.Model.Weather

/-!
C259: what happens at the site later does not change the visits made before.

Two simulations are the same but for the clouds, the downtimes and the conditions from a time `T` on.  The visits they return that are over before `T`
are the same.
-/

namespace Verif
open Whole

/-! ### Specification -/

/-- Downtimes up to `T`: those that begin later are left out, and those that go on at `T` end there. -/
def cutAt (T : ℚ) (l : List (ℚ × ℚ)) : List (ℚ × ℚ) := (l.filter fun d => decide (d.1 < T)).map fun d => (d.1, min d.2 T)

/-- Two sites with the same almanac and settings, the same clouds before `T` and the same downtimes up to `T`. -/
structure SameUntil (T : ℚ) (S S' : Obs.Site) : Prop where
  nights : S'.nights = S.nights
  start : S'.mjdStart = S.mjdStart
  park : S'.parkAfter = S.parkAfter
  limit : S'.cloudLimit = S.cloudLimit
  cloud : ∀ t < T, S'.cloud t = S.cloud t
  downs : cutAt T S'.downs = cutAt T S.downs

/-- The visits returned by a simulation that were over before `T`. -/
def overBefore {U K O : Type} (T : ℚ) (o : Sim.Out (World U K) (Obs.Visit O)) : List (Obs.Visit O) :=
  (o.st.result.filterMap id).filter fun v => decide (visitEnd v < T)

/-! ### The clock of the observatory -/

section
variable {T : ℚ} {S S' : Obs.Site}

theorem cut_closed {l : List (ℚ × ℚ)} {t : ℚ} (ht : t < T) : Down.Closed (cutAt T l) t ↔ Down.Closed l t := by
  constructor
  · rintro ⟨d, hd, h1, h2⟩
    obtain ⟨e, he, rfl⟩ := List.mem_map.1 hd
    exact ⟨e, List.mem_of_mem_filter he, h1, lt_of_lt_of_le h2 (min_le_left _ _)⟩
  · rintro ⟨d, hd, h1, h2⟩
    exact ⟨(d.1, min d.2 T), List.mem_map.2 ⟨d, List.mem_filter.2 ⟨hd, by simpa using lt_of_le_of_lt h1 ht⟩, rfl⟩, h1, lt_min h2 ht⟩

theorem down_unique {l : List (ℚ × ℚ)} (h : Down.Ordered l) {t : ℚ} {d e : ℚ × ℚ} (hd : d ∈ l) (he : e ∈ l) (h1 : d.1 ≤ t) (h2 : t < d.2) (h3 : e.1 ≤ t) (h4 : t < e.2) :
    d = e := by
  by_contra hne
  have hp : l.Pairwise fun a b => a.2 ≤ b.1 ∨ b.2 ≤ a.1 := h.imp fun hab => .inl hab.2
  have : Std.Symm fun a b : ℚ × ℚ => a.2 ≤ b.1 ∨ b.2 ≤ a.1 := ⟨fun _ _ h => h.symm⟩
  have := hp.forall hd he hne
  rcases this with h | h <;> linarith

theorem checkUp_until (L : SameUntil T S S') (hd : Down.Ordered S.downs) (hd' : Down.Ordered S'.downs) {t x x' : ℚ} {u u' : Bool} (ht : t < T)
    (h : Obs.checkUp S t = .ok (u, x)) (h' : Obs.checkUp S' t = .ok (u', x')) : u' = u ∧ (x' = x ∨ (T ≤ x ∧ T ≤ x')) := by
  obtain ⟨a, y, e, h1, h2, h3⟩ := Obs.checkUp_spec hd t
  obtain ⟨a', y', e', h1', h2', h3'⟩ := Obs.checkUp_spec hd' t
  rw [h] at e
  rw [h'] at e'
  cases e
  cases e'
  rw [← cut_closed ht] at h1 h1'
  rw [L.downs, ← h1] at h1'
  have huu : u' = u := by cases u <;> cases u' <;> simp_all
  subst huu
  refine ⟨rfl, ?_⟩
  cases hu : u' with
  | true => left; rw [h2 hu, h2' hu]
  | false =>
    obtain ⟨k1, d, k2, k3, rfl⟩ := h3 hu
    obtain ⟨m1, d', m2, m3, rfl⟩ := h3' hu
    have hm : (d.1, min d.2 T) ∈ cutAt T S'.downs := by
      rw [L.downs]
      exact List.mem_map.2 ⟨d, List.mem_filter.2 ⟨k2, by simpa using lt_of_le_of_lt k3 ht⟩, rfl⟩
    obtain ⟨e, he, hee⟩ := List.mem_map.1 hm
    have he1 : e.1 = d.1 := (Prod.mk.inj hee).1
    have he2 : min e.2 T = min d.2 T := (Prod.mk.inj hee).2
    have hte : t < e.2 := lt_of_lt_of_le (lt_min k1 ht) (he2 ▸ min_le_left _ _)
    have := down_unique hd' (List.mem_of_mem_filter he) m2 (by rw [he1]; exact k3) hte m3 m1
    subst this
    by_cases hx : d.2 < T
    · left
      rw [min_eq_left hx.le] at he2
      rcases min_choice e.2 T with hc | hc <;> rw [hc] at he2
      · exact he2
      · exact absurd he2.symm hx.ne
    · right
      refine ⟨not_lt.1 hx, ?_⟩
      rw [min_eq_right (not_lt.1 hx)] at he2
      exact he2 ▸ min_le_left _ _

theorem skipClouds_until (L : SameUntil T S S') (n : ℕ) {t x x' : ℚ} (h : Obs.skipClouds S n t = .ok x) (h' : Obs.skipClouds S' n t = .ok x') :
    x' = x ∨ (T ≤ x ∧ T ≤ x') := by
  induction n generalizing t with
  | zero =>
    rw [Obs.skipClouds] at h h'
    split_ifs at h h'
    cases h
    cases h'
    exact .inl rfl
  | succ n ih =>
    by_cases ht : t < T
    · rw [Obs.skipClouds] at h h'
      rw [L.limit, L.cloud t ht] at h'
      split_ifs at h h'
      · exact ih h h'
      · cases h
        cases h'
        exact .inl rfl
    · exact .inr ⟨le_trans (not_lt.1 ht) (Obs.skipClouds_spec h).1, le_trans (not_lt.1 ht) (Obs.skipClouds_spec h').1⟩

theorem nightPart_until (L : SameUntil T S S') {p q q' : Bool} {t x x' y y' : ℚ} (hx : x' = x ∨ (T ≤ x ∧ T ≤ x'))
    (h : Obs.nightPart S p t x = .ok (q, y)) (h' : Obs.nightPart S' p t x' = .ok (q', y')) : q' = q ∧ (y' = y ∨ (T ≤ y ∧ T ≤ y')) := by
  unfold Obs.nightPart at h h'
  rw [L.nights] at h'
  simp only [bind, Except.bind, pure, Except.pure] at h h'
  cases h1 : Obs.row S.nights (Obs.lastStarted S.nights t) with
  | error e => rw [h1] at h; cases h
  | ok n =>
    simp only [h1] at h h'
    cases h2 : Obs.row S.nights (Obs.lastStarted S.nights t + 1) with
    | error e =>
      simp only [h2] at h h'
      split_ifs at h h'
      simp only [Except.ok.injEq, Prod.mk.injEq] at h h'
      obtain ⟨rfl, rfl⟩ := h
      obtain ⟨rfl, rfl⟩ := h'
      exact ⟨rfl, hx⟩
    | ok m =>
      simp only [h2] at h h'
      split_ifs at h h' <;> simp only [Except.ok.injEq, Prod.mk.injEq] at h h' <;> obtain ⟨rfl, rfl⟩ := h <;> obtain ⟨rfl, rfl⟩ := h'
      · exact ⟨rfl, .inl rfl⟩
      · exact ⟨rfl, .inl rfl⟩
      · exact ⟨rfl, .inl rfl⟩
      · exact ⟨rfl, hx⟩

theorem screen_until (L : SameUntil T S S') (hd : Down.Ordered S.downs) (hd' : Down.Ordered S'.downs) (n : ℕ) {t x x' : ℚ} {p p' : Bool} (ht : t < T)
    (h : Obs.screen S n t = .ok (p, x)) (h' : Obs.screen S' n t = .ok (p', x')) : p' = p ∧ (x' = x ∨ (T ≤ x ∧ T ≤ x')) := by
  unfold Obs.screen at h h'
  rw [L.limit, L.cloud t ht] at h'
  simp only [bind, Except.bind, pure, Except.pure] at h h'
  cases h1 : Obs.skipClouds S n t with
  | error e => rw [h1] at h; cases h
  | ok y =>
    cases h1' : Obs.skipClouds S' n t with
    | error e => rw [h1'] at h'; cases h'
    | ok y' =>
      have hy := skipClouds_until L n h1 h1'
      simp only [h1] at h
      simp only [h1'] at h'
      generalize (!decide (S.cloudLimit < S.cloud t)) = b at h h'
      cases h2 : Obs.nightPart S b t y with
      | error e => rw [h2] at h; cases h
      | ok z =>
        cases h2' : Obs.nightPart S' b t y' with
        | error e => rw [h2'] at h'; cases h'
        | ok z' =>
          obtain ⟨q, z⟩ := z
          obtain ⟨q', z'⟩ := z'
          have hz := nightPart_until L hy h2 h2'
          simp only [h2] at h
          simp only [h2'] at h'
          cases h3 : Obs.checkUp S t with
          | error e => rw [h3] at h; cases h
          | ok u =>
            cases h3' : Obs.checkUp S' t with
            | error e => rw [h3'] at h'; cases h'
            | ok u' =>
              obtain ⟨u, v⟩ := u
              obtain ⟨u', v'⟩ := u'
              have hu := checkUp_until L hd hd' ht h3 h3'
              simp only [h3] at h
              simp only [h3'] at h'
              obtain ⟨rfl, hv⟩ := hu
              split_ifs at h h' <;> simp only [Except.ok.injEq, Prod.mk.injEq] at h h' <;> obtain ⟨rfl, rfl⟩ := h <;> obtain ⟨rfl, rfl⟩ := h'
              · exact hz
              · exact ⟨rfl, hv⟩

theorem check_until (L : SameUntil T S S') (hn : Obs.Nights S.nights) (hd : Down.Ordered S.downs) (hd' : Down.Ordered S'.downs) (n : ℕ) :
    (∀ t x x' p p', t < T → Obs.checkMjd S n t = .ok (p, x) → Obs.checkMjd S' n t = .ok (p', x') → p' = p ∧ (x' = x ∨ (T ≤ x ∧ T ≤ x')))
      ∧ ∀ t x x', Obs.search S n t = .ok x → Obs.search S' n t = .ok x' → x' = x ∨ (T ≤ x ∧ T ≤ x') := by
  have hn' : Obs.Nights S'.nights := by rw [L.nights]; exact hn
  have late : ∀ n t t' x x', T ≤ t → T ≤ t' → Obs.search S n t = .ok x → Obs.search S' n t' = .ok x' → T ≤ x ∧ T ≤ x' :=
    fun n t t' x x' ht ht' h h' => ⟨le_trans ht ((Obs.check_spec hn hd n).2 t x h).1, le_trans ht' ((Obs.check_spec hn' hd' n).2 t' x' h').1⟩
  induction n with
  | zero =>
    refine ⟨fun t x x' p p' _ h => ?_, fun t x x' h => ?_⟩
    · rw [Obs.checkMjd] at h; cases h
    · rw [Obs.search] at h; cases h
  | succ n ih =>
    refine ⟨fun t x x' p p' ht h h' => ?_, fun t x x' h h' => ?_⟩
    · rw [Obs.checkMjd] at h h'
      cases h1 : Obs.screen S n t with
      | error e => rw [h1] at h; cases h
      | ok r =>
        cases h1' : Obs.screen S' n t with
        | error e => rw [h1'] at h'; cases h'
        | ok r' =>
          obtain ⟨q, y⟩ := r
          obtain ⟨q', y'⟩ := r'
          obtain ⟨rfl, hy⟩ := screen_until L hd hd' n ht h1 h1'
          rw [h1] at h
          rw [h1'] at h'
          cases q' with
          | true =>
            simp only [Except.ok.injEq, Prod.mk.injEq] at h h'
            exact ⟨h'.1.symm.trans h.1, .inl (h'.2.symm.trans h.2)⟩
          | false =>
            cases h2 : Obs.search S n y with
            | error e => simp [h2] at h
            | ok z =>
              cases h2' : Obs.search S' n y' with
              | error e => simp [h2'] at h'
              | ok z' =>
                simp only [h2, h2', Except.ok.injEq, Prod.mk.injEq] at h h'
                obtain ⟨rfl, rfl⟩ := h
                obtain ⟨rfl, rfl⟩ := h'
                refine ⟨rfl, ?_⟩
                rcases hy with rfl | ⟨ha, hb⟩
                · exact ih.2 _ _ _ h2 h2'
                · exact .inr (late n _ _ _ _ ha hb h2 h2')
    · by_cases ht : t < T
      · rw [Obs.search] at h h'
        cases h1 : Obs.checkMjd S n t with
        | error e => rw [h1] at h; cases h
        | ok r =>
          cases h1' : Obs.checkMjd S' n t with
          | error e => rw [h1'] at h'; cases h'
          | ok r' =>
            obtain ⟨q, y⟩ := r
            obtain ⟨q', y'⟩ := r'
            obtain ⟨rfl, hy⟩ := ih.1 t y y' q q' ht h1 h1'
            rw [h1] at h
            rw [h1'] at h'
            cases q' with
            | true =>
              cases h
              cases h'
              exact hy
            | false =>
              dsimp only at h h'
              rcases hy with rfl | ⟨ha, hb⟩
              · exact ih.2 _ _ _ h h'
              · exact .inr (late n _ _ _ _ ha hb h h')
      · exact .inr (late (n + 1) t t x x' (not_lt.1 ht) (not_lt.1 ht) h h')

end

/-! ### Observing -/

section
variable {U K O C B : Type} {T : ℚ} {S S' : Obs.Site}

/-- An observation that ends with a visit or with the clock put forward, when the time to check is `T` or later. -/
theorem observe_later (hn : Obs.Nights S.nights) (hd : Down.Ordered S.downs) {M : Obs.Kin K O} {fuel : ℕ} {s s' : Obs.St K} {o o' : O} {slew : ℚ} {v : Option (Obs.Visit O)}
    {nn : Bool} (hp : M.prepare s.kin s.mjd o = some o')
    (hs : (M.observe (if S.parkAfter < s.mjd - M.lastMjd s.kin then M.park s.kin else s.kin) o' s.mjd).2.1 = some slew)
    (hT : T ≤ s.mjd + (slew + (M.observe (if S.parkAfter < s.mjd - M.lastMjd s.kin then M.park s.kin else s.kin) o' s.mjd).2.2) / 24 / 3600)
    (h : Obs.observe S M fuel s o = .ok (s', v, nn)) : T ≤ s'.mjd ∧ ∀ x ∈ v, T ≤ visitEnd x := by
  unfold Obs.observe at h
  simp only [hp] at h
  generalize (if S.parkAfter < s.mjd - M.lastMjd s.kin then M.park s.kin else s.kin) = k at h hs hT
  generalize M.observe k o' s.mjd = r at h hs hT
  obtain ⟨r1, r2, r3⟩ := r
  dsimp only at h hs hT
  subst hs
  dsimp only at h
  cases hc : Obs.checkMjd S fuel (s.mjd + (slew + r3) / 24 / 3600) with
  | error e => rw [hc] at h; cases h
  | ok c =>
    obtain ⟨b, y⟩ := c
    rw [hc] at h
    cases b with
    | true =>
      cases h
      have e : s.mjd + slew / 24 / 3600 + r3 / 24 / 3600 = s.mjd + (slew + r3) / 24 / 3600 := by ring
      refine ⟨by dsimp only; rw [e]; exact hT, fun x hx => ?_⟩
      cases hx
      unfold visitEnd
      dsimp only
      rw [e]
      exact hT
    | false =>
      cases h
      have := (((Obs.check_spec hn hd fuel).1 _ _ _ hc).2 rfl).2.1
      exact ⟨le_trans hT this.le, fun x hx => by cases hx⟩

theorem observe_until (L : SameUntil T S S') (hn : Obs.Nights S.nights) (hd : Down.Ordered S.downs) (hd' : Down.Ordered S'.downs) {M : Obs.Kin K O} {fuel : ℕ}
    {s : Obs.St K} {o : O} {r r' : Obs.St K × Option (Obs.Visit O) × Bool} (h : Obs.observe S M fuel s o = .ok r) (h' : Obs.observe S' M fuel s o = .ok r') :
    r' = r ∨ ((T ≤ r.1.mjd ∧ ∀ x ∈ r.2.1, T ≤ visitEnd x) ∧ T ≤ r'.1.mjd ∧ ∀ x ∈ r'.2.1, T ≤ visitEnd x) := by
  have hn' : Obs.Nights S'.nights := by rw [L.nights]; exact hn
  cases hp : M.prepare s.kin s.mjd o with
  | none => unfold Obs.observe at h; rw [hp] at h; cases h
  | some o' =>
    cases hs : (M.observe (if S.parkAfter < s.mjd - M.lastMjd s.kin then M.park s.kin else s.kin) o' s.mjd).2.1 with
    | none =>
      left
      unfold Obs.observe at h h'
      simp only [hp, L.park, hs] at h h'
      cases h
      cases h'
      rfl
    | some slew =>
      by_cases hT : T ≤ s.mjd + (slew + (M.observe (if S.parkAfter < s.mjd - M.lastMjd s.kin then M.park s.kin else s.kin) o' s.mjd).2.2) / 24 / 3600
      · exact .inr ⟨observe_later hn hd hp hs hT h, observe_later hn' hd' hp (by rw [L.park]; exact hs) (by rw [L.park]; exact hT) h'⟩
      · unfold Obs.observe at h h'
        simp only [hp, L.park, hs] at h h'
        generalize M.observe (if S.parkAfter < s.mjd - M.lastMjd s.kin then M.park s.kin else s.kin) o' s.mjd = m at h h' hT
        obtain ⟨r1, r2, r3⟩ := m
        dsimp only at h h' hT
        cases hc : Obs.checkMjd S fuel (s.mjd + (slew + r3) / 24 / 3600) with
        | error e => rw [hc] at h; cases h
        | ok c =>
          cases hc' : Obs.checkMjd S' fuel (s.mjd + (slew + r3) / 24 / 3600) with
          | error e => rw [hc'] at h'; cases h'
          | ok c' =>
            obtain ⟨b, y⟩ := c
            obtain ⟨b', y'⟩ := c'
            obtain ⟨rfl, hy⟩ := (check_until L hn hd hd' fuel).1 _ _ _ _ _ (not_le.1 hT) hc hc'
            rw [hc] at h
            rw [hc'] at h'
            unfold Obs.St.night at h h'
            rw [L.start] at h'
            cases b' with
            | true =>
              cases h
              cases h'
              exact .inl rfl
            | false =>
              cases h
              cases h'
              rcases hy with rfl | ⟨h1, h2⟩
              · exact .inl rfl
              · exact .inr ⟨⟨h1, fun x hx => by cases hx⟩, h2, fun x hx => by cases hx⟩

theorem raised_lasting (S : Obs.Site) (M : Obs.Kin K O) (fuel : ℕ) (conds : Obs.St K → C) (mount : K → B → K) (D : Sched U O C B) :
    Sim.Lasting (env S M fuel conds mount D) fun w => w.raised = true where
  set _ _ h := h
  conds _ h := h
  check _ _ h := h
  update _ _ h := h
  request w x h := by
    show (requestOf D w x).1.raised = true
    unfold requestOf
    cases D.request w.sched x with
    | none => rfl
    | some r => exact h
  observe w v h := by
    show (observeOf S M fuel w v).1.raised = true
    unfold observeOf
    cases Obs.observe S M fuel w.obs v.target with
    | error e => rfl
    | ok r => exact h
  overhead _ _ h := h
  add _ _ h := h
  bandAdd _ _ h := h
  flush _ h := h
  bands _ _ h := h
  mount _ _ h := h

theorem observeOf_stop (hn : Obs.Nights S.nights) (hd : Down.Ordered S.downs) {M : Obs.Kin K O} (hM : Obs.NonNeg M) {fuel : ℕ} (w : World U K) (v : Obs.Visit O) :
    ∀ v' ∈ (observeOf S M fuel w v).2.1, w.obs.mjd ≤ visitEnd v' := by
  intro v' hv'
  unfold observeOf at hv'
  cases ho : Obs.observe S M fuel w.obs v.target with
  | error e => rw [ho] at hv'; cases hv'
  | ok r =>
    obtain ⟨s, x, nn⟩ := r
    rw [ho] at hv'
    dsimp only at hv'
    cases hv'
    have := observe_some hn hd hM ho
    rw [this.2.1]
    exact this.2.2.1

/-- **C259 (partial)** What happens at the site later does not change the visits made before. Two simulations of the same scheduler and telescope are at sites that
have the same clouds and downtimes up to `T`, and the conditions for the scheduler are the same before `T`. If no call of either simulation raises, the same
visits are over before `T` in both. Missing: weather given by samples, where the clouds at a time may be those of a later sample (`C259_nearest_violated`). -/
theorem C259_later_partial (hn : Obs.Nights S.nights) (hd : Down.Ordered S.downs) (hd' : Down.Ordered S'.downs) (L : SameUntil T S S') (M : Obs.Kin K O) (hM : Obs.NonNeg M) (fuel : ℕ)
    (conds conds' : Obs.St K → C) (hc : ∀ s : Obs.St K, s.mjd < T → conds' s = conds s) (mount : K → B → K) (D : Sched U O C B) (hD : FairOverhead D) (cfg : Sim.Cfg)
    (hstep : 0 ≤ cfg.stepNone) (n : ℕ) (w : World U K)
    (h1 : (Sim.run (V := Obs.Visit O) (env S M fuel conds mount D) cfg n w).st.w.raised = false)
    (h2 : (Sim.run (V := Obs.Visit O) (env S' M fuel conds' mount D) cfg n w).st.w.raised = false) :
    overBefore T (Sim.run (V := Obs.Visit O) (env S' M fuel conds' mount D) cfg n w) = overBefore T (Sim.run (V := Obs.Visit O) (env S M fuel conds mount D) cfg n w) := by
  have hn' : Obs.Nights S'.nights := by rw [L.nights]; exact hn
  have U : Sim.Until (env S M fuel conds mount D) (fun w => ({ w with obs := Obs.idle S' M w.obs }, conds' w.obs)) (observeOf S' M fuel) (fun w => w.raised = true) visitEnd T :=
    { one := whole_contract S hn hd M hM fuel conds mount D hD
      two := whole_contract S' hn' hd' M hM fuel conds' mount D hD
      lastingOne := raised_lasting S M fuel conds mount D
      lastingTwo := raised_lasting S' M fuel conds' mount D
      stopOne := observeOf_stop hn hd hM
      stopTwo := observeOf_stop hn' hd' hM
      conds := by
        intro w hw
        show ((_, _) : _ × _) = (_, _)
        rw [hc w.obs hw]
        unfold Obs.idle
        rw [L.park]
      observe := by
        intro w v _
        show observeOf S' M fuel w v = observeOf S M fuel w v ∨ (observeOf S M fuel w v).1.raised = true ∨ (observeOf S' M fuel w v).1.raised = true
          ∨ ((T ≤ (observeOf S M fuel w v).1.obs.mjd ∧ ∀ v' ∈ (observeOf S M fuel w v).2.1, T ≤ visitEnd v')
            ∧ T ≤ (observeOf S' M fuel w v).1.obs.mjd ∧ ∀ v' ∈ (observeOf S' M fuel w v).2.1, T ≤ visitEnd v')
        unfold observeOf
        cases ho : Obs.observe S M fuel w.obs v.target with
        | error e => exact .inr (.inl rfl)
        | ok r =>
          cases ho' : Obs.observe S' M fuel w.obs v.target with
          | error e => exact .inr (.inr (.inl rfl))
          | ok r' =>
            rcases observe_until L hn hd hd' ho ho' with rfl | h
            · exact .inl rfl
            · exact .inr (.inr (.inr h)) }
  rcases Sim.run_until U hstep n w with h | h | h
  · rw [h1] at h; cases h
  · have h' : (Sim.run (V := Obs.Visit O) (env S' M fuel conds' mount D) cfg n w).st.w.raised = true := h
    rw [h2] at h'; cases h'
  · exact h

end

/-! ### A small simulation -/

/-- The toy site with clouds from 1/20 to 1/10, and closed for good from 2/5 on. -/
def cloudySite : Obs.Site :=
  { toySite with cloud := fun t => if 1 / 20 ≤ t ∧ t < 1 / 10 then 1 else toySite.cloud t, downs := [(1 / 4, 3 / 10), (2 / 5, 7 / 5)] }

/-- Both sites are the same before 1/20, but not up to 1/10. -/
example : SameUntil (1 / 20) toySite cloudySite ∧ Obs.Nights toySite.nights ∧ Down.Ordered toySite.downs ∧ Down.Ordered cloudySite.downs ∧ Obs.NonNeg wholeKin
    ∧ FairOverhead (coreSched toyE wholeRest) ∧ ¬ SameUntil (1 / 10) toySite cloudySite := by
  refine ⟨⟨rfl, rfl, rfl, rfl, fun t ht => if_neg fun h => absurd h.1 (not_le.2 ht), by decide +kernel⟩, toySite_nights, ?_, ?_, ?_, ?_, ?_⟩
  · simp [toySite, Down.Ordered]
  · simp only [cloudySite, Down.Ordered]
    norm_num
  · intro k o t
    constructor
    · intro x hx
      simp only [wholeKin] at hx
      split_ifs at hx
      · cases hx
      · cases hx; norm_num
    · simp [wholeKin]
  · intro u v
    show (0 : ℚ) ≤ 5
    norm_num
  · intro h
    have := h.cloud (3 / 40) (by norm_num)
    simp [cloudySite, toySite] at this
    norm_num at this

/-- Downtimes that go on at `T` may end at any time after it. -/
example : cutAt (3 / 10) [(1 / 4, 3 / 4)] = cutAt (3 / 10) [(1 / 4, 2), (5 / 2, 3)] ∧ cutAt (3 / 10) [(1 / 4, 3 / 4)] ≠ cutAt (3 / 10) [(1 / 5, 3 / 4)] := by decide +kernel

/-- The ends of the visits of a simulation, those that are over before a time, and whether a call has raised. -/
def laterOut (S : Obs.Site) (T : ℚ) : List ℚ × List ℚ × Bool :=
  let o := Sim.run (V := Obs.Visit Obs) (env S wholeKin 20 (fun s => (⟨s.mjd, none⟩ : ToyC)) (fun k (_ : Unit) => k) (coreSched toyE wholeRest))
    { duration := 1 / 8, startSize := 2, appendSize := 2 } 20 wholeStart
  ((o.st.result.filterMap id).map visitEnd, (overBefore T o).map visitEnd, o.st.w.raised)

/-- The visits made before the clouds are the same; those after them are not. -/
example : laterOut toySite (1 / 20) = ([103 / 4320, 103 / 2160, 103 / 1440, 103 / 1080, 103 / 864, 103 / 720], [103 / 4320, 103 / 2160], false)
    ∧ laterOut cloudySite (1 / 20) = ([103 / 4320, 103 / 2160, 37 / 270], [103 / 4320, 103 / 2160], false) := by
  decide +kernel

/-! ### Samples of the weather -/

/-- Clouds at 0, 3000, 9000 and 12000 seconds and after a year; those at 9000 seconds are given. -/
def sampled (c : ℚ) : List (ℚ × ℚ) := [(0, 0), (3000, 0), (9000, c), (12000, 0), (Wx.year + 1, 0)]

/-- The toy site with clouds from a table. -/
def sampledSite (c : ℚ) : Obs.Site := { toySite with cloud := fun t => (Wx.cloud none (sampled c) (t * 86400)).getD 0 }

/-- C259 is violated when the weather is given by samples: the sample nearest to a time is taken, also when it is one of later (cloud_data.py 80-95). Two tables
are the same before 9000 seconds; with the clouds seen then, the visit that would be over after 6180 seconds is not made. -/
theorem C259_nearest_violated : (sampled 1).filter (fun r => r.1 < 9000) = (sampled 0).filter (fun r => r.1 < 9000)
    ∧ (laterOut (sampledSite 0) (9000 / 86400)).2 = ([2060 / 86400, 4120 / 86400, 6180 / 86400, 8240 / 86400], false)
    ∧ (laterOut (sampledSite 1) (9000 / 86400)).2 = ([2060 / 86400, 4120 / 86400], false) := by
  decide +kernel

end Verif
