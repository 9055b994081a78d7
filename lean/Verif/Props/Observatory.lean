import Verif.Lemmas.Observatory

/-!
Properties C21-C24: the simulated observatory.
-/

namespace Verif

open Obs Down

/-! A small observatory for examples: targets say how long their slew and visit take. -/

/-- Targets carry their slew time (`none`: not reachable) and visit time, in seconds. -/
def toyKin : Kin ℚ (Option ℚ × ℚ) where
  lastMjd k := k
  park k := k
  observe k o t := (t, o.1, o.2)
  prepare _ _ o := some o

/-- Every reachable target takes 60 s to slew to and 30 s to visit. -/
def toyKin60 : Kin ℚ (Option ℚ × ℚ) where
  lastMjd k := k
  park k := k
  observe _ o t := (t, o.1.map (fun _ => 60), 30)
  prepare _ _ o := some o

/-- Two nights, one downtime across the end of the first, a cloudy spell in the second. -/
def toySite : Site where
  cloud t := if 1 ≤ t ∧ t < 101 / 100 then 1 else 0
  cloudLimit := 3 / 10
  nights := [(0, 1 / 2), (1, 3 / 2), (2, 5 / 2)]
  downs := [(1 / 4, 3 / 4)]
  mjdStart := 0
  parkAfter := 10

theorem toySite_nights : Nights toySite.nights := by
  unfold Nights; decide +kernel
theorem toySite_downs : Ordered toySite.downs := by decide +kernel

section
variable {K O : Type}

/-! ### C24 -/

/-- C24: a time passes `check_mjd` exactly if the observatory is open then, and is returned
unchanged; for a rejected time the suggested one is strictly later and the observatory is
open then. -/
theorem C24_jump_forward (S : Site) (hn : Nights S.nights) (hd : Ordered S.downs) (fuel : ℕ) (t t' : ℚ) (b : Bool)
    (h : checkMjd S fuel t = .ok (b, t')) :
    (b = true ↔ Open S t) ∧ (b = true → t' = t) ∧ (b = false → t < t' ∧ Open S t') := by
  have hs := (check_spec hn hd fuel).1 t b t' h
  cases b with
  | true => exact ⟨⟨fun _ => (hs.1 rfl).2, fun _ => rfl⟩, fun _ => (hs.1 rfl).1, by simp⟩
  | false => exact ⟨⟨by simp, fun ho => absurd ho (hs.2 rfl).1⟩, by simp, fun _ => (hs.2 rfl).2⟩

/-- In the downtime the jump goes to its end, then to the next night, then past the clouds. -/
example : checkMjd toySite 10 (3 / 10) = .ok (false, 1 + 1 / 72) ∧ checkMjd toySite 10 (1 / 5) = .ok (true, 1 / 5) := by
  decide +kernel

/-- Rows of a table that are still to come. -/
def pending (S : Site) (t : ℚ) : ℕ :=
  S.nights.countP (fun n => t < n.1) + S.downs.countP (fun d => t < d.2)

theorem countP_lt {α : Type} (l : List α) (f : α → ℚ) {t t' : ℚ} (h : t ≤ t') :
    l.countP (fun x => t' < f x) ≤ l.countP (fun x => t < f x) := by
  apply List.countP_mono_left
  intro x _ hx
  simp only [decide_eq_true_eq] at hx ⊢
  linarith

theorem countP_lt_of_mem {α : Type} (l : List α) (f : α → ℚ) {x : α} (hx : x ∈ l) {t t' : ℚ} (h : t < f x)
    (h' : f x ≤ t') : l.countP (fun x => t' < f x) < l.countP (fun x => t < f x) := by
  induction l with
  | nil => cases hx
  | cons a l ih =>
    rw [List.countP_cons, List.countP_cons]
    rcases List.mem_cons.1 hx with rfl | hm
    · have := countP_lt l f (show t ≤ t' by linarith)
      rw [if_neg (by simpa using h'), if_pos (by simpa using h)]
      omega
    · have := ih hm
      by_cases ha : t' < f a
      · rw [if_pos (by simpa using ha), if_pos (by simp; linarith)]; omega
      · rw [if_neg (by simpa using ha)]; omega

/-- With clear skies, the screening of a time before the last night's start succeeds, and if the time
does not pass, the time to try next is not after the last start and has fewer rows pending. -/
theorem screen_clear {S : Site} (hn : Nights S.nights) (hd : Ordered S.downs)
    (hc : ∀ t, S.cloud t ≤ S.cloudLimit) {T : ℚ} (hT : ∃ n ∈ S.nights, n.1 = T)
    (hdT : ∀ d ∈ S.downs, d.2 ≤ T) (fuel : ℕ) {t : ℚ} (ht : t ≤ T) :
    ∃ p new, screen S fuel t = .ok (p, new) ∧ (p = false → new ≤ T ∧ pending S new < pending S t) := by
  obtain ⟨nT, hnT, hnT1⟩ := hT
  have hmax : ∀ t', t < t' → ∀ x ∈ S.nights, x.1 = t' → pending S t' < pending S t := by
    intro t' htt x hx hxe
    have h1 := countP_lt_of_mem S.nights (fun n => n.1) hx (t := t) (t' := t') (by linarith) hxe.le
    have h2 := countP_lt S.downs (fun d => d.2) htt.le
    unfold pending
    omega
  have hcl : ¬ S.cloudLimit < S.cloud t := not_lt.2 (hc t)
  have hskip : skipClouds S fuel t = .ok t := by cases fuel <;> simp [skipClouds, hcl]
  obtain ⟨u, x, hu, hu1, hu2, hu3⟩ := checkUp_spec hd t
  have hst := nights_starts hn
  -- the almanac part
  have hnight : ∃ p3 t3, nightPart S (!decide (S.cloudLimit < S.cloud t)) t t = .ok (p3, t3) ∧
      (p3 = false → t3 ≤ T ∧ t < t3 ∧ ∃ n ∈ S.nights, n.1 = t3) := by
    have fin : ∀ {p3 t3}, nightPart S (!decide (S.cloudLimit < S.cloud t)) t t = .ok (p3, t3) →
        (p3 = false → t3 ≤ T) → p3 = false → t3 ≤ T ∧ t < t3 ∧ ∃ n ∈ S.nights, n.1 = t3 := by
      intro p3 t3 hok hle hp
      rcases nightPart_spec hn hok with ⟨-, h2, -⟩ | ⟨-, -, h3, h4⟩
      · rw [hp] at h2; simp [hcl] at h2
      · exact ⟨hle hp, h3, h4⟩
    rcases lookup S.nights t (hst.imp le_of_lt) with ⟨h1, h2⟩ | ⟨pre, y, q, h1, h2, h3, h4, h5, h6⟩
    · -- before the first night
      obtain ⟨a, l, hN⟩ : ∃ a l, S.nights = a :: l := List.exists_cons_of_ne_nil (List.ne_nil_of_mem hnT)
      have hlast : row S.nights (-1) = .ok (S.nights.getLast (by rw [hN]; simp)) := by
        unfold row
        simp only [hN, List.length_cons]
        rw [if_neg (by omega), if_pos (by push_cast; omega)]
        have : ((l.length + 1 : ℕ) + (-1 : ℤ)).toNat = l.length := by omega
        rw [this]
        have h3 : (a :: l)[l.length]? = some ((a :: l).getLast (by simp)) := by
          rw [List.getLast_eq_getElem]; simp
        rw [h3]
      set z := S.nights.getLast (by rw [hN]; simp) with hz
      have hzm : z ∈ S.nights := List.getLast_mem _
      have hz1 : t < z.1 := h2 z hzm
      have hz2 := hn.1 z hzm
      have hrow0 : row S.nights (-1 + 1) = .ok a := by simp [row, hN]
      have hok : nightPart S (!decide (S.cloudLimit < S.cloud t)) t t = .ok (false, a.1) := by
        unfold nightPart
        rw [h1]
        simp only [hlast, hrow0, bind, Except.bind, pure, Except.pure, if_neg (show ¬ z.2 < t by linarith), if_pos hz1]
      refine ⟨false, a.1, hok, fin hok (fun _ => ?_)⟩
      rw [← hnT1]
      rw [hN] at hnT hst
      rcases List.mem_cons.1 hnT with rfl | hm
      · exact le_rfl
      · exact ((List.pairwise_cons.1 hst).1 nT hm).le
    · by_cases hy : y.2 < t
      · have hq : nT ∈ q := by
          rw [h1] at hnT
          rcases List.mem_append.1 hnT with hm | hm
          · have hp := hn.2
            rw [h1] at hp
            have e1 := (List.pairwise_append.1 hp).2.2 nT hm y (by simp)
            have e2 := hn.1 nT (by rw [h1]; simp [hm])
            linarith
          · rcases List.mem_cons.1 hm with rfl | hm
            · have := hn.1 nT (by rw [h1]; simp)
              linarith
            · exact hm
        cases q with
        | nil => cases hq
        | cons m q =>
          have hrow : row S.nights (lastStarted S.nights t + 1) = .ok m := by
            rw [h2, h1]
            unfold row
            rw [if_pos (by omega)]
            have e : ((pre.length : ℤ) + 1).toNat = pre.length + 1 := by omega
            rw [e]
            simp
          have hok : nightPart S (!decide (S.cloudLimit < S.cloud t)) t t = .ok (false, m.1) := by
            unfold nightPart
            simp only [h3, hrow, bind, Except.bind, pure, Except.pure, if_pos hy, if_neg (show ¬ t < y.1 by linarith)]
          refine ⟨false, m.1, hok, fin hok (fun _ => ?_)⟩
          rw [← hnT1]
          rcases List.mem_cons.1 hq with rfl | hm
          · exact le_rfl
          · rw [h1] at hst
            have := (List.pairwise_cons.1 (List.pairwise_cons.1 (List.pairwise_append.1 hst).2.1).2).1 nT hm
            exact this.le
      · have hok : nightPart S (!decide (S.cloudLimit < S.cloud t)) t t = .ok (true, t) := by
          unfold nightPart
          simp [h3, bind, Except.bind, pure, Except.pure, if_neg hy, if_neg (show ¬ t < y.1 by linarith), hcl]
        exact ⟨true, t, hok, by simp⟩
  obtain ⟨p3, t3, hnp, hnp'⟩ := hnight
  cases u with
  | true =>
    refine ⟨p3, t3, ?_, fun hp => ?_⟩
    · unfold screen
      simp [hskip, hnp, hu, bind, Except.bind, pure, Except.pure]
    · obtain ⟨e1, e2, n, hnm, e3⟩ := hnp' hp
      exact ⟨e1, hmax t3 e2 n hnm e3⟩
  | false =>
    refine ⟨false, x, ?_, fun _ => ?_⟩
    · unfold screen
      simp [hskip, hnp, hu, bind, Except.bind, pure, Except.pure]
    · obtain ⟨e1, d, hdm, e2, rfl⟩ := hu3 rfl
      refine ⟨hdT d hdm, ?_⟩
      have h1 := countP_lt_of_mem S.downs (fun d => d.2) hdm e1 le_rfl
      have h2 := countP_lt S.nights (fun n => n.1) e1.le
      unfold pending
      omega

/-- C24, the search ends: with clear skies, from any time up to the last night of the almanac
(all downtimes being over by then), `check_mjd` returns, within a number of steps bounded by
the number of nights and downtimes still to come. -/
theorem C24_search_ends (S : Site) (hn : Nights S.nights) (hd : Ordered S.downs)
    (hc : ∀ t, S.cloud t ≤ S.cloudLimit) (T : ℚ) (hT : ∃ n ∈ S.nights, n.1 = T)
    (hdT : ∀ d ∈ S.downs, d.2 ≤ T) (t : ℚ) (ht : t ≤ T) (fuel : ℕ)
    (hf : 2 * (S.nights.length + S.downs.length) + 2 ≤ fuel) : ∃ b t', checkMjd S fuel t = .ok (b, t') := by
  have open_ok : ∀ n t, Open S t → t ≤ T → checkMjd S (n + 1) t = .ok (true, t) := by
    intro n t ho ht
    obtain ⟨p, new, h1, -⟩ := screen_clear hn hd hc hT hdT n ht
    have hp := (screen_spec hn hd h1).1.2 ho
    subst hp
    rw [checkMjd, h1]
  have key : ∀ m n t, t ≤ T → pending S t ≤ m → 2 * m + 2 ≤ n → ∃ b t', checkMjd S n t = .ok (b, t') ∧ t' ≤ T := by
    intro m
    induction m with
    | zero =>
      intro n t ht hm hn'
      obtain ⟨n, rfl⟩ : ∃ k, n = k + 1 := ⟨n - 1, by omega⟩
      obtain ⟨p, new, h1, h2⟩ := screen_clear hn hd hc hT hdT n ht
      cases p with
      | true => exact ⟨true, t, by rw [checkMjd, h1], ht⟩
      | false => have := (h2 rfl).2; omega
    | succ m ih =>
      intro n t ht hm hn'
      obtain ⟨n, rfl⟩ : ∃ k, n = k + 3 := ⟨n - 3, by omega⟩
      obtain ⟨p, new, h1, h2⟩ := screen_clear hn hd hc hT hdT (n + 2) ht
      cases p with
      | true => exact ⟨true, t, by rw [checkMjd, h1], ht⟩
      | false =>
        obtain ⟨hnew, hlt⟩ := h2 rfl
        obtain ⟨b, t', h3, h4⟩ := ih (n + 1) new hnew (by omega) (by omega)
        have hsp := (check_spec hn hd (n + 1)).1 new b t' h3
        cases b with
        | true => exact ⟨false, t', by rw [checkMjd, h1]; simp [search, h3], h4⟩
        | false =>
          have ho := (hsp.2 rfl).2.2
          obtain ⟨n, rfl⟩ : ∃ k, n = k + 1 := ⟨n - 1, by omega⟩
          have h5 := open_ok n t' ho h4
          exact ⟨false, t', by rw [checkMjd, h1]; simp [search, h3, h5], h4⟩
  obtain ⟨b, t', h, -⟩ := key (S.nights.length + S.downs.length) fuel t ht (by
    unfold pending
    exact Nat.add_le_add List.countP_le_length List.countP_le_length) hf
  exact ⟨b, t', h⟩

/-- The hypotheses are met by the small site without its clouds, and the search takes three
jumps from before the first night when a downtime ends in the day. -/
example : ∃ S : Site, (Nights S.nights ∧ Ordered S.downs ∧ (∃ n ∈ S.nights, n.1 = 2) ∧ (∀ d ∈ S.downs, d.2 ≤ 2)) ∧
    checkMjd S 10 (-1) = .ok (false, 1) := by
  refine ⟨{ toySite with cloud := fun _ => 0, downs := [(-2, -1 / 2), (0, 3 / 4)] }, ⟨toySite_nights, ?_, ?_, ?_⟩, ?_⟩
  all_goals decide +kernel

/-! ### C22 -/

/-- C22: every visit completed in any sequence of calls ends at a time when the observatory is
open: no downtime, night, clouds at or below the limit. -/
theorem C22_visit_ends_open (S : Site) (hn : Nights S.nights) (hd : Ordered S.downs) (M : Kin K O) (fuel : ℕ)
    (s : St K) (ops : List (Op O)) :
    ∀ v ∈ (run S M fuel s ops).2, Open S (v.mjd + v.visittime / 24 / 3600) := by
  induction ops generalizing s with
  | nil => intro v hv; cases hv
  | cons op ops ih =>
    cases op with
    | setClock t => exact ih _
    | observe o =>
      intro v hv
      rw [run] at hv
      cases h : observe S M fuel s o with
      | error e => rw [h] at hv; cases hv
      | ok r =>
        obtain ⟨s', w, nn⟩ := r
        rw [h] at hv
        dsimp only at hv
        rcases List.mem_append.1 hv with hv | hv
        · rcases observe_cases h with ⟨h1, -⟩ | ⟨k, o', slew, -, -, -, ⟨x, h2, h3, -⟩ | ⟨-, h3, -⟩⟩
          · rw [h1] at hv; cases hv
          · have := ((check_spec hn hd fuel).1 _ _ _ h2).1 rfl
            rw [h3] at hv
            rw [Option.toList_some, List.mem_singleton] at hv
            subst hv
            have e : s.mjd + (slew + (M.observe k o' s.mjd).2.2) / 24 / 3600 =
              s.mjd + slew / 24 / 3600 + (M.observe k o' s.mjd).2.2 / 24 / 3600 := by ring
            rw [e] at this
            exact this.2
          · rw [h3] at hv; cases hv
        · exact ih s' v hv

/-- In the small site: a visit of 2.4 hours, one that would end in the downtime and is rejected (the clock then
jumps to the next night and past the clouds), an unreachable one, and another visit. -/
example : ((run toySite toyKin 20 ⟨0, 0, 0⟩ [.observe (some 60, 8640), .observe (some 0, 8640 * 2),
    .observe (none, 30), .observe (some 864, 30)]).2.map (fun v => (v.ID, v.mjd))) =
    [(0, 1 / 1440), (1, 1 + 1 / 72 + 1 / 100)] := by
  decide +kernel

/-- The assumption that downtimes do not overlap is needed: a table given by the user is taken
as it is, and inside the longer of two overlapping downtimes, after the end of the shorter one,
the observatory takes itself to be up. -/
theorem C22_overlapping_downtimes : ∃ S : Site, Nights S.nights ∧ S.downs.Pairwise (fun a b => a.1 ≤ b.1) ∧
    ∃ t, checkMjd S 10 t = .ok (true, t) ∧ Closed S.downs t := by
  refine ⟨{ toySite with downs := [(0, 1 / 2), (1 / 8, 1 / 4)] }, toySite_nights, ?_, 3 / 8, ?_, ?_⟩ <;> decide +kernel

/-! ### C23 -/

/-- C23 for a run of observations from a time outside downtimes, when every downtime is longer
than a slew with its visit: no moment of a visit is in a downtime. Missing: shorter downtimes
(see `C23_violated`), and clocks put into a downtime by the caller. -/
theorem C23_no_downtime_partial (S : Site) (hn : Nights S.nights) (hd : Ordered S.downs) (M : Kin K O) (hM : NonNeg M)
    (L : ℚ) (hL : ∀ k o t, ∀ x ∈ (M.observe k o t).2.1, x + (M.observe k o t).2.2 ≤ L)
    (hlong : ∀ d ∈ S.downs, L / 24 / 3600 < d.2 - d.1) (fuel : ℕ) (s : St K) (hs : ¬ Closed S.downs s.mjd)
    (os : List O) :
    ∀ v ∈ (run S M fuel s (os.map .observe)).2, ∀ t, v.mjd ≤ t → t ≤ v.mjd + v.visittime / 24 / 3600 →
      ¬ Closed S.downs t := by
  induction os generalizing s with
  | nil => intro v hv; cases hv
  | cons o os ih =>
    intro v hv
    rw [List.map_cons, run] at hv
    cases h : observe S M fuel s o with
    | error e => rw [h] at hv; cases hv
    | ok r =>
      obtain ⟨s', w, nn⟩ := r
      rw [h] at hv
      dsimp only at hv
      rcases observe_cases h with ⟨h1, h2, -⟩ | ⟨k, o', slew, -, -, hslew, ⟨x, h2, h3, h4, -⟩ | ⟨h2, h3, -⟩⟩
      · rw [h1, Option.toList_none, List.nil_append] at hv
        exact ih s' (by rw [h2]; exact hs) v hv
      · have ho := (((check_spec hn hd fuel).1 _ _ _ h2).1 rfl).2
        rw [← h4] at ho
        rcases List.mem_append.1 hv with hv | hv
        · rw [h3, Option.toList_some, List.mem_singleton] at hv
          subst hv
          intro t ht1 ht2
          dsimp only at ht1 ht2
          rintro ⟨d, hdm, hd1, hd2⟩
          have hx := (hM k o' s.mjd).1 slew (by rw [hslew]; rfl)
          have hx' : 0 ≤ slew / 24 / 3600 := div_nonneg (div_nonneg hx (by norm_num)) (by norm_num)
          have hend : s'.mjd = s.mjd + slew / 24 / 3600 + (M.observe k o' s.mjd).2.2 / 24 / 3600 := by rw [h4]; ring
          have hb1 : s.mjd < d.1 := by
            by_contra hcon
            exact hs ⟨d, hdm, not_lt.1 hcon, by linarith⟩
          have hb2 : d.2 ≤ s'.mjd := by
            by_contra hcon
            exact ho.up ⟨d, hdm, by linarith, not_le.1 hcon⟩
          have hl := hL k o' s.mjd slew (by rw [hslew]; rfl)
          have hl' : (slew + (M.observe k o' s.mjd).2.2) / 24 / 3600 ≤ L / 24 / 3600 := by
            apply div_le_div_of_nonneg_right (div_le_div_of_nonneg_right hl (by norm_num)) (by norm_num)
          have := hlong d hdm
          linarith
        · exact ih s' ho.up v hv
      · have ho := (((check_spec hn hd fuel).1 _ _ _ h2).2 rfl).2.2
        rw [h3, Option.toList_none, List.nil_append] at hv
        exact ih s' ho.up v hv

/-- The hypotheses are met by the small site with targets of at most ten minutes. -/
example : ∃ (M : Kin ℚ (Option ℚ × ℚ)) (L : ℚ), NonNeg M ∧
    (∀ k o t, ∀ x ∈ (M.observe k o t).2.1, x + (M.observe k o t).2.2 ≤ L) ∧
    (∀ d ∈ toySite.downs, L / 24 / 3600 < d.2 - d.1) ∧ ¬ Closed toySite.downs 0 ∧
    ((run toySite M 20 ⟨0, 0, 0⟩ ([(some 30, 30), (none, 1)].map .observe)).2.map (·.mjd)) = [30 / 86400] := by
  refine ⟨{ toyKin with observe := fun k o t => (t, o.1.map (fun _ => 30), 30) }, 60, ?_, ?_, ?_, ?_, ?_⟩
  · intro k o t; simp
  · intro k o t x hx
    obtain ⟨y, -, rfl⟩ := Option.map_eq_some_iff.1 hx
    norm_num
  · decide +kernel
  · decide +kernel
  · decide +kernel

/-- C23 does not hold in general: only the end of a visit is checked, so a visit may start
before and end after a short downtime. -/
theorem C23_violated : ∃ (S : Site) (o : Option ℚ × ℚ) (s' : St ℚ) (v : Visit (Option ℚ × ℚ)),
    Nights S.nights ∧ Ordered S.downs ∧ Open S 0 ∧
    observe S toyKin 10 ⟨0, 0, 0⟩ o = .ok (s', some v, false) ∧
    ∃ t, v.mjd < t ∧ t < v.mjd + v.visittime / 24 / 3600 ∧ Closed S.downs t := by
  refine ⟨{ toySite with downs := [(1 / 86400, 21 / 86400)] }, (some 0, 30), ⟨30 / 86400, 0, 1⟩,
    ⟨(some 0, 30), 0, 0, 0, 0, 30⟩, toySite_nights, ?_, ⟨?_, ⟨(0, 1 / 2), ?_, ?_⟩, ?_⟩, ?_, 2 / 86400, ?_, ?_, ?_⟩
  · decide +kernel
  · decide +kernel
  · simp [toySite]
  · norm_num
  · decide +kernel
  · have : checkMjd { toySite with downs := [(1 / 86400, 21 / 86400)] } 10 (0 + (0 + 30) / 24 / 3600) =
        .ok (true, 0 + (0 + 30) / 24 / 3600) := by decide +kernel
    simp only [observe, toyKin, this]
    norm_num [toySite, St.night]
  · norm_num
  · norm_num
  · decide +kernel

/-! ### C21 -/

/-- C21: in any sequence of observations and forward moves of the clock, each visit starts no
earlier than any earlier one ended, and the visit IDs count up by one. -/
theorem C21_visits_in_order (S : Site) (hn : Nights S.nights) (hd : Ordered S.downs) (M : Kin K O) (hM : NonNeg M)
    (fuel : ℕ) (s : St K) (ops : List (Op O)) (hf : Forwards S M fuel s ops) :
    let vs := (run S M fuel s ops).2
    vs.Pairwise (fun a b => a.mjd + a.visittime / 24 / 3600 ≤ b.mjd) ∧
    vs.map (·.ID) = List.range' s.nextId vs.length ∧ ∀ v ∈ vs, s.mjd ≤ v.mjd ∧ 0 ≤ v.visittime := by
  induction ops generalizing s with
  | nil => exact ⟨List.Pairwise.nil, rfl, by simp [run]⟩
  | cons op ops ih =>
    cases op with
    | setClock t =>
      obtain ⟨h1, h2, h3⟩ := ih _ hf.2
      exact ⟨h1, h2, fun v hv => ⟨le_trans hf.1 (h3 v hv).1, (h3 v hv).2⟩⟩
    | observe o =>
      rw [run]
      rw [Forwards] at hf
      cases h : observe S M fuel s o with
      | error e => exact ⟨List.Pairwise.nil, rfl, by simp⟩
      | ok r =>
        obtain ⟨s', w, nn⟩ := r
        rw [h] at hf
        dsimp only at hf ⊢
        have hfwd := observe_forward hn hd hM h
        obtain ⟨i1, i2, i3⟩ := ih s' hf
        rcases observe_cases h with ⟨h1, h2, h2', -⟩ | ⟨k, o', slew, -, -, hslew, ⟨x, h2, h3, h4, h5, -⟩ | ⟨h2, h3, h5, -⟩⟩
        · rw [h1, Option.toList_none, List.nil_append]
          rw [h2'] at i2
          exact ⟨i1, i2, fun v hv => ⟨le_trans hfwd (i3 v hv).1, (i3 v hv).2⟩⟩
        · have hx := (hM k o' s.mjd).1 slew (by rw [hslew]; rfl)
          have hv0 := (hM k o' s.mjd).2
          have hx' : 0 ≤ slew / 24 / 3600 := div_nonneg (div_nonneg hx (by norm_num)) (by norm_num)
          have hend : s'.mjd = s.mjd + slew / 24 / 3600 + (M.observe k o' s.mjd).2.2 / 24 / 3600 := by rw [h4]; ring
          rw [h3, Option.toList_some, List.singleton_append]
          refine ⟨List.pairwise_cons.2 ⟨fun v hv => ?_, i1⟩, ?_, fun v hv => ?_⟩
          · dsimp only
            rw [← hend]
            exact (i3 v hv).1
          · rw [List.map_cons, i2, h5, List.length_cons, List.range'_succ]
          · rcases List.mem_cons.1 hv with rfl | hv
            · exact ⟨by dsimp only; linarith, hv0⟩
            · exact ⟨le_trans hfwd (i3 v hv).1, (i3 v hv).2⟩
        · rw [h3, Option.toList_none, List.nil_append]
          rw [h5] at i2
          exact ⟨i1, i2, fun v hv => ⟨le_trans hfwd (i3 v hv).1, (i3 v hv).2⟩⟩

/-- The hypotheses are met by a run with two visits, a rejection and a forward move. -/
example : ∃ (M : Kin ℚ (Option ℚ × ℚ)) (ops : List (Op (Option ℚ × ℚ))), NonNeg M ∧
    Forwards toySite M 20 ⟨0, 0, 5⟩ ops ∧
    ((run toySite M 20 ⟨0, 0, 5⟩ ops).2.map (fun v => (v.ID, v.mjd, v.visittime))) =
      [(5, 60 / 86400, 30), (6, 1 / 8 + 60 / 86400, 30)] := by
  refine ⟨toyKin60,
    [.observe (some 1, 1), .observe (none, 1), .setClock (1 / 8), .observe (some 1, 1)], ?_, ?_, ?_⟩
  · intro k o t; simp [toyKin60]
  · have e1 : observe toySite toyKin60 20 ⟨0, 0, 5⟩
        (some 1, 1) = .ok (⟨90 / 86400, 0, 6⟩, some ⟨(some 1, 1), 60 / 86400, 0, 5, 60, 30⟩, false) := by
      have : checkMjd toySite 20 (0 + (60 + 30) / 24 / 3600) = .ok (true, 0 + (60 + 30) / 24 / 3600) := by decide +kernel
      simp only [observe, toyKin60, Option.map_some, this]
      norm_num [St.night, toySite]
    have e2 : observe toySite toyKin60 20 ⟨90 / 86400, 0, 6⟩
        (none, 1) = .ok (⟨90 / 86400, 90 / 86400, 6⟩, none, false) := by
      norm_num [observe, toyKin60, toySite]
    simp only [Forwards, e1, e2]
    refine ⟨by norm_num, ?_⟩
    split <;> trivial
  · decide +kernel

/-- The observatory meets what C62 asks of it (a simulation ends): if every visit takes at
least `δ` seconds, each call of `observe` either puts the clock forward by at least that, or
completes nothing and leaves the clock alone. -/
theorem C62_observatory_progress (S : Site) (hn : Nights S.nights) (hd : Ordered S.downs) (M : Kin K O) (hM : NonNeg M)
    (δ : ℚ) (hδ : ∀ k o t, δ ≤ (M.observe k o t).2.2) (fuel : ℕ) (s s' : St K) (o : O) (v : Option (Visit O)) (nn : Bool)
    (h : observe S M fuel s o = .ok (s', v, nn)) :
    s.mjd + δ / 24 / 3600 ≤ s'.mjd ∨ (v = none ∧ s'.mjd = s.mjd) := by
  rcases observe_cases h with ⟨h1, h2, -⟩ | ⟨k, o', slew, -, -, h3, h4⟩
  · exact .inr ⟨h1, h2⟩
  · left
    have h6 := (hM k o' s.mjd).1 slew (by rw [h3]; rfl)
    have h7 := hδ k o' s.mjd
    have h8 : δ / 24 / 3600 ≤ (slew + (M.observe k o' s.mjd).2.2) / 24 / 3600 :=
      div_le_div_of_nonneg_right (div_le_div_of_nonneg_right (by linarith) (by norm_num)) (by norm_num)
    rcases h4 with ⟨x, -, -, h9, -⟩ | ⟨h9, -⟩
    · linarith
    · have := ((check_spec hn hd fuel).1 _ _ _ h9).2 rfl
      linarith [this.2.1]

/-! ### C65 -/

/-- C65: an attempt to observe reports a new night exactly if no visit was made and the clock
now shows another night number; that number is then larger. A rejected attempt that moved the
clock leaves the telescope parked. -/
theorem C65_new_night (S : Site) (hn : Nights S.nights) (hd : Ordered S.downs) (M : Kin K O) (hM : NonNeg M)
    (fuel : ℕ) (s s' : St K) (o : O) (v : Option (Visit O)) (nn : Bool)
    (h : observe S M fuel s o = .ok (s', v, nn)) :
    (nn = true ↔ v = none ∧ ⌊s'.mjd - S.mjdStart⌋ ≠ ⌊s.mjd - S.mjdStart⌋) ∧
    (nn = true → ⌊s.mjd - S.mjdStart⌋ < ⌊s'.mjd - S.mjdStart⌋) ∧
    (v = none → s'.mjd ≠ s.mjd → ∃ k, s'.kin = M.park k) := by
  have hfwd := observe_forward hn hd hM h
  have hle : ⌊s.mjd - S.mjdStart⌋ ≤ ⌊s'.mjd - S.mjdStart⌋ := Int.floor_le_floor (by linarith)
  have hcase : nn = true ↔ v = none ∧ ⌊s'.mjd - S.mjdStart⌋ ≠ ⌊s.mjd - S.mjdStart⌋ := by
    rcases observe_cases h with ⟨h1, h2, -, h4⟩ | ⟨k, o', slew, -, -, h3, ⟨x, -, h5, -, -, h6⟩ | ⟨-, h5, -, h6⟩⟩
    · subst h4; simp [h2]
    · subst h5 h6; simp
    · subst h5; rw [h6, decide_eq_true_iff]; simp [St.night]
  refine ⟨hcase, fun hh => lt_of_le_of_ne hle (Ne.symm (hcase.1 hh).2), fun hv hmjd => ?_⟩
  unfold observe at h
  cases hp : M.prepare s.kin s.mjd o with
  | none => rw [hp] at h; cases h
  | some o' =>
    rw [hp] at h
    dsimp only at h
    split at h
    · simp only [Except.ok.injEq, Prod.mk.injEq] at h
      rw [← h.1] at hmjd; exact absurd rfl hmjd
    · split at h
      · cases h
      · simp only [Except.ok.injEq, Prod.mk.injEq] at h
        rw [hv] at h; exact absurd h.2.1 (by simp)
      · simp only [Except.ok.injEq, Prod.mk.injEq] at h
        rw [← h.1]; exact ⟨_, rfl⟩

/-- A visit that would end after the first night moves the clock to the second. -/
example : (match observe toySite toyKin60 20 ⟨1 / 2 - 1 / 10000, 0, 0⟩ (some 0, 30) with
    | .ok (s, v, nn) => s.mjd == 1 + 1 / 72 && v.isNone && nn
    | .error _ => false) = true := by
  decide +kernel

end

end Verif
