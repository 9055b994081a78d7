import Verif.Props.Observatory
import Mathlib.Algebra.Order.Floor.Semiring

/-!
C24 with clouds: the search for the next open time ends if some night to come is open for twenty minutes at a stretch.
-/

namespace Verif

open Obs Down

variable {S : Site}

/-- The almanac has an answer for every time up to the end of one of its nights. -/
theorem night_ok (hn : Nights S.nights) {N : ℚ × ℚ} (hN : N ∈ S.nights) (p : Bool) {t : ℚ} (t1 : ℚ) (ht : t ≤ N.2) :
    ∃ p3 t3, nightPart S p t t1 = .ok (p3, t3) ∧ (¬ InNight S.nights t → t3 ≤ N.1) := by
  have hst := nights_starts hn
  rcases lookup S.nights t (hst.imp le_of_lt) with ⟨h1, h2⟩ | ⟨pre, y, q, h1, h2, h3, h4, h5, h6⟩
  · obtain ⟨a, l, hL⟩ : ∃ a l, S.nights = a :: l := List.exists_cons_of_ne_nil (List.ne_nil_of_mem hN)
    have hlast : row S.nights (-1) = .ok (S.nights.getLast (by rw [hL]; simp)) := by
      unfold row
      simp only [hL, List.length_cons]
      rw [if_neg (by omega), if_pos (by push_cast; omega)]
      have : ((l.length + 1 : ℕ) + (-1 : ℤ)).toNat = l.length := by omega
      rw [this]
      have h3 : (a :: l)[l.length]? = some ((a :: l).getLast (by simp)) := by
        rw [List.getLast_eq_getElem]; simp
      rw [h3]
    set z := S.nights.getLast (by rw [hL]; simp) with hz
    have hzm : z ∈ S.nights := List.getLast_mem _
    have hz1 : t < z.1 := h2 z hzm
    have hz2 := hn.1 z hzm
    have hrow0 : row S.nights (-1 + 1) = .ok a := by simp [row, hL]
    refine ⟨false, a.1, ?_, fun _ => ?_⟩
    · unfold nightPart
      rw [h1]
      simp only [hlast, hrow0, bind, Except.bind, pure, Except.pure, if_neg (show ¬ z.2 < t by linarith), if_pos hz1]
    · rw [hL] at hN hst
      rcases List.mem_cons.1 hN with rfl | hm
      · exact le_rfl
      · exact ((List.pairwise_cons.1 hst).1 N hm).le
  · by_cases hy : y.2 < t
    · have hq : N ∈ q := by
        rw [h1] at hN
        rcases List.mem_append.1 hN with hm | hm
        · have hp := hn.2
          rw [h1] at hp
          have e1 := (List.pairwise_append.1 hp).2.2 N hm y (by simp)
          linarith
        · rcases List.mem_cons.1 hm with rfl | hm
          · linarith
          · exact hm
      cases q with
      | nil => cases hq
      | cons m q =>
        have hrow : row S.nights (lastStarted S.nights t + 1) = .ok m := by
          rw [h2, h1]
          unfold row
          rw [if_pos (by omega)]
          have e : ((pre.length : ℤ) + 1).toNat = pre.length + 1 := by omega
          rw [e]
          simp
        refine ⟨false, m.1, ?_, fun _ => ?_⟩
        · unfold nightPart
          simp only [h3, hrow, bind, Except.bind, pure, Except.pure, if_pos hy, if_neg (show ¬ t < y.1 by linarith)]
        · rcases List.mem_cons.1 hq with rfl | hm
          · exact le_rfl
          · rw [h1] at hst
            exact ((List.pairwise_cons.1 (List.pairwise_cons.1 (List.pairwise_append.1 hst).2.1).2).1 N hm).le
    · refine ⟨p, t1, ?_, fun h => absurd ⟨y, by rw [h1]; simp, h5, not_lt.1 hy⟩ h⟩
      unfold nightPart
      simp [h3, bind, Except.bind, pure, Except.pure, if_neg hy, if_neg (show ¬ t < y.1 by linarith)]

theorem cloudStep_pos : (0 : ℚ) < cloudStep := by unfold cloudStep; norm_num

/-- Cloudy times are passed over up to a clear stretch of twenty minutes. -/
theorem skip_ok {N : ℚ × ℚ} (hlong : N.1 + cloudStep ≤ N.2) (hclear : ∀ t, N.1 ≤ t → t ≤ N.2 → S.cloud t ≤ S.cloudLimit) (n : ℕ) {t : ℚ} (ht : t ≤ N.2)
    (hf : ⌈(N.2 - t) / cloudStep⌉₊ ≤ n) : ∃ t1, skipClouds S n t = .ok t1 ∧ t1 ≤ N.2 ∧ (S.cloudLimit < S.cloud t → t + cloudStep ≤ t1) := by
  have hs := cloudStep_pos
  induction n generalizing t with
  | zero =>
    have h0 : (N.2 - t) / cloudStep ≤ 0 := Nat.ceil_eq_zero.1 (Nat.le_zero.1 hf)
    have h1 : N.2 - t ≤ 0 := by
      by_contra hc
      exact absurd (div_pos (not_le.1 hc) hs) (not_lt.2 h0)
    have hc : ¬ S.cloudLimit < S.cloud t := not_lt.2 (hclear t (by linarith) ht)
    exact ⟨t, by rw [skipClouds, if_neg hc], ht, fun h => absurd h hc⟩
  | succ n ih =>
    by_cases hc : S.cloudLimit < S.cloud t
    · have hta : t < N.1 := by
        by_contra h
        exact absurd (hclear t (not_lt.1 h) ht) (not_le.2 hc)
      have he : (N.2 - (t + cloudStep)) / cloudStep = (N.2 - t) / cloudStep - 1 := by
        field_simp
        ring
      obtain ⟨t1, h1, h2, -⟩ := ih (t := t + cloudStep) (by linarith) (by
        rw [he, Nat.ceil_sub_one]
        omega)
      exact ⟨t1, by rw [skipClouds, if_pos hc]; exact h1, h2, fun _ => (skipClouds_spec h1).1⟩
    · exact ⟨t, by rw [skipClouds, if_neg hc], ht, fun h => absurd h hc⟩

/-- Rows of the tables still to come, and steps of twenty minutes up to a time. -/
def ahead (S : Site) (b t : ℚ) : ℕ := pending S t + ⌈(b - t) / cloudStep⌉₊

/-- A time up to the end of an open night is screened, and what is tried next has less ahead. -/
theorem screen_ok (hn : Nights S.nights) (hd : Ordered S.downs) {N : ℚ × ℚ} (hN : N ∈ S.nights) (hlong : N.1 + cloudStep ≤ N.2)
    (hopen : ∀ t, N.1 ≤ t → t ≤ N.2 → Open S t) (n : ℕ) {t : ℚ} (ht : t ≤ N.2) (hf : ⌈(N.2 - t) / cloudStep⌉₊ ≤ n) :
    ∃ p new, screen S n t = .ok (p, new) ∧ (p = false → new ≤ N.2 ∧ ahead S N.2 new < ahead S N.2 t) := by
  have hs := cloudStep_pos
  obtain ⟨t1, hk, hk1, hk2⟩ := skip_ok hlong (fun t a b => (hopen t a b).clear) n ht hf
  obtain ⟨p3, t3, hnp, hnp'⟩ := night_ok hn hN (!decide (S.cloudLimit < S.cloud t)) t1 ht
  obtain ⟨u, x, hu, hu1, hu2, hu3⟩ := checkUp_spec hd t
  have hceil : ∀ {y}, t ≤ y → ⌈(N.2 - y) / cloudStep⌉₊ ≤ ⌈(N.2 - t) / cloudStep⌉₊ := fun hy =>
    Nat.ceil_mono (div_le_div_of_nonneg_right (by linarith) hs.le)
  have hp : ∀ {y}, t ≤ y → pending S y ≤ pending S t := fun hy =>
    Nat.add_le_add (countP_lt S.nights (fun n => n.1) hy) (countP_lt S.downs (fun d => d.2) hy)
  cases u with
  | false =>
    refine ⟨false, x, by unfold screen; simp [hk, hnp, hu, bind, Except.bind, pure, Except.pure], fun _ => ?_⟩
    obtain ⟨e1, d, hdm, e2, rfl⟩ := hu3 rfl
    have hta : t < N.1 := by
      by_contra h
      exact (hopen t (not_lt.1 h) ht).up ⟨d, hdm, e2, e1⟩
    have hle : d.2 ≤ N.1 := by
      by_contra h
      exact (hopen N.1 le_rfl (by linarith)).up ⟨d, hdm, by linarith, not_le.1 h⟩
    refine ⟨by linarith, ?_⟩
    have h1 := countP_lt_of_mem S.downs (fun d => d.2) hdm e1 le_rfl
    have h2 := countP_lt S.nights (fun n => n.1) e1.le
    have h3 := hceil e1.le
    unfold ahead pending
    omega
  | true =>
    refine ⟨p3, t3, by unfold screen; simp [hk, hnp, hu, bind, Except.bind, pure, Except.pure], fun hpf => ?_⟩
    rcases nightPart_spec hn hnp with ⟨h1, h2, h3⟩ | ⟨h1, -, h3, z, hz, hz1⟩
    · have hc : S.cloudLimit < S.cloud t := by
        rw [hpf] at h2
        simpa using h2.symm
      subst h3
      have h4 := hk2 hc
      refine ⟨hk1, ?_⟩
      have h5 := hp (show t ≤ t3 by linarith)
      have hta : t < N.1 := by
        by_contra h
        exact absurd (hopen t (not_lt.1 h) ht).clear (not_le.2 hc)
      have h6 : ⌈(N.2 - t3) / cloudStep⌉₊ < ⌈(N.2 - t) / cloudStep⌉₊ := by
        have e1 : (N.2 - t3) / cloudStep ≤ (N.2 - t) / cloudStep - 1 := by
          rw [le_sub_iff_add_le, div_add_one hs.ne', div_le_div_iff_of_pos_right hs]
          linarith
        have e2 := Nat.ceil_mono e1
        rw [Nat.ceil_sub_one] at e2
        have e3 : 0 < ⌈(N.2 - t) / cloudStep⌉₊ := Nat.ceil_pos.2 (div_pos (by linarith) hs)
        omega
      unfold ahead
      omega
    · have hle := hnp' h1
      refine ⟨by linarith, ?_⟩
      have e1 := countP_lt_of_mem S.nights (fun n => n.1) hz (t := t) (t' := t3) (by linarith) hz1.le
      have e2 := countP_lt S.downs (fun d => d.2) h3.le
      have e3 := hceil h3.le
      unfold ahead pending
      omega

/-- **C24**, the search ends also with clouds: if some night of the almanac that is not over is open throughout, and lasts for twenty minutes, `check_mjd` returns, within a number
of steps bounded by the number of nights and downtimes and by the time to the end of that night. -/
theorem C24_clouds_end (S : Site) (hn : Nights S.nights) (hd : Ordered S.downs) (N : ℚ × ℚ) (hN : N ∈ S.nights) (hlong : N.1 + 20 / 60 / 24 ≤ N.2)
    (hopen : ∀ t, N.1 ≤ t → t ≤ N.2 → Open S t) (t : ℚ) (ht : t ≤ N.2) (fuel : ℕ)
    (hf : 2 * (S.nights.length + S.downs.length) + 3 * ⌈(N.2 - t) / (20 / 60 / 24)⌉₊ + 2 ≤ fuel) : ∃ b t', checkMjd S fuel t = .ok (b, t') ∧ t' ≤ N.2 := by
  have hs := cloudStep_pos
  have open_ok : ∀ n t, Open S t → t ≤ N.2 → ⌈(N.2 - t) / cloudStep⌉₊ ≤ n → checkMjd S (n + 1) t = .ok (true, t) := by
    intro n t ho ht hk
    obtain ⟨p, new, h1, -⟩ := screen_ok hn hd hN hlong hopen n ht hk
    have hp := (screen_spec hn hd h1).1.2 ho
    subst hp
    rw [checkMjd, h1]
  have hceil : ∀ {x y}, x ≤ y → ⌈(N.2 - y) / cloudStep⌉₊ ≤ ⌈(N.2 - x) / cloudStep⌉₊ := fun hy =>
    Nat.ceil_mono (div_le_div_of_nonneg_right (by linarith) hs.le)
  have key : ∀ m n t, t ≤ N.2 → ahead S N.2 t ≤ m → 2 * m + 2 + ⌈(N.2 - t) / cloudStep⌉₊ ≤ n → ∃ b t', checkMjd S n t = .ok (b, t') ∧ t' ≤ N.2 := by
    intro m
    induction m with
    | zero =>
      intro n t ht hm hn'
      obtain ⟨n, rfl⟩ : ∃ k, n = k + 1 := ⟨n - 1, by omega⟩
      obtain ⟨p, new, h1, h2⟩ := screen_ok hn hd hN hlong hopen n ht (by omega)
      cases p with
      | true => exact ⟨true, t, by rw [checkMjd, h1], ht⟩
      | false => have := (h2 rfl).2; omega
    | succ m ih =>
      intro n t ht hm hn'
      obtain ⟨n, rfl⟩ : ∃ k, n = k + 3 := ⟨n - 3, by omega⟩
      obtain ⟨p, new, h1, h2⟩ := screen_ok hn hd hN hlong hopen (n + 2) ht (by omega)
      cases p with
      | true => exact ⟨true, t, by rw [checkMjd, h1], ht⟩
      | false =>
        obtain ⟨hnew, hlt⟩ := h2 rfl
        have hmono := hceil ((screen_spec hn hd h1).2 rfl).le
        obtain ⟨b, t', h3, h4⟩ := ih (n + 1) new hnew (by omega) (by omega)
        have hsp := (check_spec hn hd (n + 1)).1 new b t' h3
        cases b with
        | true => exact ⟨false, t', by rw [checkMjd, h1]; simp [search, h3], h4⟩
        | false =>
          have ho := (hsp.2 rfl).2
          have hm2 := hceil ho.1.le
          obtain ⟨n, rfl⟩ : ∃ k, n = k + 1 := ⟨n - 1, by omega⟩
          have h5 := open_ok n t' ho.2 h4 (by omega)
          exact ⟨false, t', by rw [checkMjd, h1]; simp [search, h3, h5], h4⟩
  refine key (S.nights.length + S.downs.length + ⌈(N.2 - t) / cloudStep⌉₊) fuel t ht ?_ ?_
  · unfold ahead pending
    have h1 : S.nights.countP (fun n => decide (t < n.1)) ≤ S.nights.length := List.countP_le_length
    have h2 : S.downs.countP (fun d => decide (t < d.2)) ≤ S.downs.length := List.countP_le_length
    omega
  · have : ⌈(N.2 - t) / (20 / 60 / 24)⌉₊ = ⌈(N.2 - t) / cloudStep⌉₊ := rfl
    omega

/-- The third night of the small site, which has clouds and a downtime before, is open throughout. -/
example : (2, 5 / 2) ∈ toySite.nights ∧ (2 : ℚ) + 20 / 60 / 24 ≤ 5 / 2 ∧ ∀ t, (2 : ℚ) ≤ t → t ≤ 5 / 2 → Open toySite t := by
  refine ⟨by simp [toySite], by norm_num, fun t h1 h2 => ⟨?_, ⟨(2, 5 / 2), by simp [toySite], h1, h2⟩, ?_⟩⟩
  · simp only [toySite]
    rw [if_neg fun h => by linarith [h.2]]
    norm_num
  · rintro ⟨d, hd, h3, h4⟩
    simp only [toySite, List.mem_cons, List.not_mem_nil, or_false] at hd
    subst hd
    dsimp only at h4
    linarith

/-- Without a clear time to come the search of the code does not end. -/
theorem C24_endless_violated (S : Site) (t : ℚ) (hc : ∀ k : ℕ, S.cloudLimit < S.cloud (t + k * cloudStep)) (fuel : ℕ) : checkMjd S fuel t = .error .fuel := by
  have key : ∀ n (t : ℚ), (∀ k : ℕ, S.cloudLimit < S.cloud (t + k * cloudStep)) → skipClouds S n t = .error .fuel := by
    intro n
    induction n with
    | zero =>
      intro t h
      have := h 0
      simp only [Nat.cast_zero, zero_mul, add_zero] at this
      rw [skipClouds, if_pos this]
    | succ n ih =>
      intro t h
      have h0 := h 0
      simp only [Nat.cast_zero, zero_mul, add_zero] at h0
      rw [skipClouds, if_pos h0]
      refine ih _ fun k => ?_
      have := h (k + 1)
      have e : t + cloudStep + (k : ℚ) * cloudStep = t + ((k + 1 : ℕ) : ℚ) * cloudStep := by push_cast; ring
      rw [e]
      exact this
  cases fuel with
  | zero => rw [checkMjd]
  | succ n =>
    rw [checkMjd]
    have : screen S n t = .error .fuel := by
      unfold screen
      rw [key n t hc]
      rfl
    rw [this]

/-- Clear skies between the times tried do not help: clouds that clear for ten minutes in every twenty. -/
example : ∃ S : Site, (∀ k : ℕ, S.cloudLimit < S.cloud (0 + k * cloudStep)) ∧ ∃ t, 0 < t ∧ Open S t := by
  refine ⟨{ toySite with cloud := fun t => if Int.fract (t / cloudStep) < 1 / 2 then 1 else 0 }, fun k => ?_, 1 / 100, by norm_num, ?_, ⟨(0, 1 / 2), by simp [toySite], by norm_num, by norm_num⟩, ?_⟩
  · simp only [toySite]
    have e : (0 + (k : ℚ) * cloudStep) / cloudStep = k := by rw [zero_add, mul_div_cancel_right₀ _ cloudStep_pos.ne']
    rw [e, Int.fract_natCast, if_pos (by norm_num)]
    norm_num
  · simp only [toySite]
    have e : (1 / 100 : ℚ) / cloudStep = 18 / 25 := by unfold cloudStep; norm_num
    have e2 : Int.fract (18 / 25 : ℚ) = 18 / 25 := Int.fract_eq_self.2 ⟨by norm_num, by norm_num⟩
    rw [e, e2, if_neg (by norm_num)]
    norm_num
  · rintro ⟨d, hd, h3, h4⟩
    simp only [toySite, List.mem_cons, List.not_mem_nil, or_false] at hd
    subst hd
    norm_num at h3

end Verif
