import Verif.Spec.Observatory
import Verif.Lemmas.Downtime
import Mathlib.Tactic.Linarith
import Mathlib.Tactic.Ring
import Mathlib.Tactic.NormNum
import Mathlib.Data.List.TakeWhile

namespace Verif.Obs

open Verif.Down (Iv Closed Ordered)

/-! ### Table lookup -/

/-- For a table whose starts are in order, the rows up to the found one start at or before
`t`, and all later ones after `t`. -/
theorem split_started (l : List (ℚ × ℚ)) (t : ℚ) (h : l.Pairwise (fun a b => a.1 ≤ b.1)) :
    (∀ d ∈ l.takeWhile (fun r => r.1 ≤ t), d.1 ≤ t) ∧ (∀ d ∈ l.dropWhile (fun r => r.1 ≤ t), t < d.1) := by
  refine ⟨fun d hd => by simpa using List.mem_takeWhile_imp hd, ?_⟩
  induction l with
  | nil => simp
  | cons a l ih =>
    rw [List.dropWhile_cons]
    split
    · exact ih (List.pairwise_cons.1 h).2
    · rename_i ha
      have ha : t < a.1 := by simpa using ha
      intro d hd
      rcases List.mem_cons.1 hd with rfl | hd
      · exact ha
      · exact lt_of_lt_of_le ha ((List.pairwise_cons.1 h).1 d hd)

theorem row_append {l1 l2 : List (ℚ × ℚ)} {x : ℚ × ℚ} :
    row (l1 ++ x :: l2) (l1.length : ℤ) = .ok x := by
  simp [row]

theorem row_ok {l : List (ℚ × ℚ)} {i : ℤ} {x : ℚ × ℚ} (h : row l i = .ok x) : x ∈ l := by
  unfold row at h
  dsimp only at h
  split at h
  · rename_i y hy
    cases h
    split at hy
    · exact List.mem_of_getElem? hy
    · split at hy
      · exact List.mem_of_getElem? hy
      · cases hy
  · cases h

theorem takeWhile_cases (l : List (ℚ × ℚ)) (t : ℚ) :
    (l.takeWhile (fun r => r.1 ≤ t) = []) ∨
      ∃ p x, l.takeWhile (fun r => r.1 ≤ t) = p ++ [x] := by
  rcases List.eq_nil_or_concat (l.takeWhile (fun r => r.1 ≤ t)) with h | ⟨p, x, h⟩
  · exact .inl h
  · exact .inr ⟨p, x, by simpa using h⟩

/-- What the lookup of the last started row gives. -/
theorem lookup (l : List (ℚ × ℚ)) (t : ℚ) (h : l.Pairwise (fun a b => a.1 ≤ b.1)) :
    (lastStarted l t = -1 ∧ ∀ d ∈ l, t < d.1) ∨
    ∃ p x q, l = p ++ x :: q ∧ lastStarted l t = p.length ∧ row l (lastStarted l t) = .ok x ∧
      (∀ d ∈ p, d.1 ≤ t) ∧ x.1 ≤ t ∧ ∀ d ∈ q, t < d.1 := by
  have hs := split_started l t h
  have happ := List.takeWhile_append_dropWhile (p := fun r : ℚ × ℚ => decide (r.1 ≤ t)) (l := l)
  rcases takeWhile_cases l t with h0 | ⟨p, x, hx⟩
  · refine .inl ⟨by simp [lastStarted, h0], ?_⟩
    rw [h0, List.nil_append] at happ
    intro d hd
    rw [← happ] at hd
    exact hs.2 d hd
  · refine .inr ⟨p, x, l.dropWhile (fun r => r.1 ≤ t), ?_, ?_, ?_, ?_, ?_, hs.2⟩
    · rw [hx] at happ; simpa using happ.symm
    · simp [lastStarted, hx]
    · have h1 : lastStarted l t = p.length := by simp [lastStarted, hx]
      rw [h1]
      have h2 : l = p ++ x :: l.dropWhile (fun r => r.1 ≤ t) := by rw [hx] at happ; simpa using happ.symm
      rw [h2]; exact row_append
    · intro d hd; exact hs.1 d (by rw [hx]; simp [hd])
    · exact hs.1 x (by rw [hx]; simp)

theorem ordered_starts {l : List Iv} (h : Ordered l) : l.Pairwise (fun a b => a.1 ≤ b.1) :=
  h.imp (fun hab => hab.1)

theorem nights_starts {l : List (ℚ × ℚ)} (h : Nights l) : l.Pairwise (fun a b => a.1 < b.1) := by
  refine List.pairwise_iff_forall_sublist.2 (fun {a b} hab => ?_)
  have h1 := List.pairwise_iff_forall_sublist.1 h.2 hab
  have h2 := h.1 a (hab.subset (by simp))
  linarith

/-- `check_up` is right about downtimes. -/
theorem checkUp_spec {S : Site} (h : Ordered S.downs) (t : ℚ) :
    ∃ u x, checkUp S t = .ok (u, x) ∧ (u = true ↔ ¬ Closed S.downs t) ∧ (u = true → x = t) ∧
      (u = false → t < x ∧ ∃ d ∈ S.downs, d.1 ≤ t ∧ x = d.2) := by
  rcases lookup S.downs t (ordered_starts h) with ⟨h1, h2⟩ | ⟨p, x, q, h1, h2, h3, h4, h5, h6⟩
  · refine ⟨true, t, by simp [checkUp, h1], ⟨fun _ => ?_, fun _ => rfl⟩, fun _ => rfl, by simp⟩
    rintro ⟨d, hd, hd1, -⟩
    exact absurd (h2 d hd) (by linarith)
  · unfold checkUp
    dsimp only
    rw [if_pos (by rw [h2]; omega), h3]
    dsimp only
    by_cases hx : t < x.2
    · refine ⟨false, x.2, by simp [hx], ?_, by simp, fun _ => ⟨hx, x, by rw [h1]; simp, h5, rfl⟩⟩
      simp only [Bool.false_eq_true, false_iff, not_not]
      exact ⟨x, by rw [h1]; simp, h5, hx⟩
    · refine ⟨true, t, by simp [hx], ⟨fun _ => ?_, fun _ => rfl⟩, fun _ => rfl, by simp⟩
      rintro ⟨d, hd, hd1, hd2⟩
      rw [h1] at hd
      rcases List.mem_append.1 hd with hm | hm
      · unfold Ordered at h
        rw [h1] at h
        have := ((List.pairwise_append.1 h).2.2 d hm x (by simp)).2
        linarith
      · rcases List.mem_cons.1 hm with rfl | hm
        · exact hx hd2
        · exact absurd (h6 d hm) (by linarith)

theorem skipClouds_spec {S : Site} {n : ℕ} {t t' : ℚ} (h : skipClouds S n t = .ok t') :
    t ≤ t' ∧ (S.cloudLimit < S.cloud t → t < t') ∧ (¬ S.cloudLimit < S.cloud t → t' = t) := by
  have hstep : (0 : ℚ) < cloudStep := by unfold cloudStep; norm_num
  induction n generalizing t with
  | zero =>
    rw [skipClouds] at h
    split at h
    · cases h
    · cases h; rename_i hc; exact ⟨le_rfl, fun h => absurd h hc, fun _ => rfl⟩
  | succ n ih =>
    rw [skipClouds] at h
    split at h
    · rename_i hc
      have := (ih h).1
      exact ⟨by linarith, fun _ => by linarith, fun h => absurd hc h⟩
    · cases h; rename_i hc; exact ⟨le_rfl, fun h => absurd h hc, fun _ => rfl⟩

theorem row_succ {p q : List (ℚ × ℚ)} {x : ℚ × ℚ} {i : ℤ} (hi : i = p.length) {m : ℚ × ℚ}
    (h : row (p ++ x :: q) (i + 1) = .ok m) : q.head? = some m := by
  subst hi
  unfold row at h
  dsimp only at h
  rw [if_pos (by omega)] at h
  have : ((p.length : ℤ) + 1).toNat = p.length + 1 := by omega
  rw [this, List.getElem?_append_right (by omega)] at h
  have : p.length + 1 - p.length = 1 := by omega
  rw [this] at h
  cases q with
  | nil => simp at h
  | cons y q => simpa using h

theorem nightPart_spec {S : Site} (h : Nights S.nights) {p p' : Bool} {t t1 t' : ℚ}
    (hr : nightPart S p t t1 = .ok (p', t')) :
    (InNight S.nights t ∧ p' = p ∧ t' = t1) ∨ (¬ InNight S.nights t ∧ p' = false ∧ t < t' ∧
      ∃ n ∈ S.nights, n.1 = t') := by
  have hst := nights_starts h
  rcases lookup S.nights t (hst.imp le_of_lt) with ⟨h1, h2⟩ | ⟨pre, x, q, h1, h2, h3, h4, h5, h6⟩
  · right
    have hnot : ¬ InNight S.nights t := by
      rintro ⟨n, hn, hn1, -⟩; exact absurd (h2 n hn) (by linarith)
    unfold nightPart at hr
    dsimp only at hr
    rw [h1] at hr
    cases hn : row S.nights (-1) with
    | error e => rw [hn] at hr; cases hr
    | ok n =>
      rw [hn] at hr
      have hlt : t < n.1 := h2 n (row_ok hn)
      have hle : n.1 ≤ n.2 := h.1 n (row_ok hn)
      simp only [bind, Except.bind, if_neg (show ¬ n.2 < t by linarith), if_pos hlt, pure, Except.pure] at hr
      cases hm : row S.nights (-1 + 1) with
      | error e => rw [hm] at hr; cases hr
      | ok m =>
        rw [hm] at hr
        simp only [Except.ok.injEq, Prod.mk.injEq] at hr
        exact ⟨hnot, hr.1.symm, by rw [← hr.2]; exact h2 m (row_ok hm), m, row_ok hm, hr.2⟩
  · unfold nightPart at hr
    dsimp only at hr
    rw [h3] at hr
    simp only [bind, Except.bind, if_neg (show ¬ t < x.1 by linarith), pure, Except.pure] at hr
    by_cases hx : x.2 < t
    · right
      rw [if_pos hx] at hr
      have hnot : ¬ InNight S.nights t := by
        rintro ⟨n, hn, hn1, hn2⟩
        rw [h1] at hn
        rcases List.mem_append.1 hn with hm | hm
        · have hp := h.2
          rw [h1] at hp
          have := (List.pairwise_append.1 hp).2.2 n hm x (by simp)
          linarith
        · rcases List.mem_cons.1 hm with rfl | hm
          · linarith
          · exact absurd (h6 n hm) (by linarith)
      cases hm : row S.nights (lastStarted S.nights t + 1) with
      | error e => rw [hm] at hr; cases hr
      | ok m =>
        rw [hm] at hr
        simp only [Except.ok.injEq, Prod.mk.injEq] at hr
        rw [h1] at hm
        rw [← h1, h2] at hm
        have hq := row_succ rfl (h1 ▸ hm)
        have hmq : m ∈ q := List.mem_of_mem_head? hq
        exact ⟨hnot, hr.1.symm, by rw [← hr.2]; exact h6 m hmq, m, by rw [h1]; simp [hmq], hr.2⟩
    · left
      rw [if_neg hx] at hr
      simp only [Except.ok.injEq, Prod.mk.injEq] at hr
      exact ⟨⟨x, by rw [h1]; simp, h5, by linarith⟩, hr.1.symm, hr.2.symm⟩

/-- One screening: it passes exactly the open times, and otherwise looks further on. -/
theorem screen_spec {S : Site} (hn : Nights S.nights) (hd : Ordered S.downs) {fuel : ℕ} {t new : ℚ} {p : Bool}
    (h : screen S fuel t = .ok (p, new)) : (p = true ↔ Open S t) ∧ (p = false → t < new) := by
  unfold screen at h
  cases hc : skipClouds S fuel t with
  | error e => rw [hc] at h; cases h
  | ok t1 =>
    rw [hc] at h
    have hcs := skipClouds_spec hc
    cases hnp : nightPart S (!decide (S.cloudLimit < S.cloud t)) t t1 with
    | error e => simp [bind, Except.bind, hnp] at h
    | ok r =>
      obtain ⟨p3, t3⟩ := r
      obtain ⟨u, x, hu, hu1, hu2, hu3⟩ := checkUp_spec hd t
      simp only [bind, Except.bind, hnp, hu] at h
      have hns := nightPart_spec hn hnp
      cases u with
      | false =>
        simp [pure, Except.pure] at h
        obtain ⟨rfl, rfl⟩ := h
        refine ⟨⟨by simp, fun ho => absurd (hu1.2 ho.up) (by simp)⟩, fun _ => (hu3 rfl).1⟩
      | true =>
        simp [pure, Except.pure] at h
        obtain ⟨rfl, rfl⟩ := h
        have hup := hu1.1 rfl
        rcases hns with ⟨h1, h2, h3⟩ | ⟨h1, h2, h3, -⟩
        · by_cases hcl : S.cloudLimit < S.cloud t
          · simp [hcl] at h2
            refine ⟨⟨by simp [h2], fun ho => absurd ho.clear (by linarith)⟩, fun _ => ?_⟩
            rw [h3]; exact hcs.2.1 hcl
          · simp [hcl] at h2
            exact ⟨⟨fun _ => ⟨not_lt.1 hcl, h1, hup⟩, fun _ => h2⟩, fun hf => by rw [hf] at h2; cases h2⟩
        · refine ⟨⟨by simp [h2], fun ho => absurd ho.night h1⟩, fun _ => h3⟩

/-- `check_mjd` and its search. -/
theorem check_spec {S : Site} (hn : Nights S.nights) (hd : Ordered S.downs) (fuel : ℕ) :
    (∀ t b t', checkMjd S fuel t = .ok (b, t') →
      (b = true → t' = t ∧ Open S t) ∧ (b = false → ¬ Open S t ∧ t < t' ∧ Open S t')) ∧
    (∀ t t', search S fuel t = .ok t' → t ≤ t' ∧ Open S t') := by
  induction fuel with
  | zero =>
    refine ⟨fun t b t' h => ?_, fun t t' h => ?_⟩
    · rw [checkMjd] at h; cases h
    · rw [search] at h; cases h
  | succ n ih =>
    refine ⟨fun t b t' h => ?_, fun t t' h => ?_⟩
    · rw [checkMjd] at h
      cases hs : screen S n t with
      | error e => rw [hs] at h; cases h
      | ok r =>
        obtain ⟨p, new⟩ := r
        rw [hs] at h
        have hsp := screen_spec hn hd hs
        cases p with
        | true =>
          simp only [Except.ok.injEq, Prod.mk.injEq] at h
          obtain ⟨rfl, rfl⟩ := h
          exact ⟨fun _ => ⟨rfl, hsp.1.1 rfl⟩, by simp⟩
        | false =>
          cases hse : search S n new with
          | error e => simp [hse] at h
          | ok t2 =>
            simp only [hse, Except.ok.injEq, Prod.mk.injEq] at h
            obtain ⟨rfl, rfl⟩ := h
            have h2 := ih.2 new t2 hse
            refine ⟨by simp, fun _ => ⟨fun ho => ?_, lt_of_lt_of_le (hsp.2 rfl) h2.1, h2.2⟩⟩
            exact absurd (hsp.1.2 ho) (by simp)
    · rw [search] at h
      cases hc : checkMjd S n t with
      | error e => rw [hc] at h; cases h
      | ok r =>
        obtain ⟨p, t2⟩ := r
        rw [hc] at h
        have hcs := ih.1 t p t2 hc
        cases p with
        | true =>
          simp only [Except.ok.injEq] at h
          subst h
          obtain ⟨rfl, ho⟩ := hcs.1 rfl
          exact ⟨le_rfl, ho⟩
        | false =>
          dsimp only at h
          have h2 := ih.2 _ _ h
          exact ⟨le_trans (hcs.2 rfl).2.1.le h2.1, h2.2⟩

/-! ### Observing -/

variable {K O : Type}

/-- The three ways `observe` can go. -/
theorem observe_cases {S : Site} {M : Kin K O} {fuel : ℕ} {s s' : St K} {o : O} {v : Option (Visit O)} {nn : Bool}
    (h : observe S M fuel s o = .ok (s', v, nn)) :
    (v = none ∧ s'.mjd = s.mjd ∧ s'.nextId = s.nextId ∧ nn = false) ∨
    ∃ k o' slew, M.prepare s.kin s.mjd o = some o' ∧ (k = s.kin ∨ k = M.park s.kin) ∧
      (M.observe k o' s.mjd).2.1 = some slew ∧
      ((∃ x, checkMjd S fuel (s.mjd + (slew + (M.observe k o' s.mjd).2.2) / 24 / 3600) = .ok (true, x) ∧
        v = some ⟨o', s.mjd + slew / 24 / 3600, ⌊s.mjd + slew / 24 / 3600 - S.mjdStart⌋, s.nextId, slew,
          (M.observe k o' s.mjd).2.2⟩ ∧
        s'.mjd = s.mjd + (slew + (M.observe k o' s.mjd).2.2) / 24 / 3600 ∧ s'.nextId = s.nextId + 1 ∧ nn = false) ∨
       (checkMjd S fuel (s.mjd + (slew + (M.observe k o' s.mjd).2.2) / 24 / 3600) = .ok (false, s'.mjd) ∧
        v = none ∧ s'.nextId = s.nextId ∧ nn = decide (s'.night S ≠ s.night S))) := by
  unfold observe at h
  cases hp : M.prepare s.kin s.mjd o with
  | none => rw [hp] at h; cases h
  | some o' =>
    rw [hp] at h
    dsimp only at h
    set k := if S.parkAfter < s.mjd - M.lastMjd s.kin then M.park s.kin else s.kin with hk
    have hk' : k = s.kin ∨ k = M.park s.kin := by
      rw [hk]; split
      · exact .inr rfl
      · exact .inl rfl
    cases hr : (M.observe k o' s.mjd).2.1 with
    | none =>
      rw [hr] at h
      simp only [Except.ok.injEq, Prod.mk.injEq] at h
      obtain ⟨rfl, rfl, rfl⟩ := h
      exact .inl ⟨rfl, rfl, rfl, rfl⟩
    | some slew =>
      rw [hr] at h
      dsimp only at h
      right
      refine ⟨k, o', slew, rfl, hk', hr, ?_⟩
      cases hc : checkMjd S fuel (s.mjd + (slew + (M.observe k o' s.mjd).2.2) / 24 / 3600) with
      | error e => rw [hc] at h; cases h
      | ok r =>
        obtain ⟨b, x⟩ := r
        rw [hc] at h
        cases b with
        | true =>
          left
          simp only [Except.ok.injEq, Prod.mk.injEq] at h
          obtain ⟨rfl, rfl, rfl⟩ := h
          refine ⟨x, rfl, rfl, ?_, rfl, rfl⟩
          dsimp only
          ring
        | false =>
          right
          simp only [Except.ok.injEq, Prod.mk.injEq] at h
          obtain ⟨rfl, rfl, rfl⟩ := h
          exact ⟨rfl, rfl, rfl, rfl⟩

/-- Observing never moves the clock back. -/
theorem observe_forward {S : Site} (hn : Nights S.nights) (hd : Ordered S.downs) {M : Kin K O} (hM : NonNeg M)
    {fuel : ℕ} {s s' : St K} {o : O} {v : Option (Visit O)} {nn : Bool}
    (h : observe S M fuel s o = .ok (s', v, nn)) : s.mjd ≤ s'.mjd := by
  rcases observe_cases h with ⟨-, h2, -⟩ | ⟨k, o', slew, -, -, h3, h4⟩
  · exact h2.ge
  · have h5 := hM k o' s.mjd
    have h6 := h5.1 slew (by rw [h3]; rfl)
    have h7 := h5.2
    have h8 : 0 ≤ (slew + (M.observe k o' s.mjd).2.2) / 24 / 3600 := by
      apply div_nonneg (div_nonneg (by linarith) (by norm_num)) (by norm_num)
    rcases h4 with ⟨x, -, -, h9, -⟩ | ⟨h9, -⟩
    · linarith
    · have := ((check_spec hn hd fuel).1 _ _ _ h9).2 rfl
      linarith [this.2.1]

end Verif.Obs
