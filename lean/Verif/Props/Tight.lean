import Verif.Props.Kinem
import Verif.Props.Angles
import Verif.Props.Queue
import Verif.Props.Reward
import Verif.Props.Pointings
import Verif.Props.PreschedObs
import Verif.Props.Scripted
import Mathlib.Data.EReal.Operations

/-!
Further parts of C10, C15, C36, C47, C66, C94, C101, C131 and C133.
-/

namespace Verif

/-! ### C15 -/

/-- C15: on arrays as on single values `!=` holds exactly where `==` does not. -/
theorem C15_ne (t : Tol) (ps : List (ℚ × ℚ)) : neA t ps = (eqA t ps).map (fun b => !b) := by
  unfold neA eqA
  rw [List.map_map]
  apply List.map_congr_left
  intro p _
  simp

example : neA Tol.default [(1, 1), (1, 2)] = [false, true] := by decide +kernel

/-! ### C10 -/

/-- C10: the queue is said to be good at the time of the conditions exactly when a request gives a visit. -/
theorem C10_check {C A : Type} (E : QEnv C A) (q : QM A) (h : q.Aligned) (c : C) (hd : ∀ l, (E.detail q.aux c l).1.length = l.length) :
    q.checkQueueMjdOnly E (E.mjdOf c) c = true ↔ (q.request E c false).1 ≠ [] := by
  have hlt : ∀ i ∈ q.findValid E c (E.mjdOf c), i < q.desired.length := by
    intro i hi
    rw [QM.findValid_eq E q c _ h] at hi
    exact List.mem_range.1 (List.mem_filter.1 hi).1
  unfold QM.checkQueueMjdOnly QM.request
  rw [decide_eq_true_eq]
  simp only [Bool.false_eq_true, if_false]
  generalize q.findValid E c (E.mjdOf c) = l at hlt
  cases l with
  | nil => simp
  | cons i l =>
    have hi := hlt i List.mem_cons_self
    have e : (if (i :: l).length > 1 then List.take 1 (i :: l) else i :: l) = [i] := by
      cases l with
      | nil => rfl
      | cons j l => simp
    rw [e]
    have e2 : [i].filterMap (fun i => q.desired[i]?) = [q.desired[i]] := by
      simp [List.getElem?_eq_getElem hi]
    rw [e2]
    rw [if_pos (by simp)]
    have := hd [q.desired[i]]
    constructor
    · intro _ e3
      have e3 : (E.detail q.aux c [q.desired[i]]).1 = [] := e3
      rw [e3] at this
      cases this
    · intro _; simp

example : toyQueue.Aligned ∧ toyQueue.checkQueueMjdOnly toyQ (toyQ.mjdOf 60000) 60000 = true ∧ toyQueue.flush.checkQueueMjdOnly toyQ (toyQ.mjdOf 60000) 60000 = false := by
  unfold QM.Aligned; decide +kernel

/-! ### C36 -/

section
open Script

/-- The hour angle of an entry in hours from -12 to 12. -/
def IsHa (c : Cond) (e : Entry) (x : ℚ) : Prop := -12 < x ∧ x ≤ 12 ∧ ∃ k : ℤ, x = c.lmst - e.ra * 24 / c.turn + 24 * k

theorem isHa_signed (c : Cond) (e : Entry) (x : ℚ) (h : IsHa c e x) : signedHa c e = x := by
  obtain ⟨h1, h2, k, hk⟩ := h
  unfold signedHa Ang.md
  dsimp only
  generalize c.lmst - e.ra * 24 / c.turn = y at hk
  have f1 := Int.floor_le (y / 24)
  have f2 := Int.lt_floor_add_one (y / 24)
  generalize ⌊y / 24⌋ = n at f1 f2
  have g1 : 24 * (n : ℚ) ≤ y := by linarith
  have g2 : y < 24 * n + 24 := by linarith
  have hx : y = x - 24 * k := by linarith
  subst hx
  by_cases hc : 12 < x - 24 * k - 24 * n
  · rw [if_pos hc]
    have a2 : ((k + n : ℤ) : ℚ) < 0 := by push_cast; linarith
    have a3 : (-2 : ℚ) < ((k + n : ℤ) : ℚ) := by push_cast; linarith
    have a2 : k + n < 0 := by exact_mod_cast a2
    have a3 : -2 < k + n := by exact_mod_cast a3
    have a4 : k + n = -1 := by omega
    have a5 : (k : ℚ) + n = -1 := by exact_mod_cast a4
    linarith
  · rw [if_neg hc]
    rw [not_lt] at hc
    have a2 : (-1 : ℚ) < ((k + n : ℤ) : ℚ) := by push_cast; linarith
    have a3 : ((k + n : ℤ) : ℚ) < 1 := by push_cast; linarith
    have a2 : -1 < k + n := by exact_mod_cast a2
    have a3 : k + n < 1 := by exact_mod_cast a3
    have a4 : k + n = 0 := by omega
    have a5 : (k : ℚ) + n = 0 := by exact_mod_cast a4
    linarith

/-- C36: with sorting, what is left out comes in a later band than each visit offered, or in the same band and not further west. -/
theorem C36_westward (cfg : Cfg) (s : St) (c : Cond) (hnew : s.lastRough ≠ c.mjd) (hu : ∀ e ∈ s.script, Usual c e)
    (hs : cfg.sort = .ha) (hb : cfg.beforeTwi = false) (e : Entry) (he : e ∈ s.script) (hel : Eligible cfg c e)
    (hout : e ∉ (genRough cfg s c).2) (a : Entry) (ha : a ∈ (genRough cfg s c).2) (x y : ℚ) (hx : IsHa c a x) (hy : IsHa c e y) :
    a.band < e.band ∨ (a.band = e.band ∧ y ≤ x) := by
  rcases (C36_sorted cfg s c hnew hu hs hb e he hel hout).2 a ha with h | ⟨h1, h2⟩
  · exact Or.inl h
  · rw [isHa_signed c a x hx, isHa_signed c e y hy] at h2
    exact Or.inr ⟨h1, by linarith⟩

example : IsHa (skyAt (1 / 2)) { visit "a" "g" 0 with ra := 20 } 6 := ⟨by decide +kernel, by decide +kernel, 1, by decide +kernel⟩

end

/-! ### C66 and C47 -/

section
open Ang Kinem
variable {α : Type} [Field α] [LinearOrder α] [IsStrictOrderedRing α] [FloorRing α]

/-- C66: the slew time is at least the time of the dome in altitude and in azimuth, with its settle time if it turns. -/
theorem C66_dome (C : Cfg α) (hC : Sane C) (s s' : Tel α) (r : Req α) (mjd t : α) (sw : Bool) (h : slew C s r mjd false sw = some (t, s')) :
    C.domAltTime |(C.altaz r.ra r.dec mjd).1 - (position C s mjd).1| ≤ t ∧
    (0 < C.domAzTime |smallestSigned C.T (position C s mjd).2.1 (C.altaz r.ra r.dec mjd).2.1| →
      C.domAzTime |smallestSigned C.T (position C s mjd).2.1 (C.altaz r.ra r.dec mjd).2.1| + C.domSettle ≤ t) := by
  obtain ⟨d, -, m, -, -, -, -, -, hm, -, ht, -⟩ := C66_slew_covers_all C hC s s' r mjd t false sw h
  unfold domeTime at hm
  simp only [Bool.false_eq_true, if_false] at hm
  have h1 := (le_max_left _ _).trans (hm.trans ht)
  have h2 := (le_max_right _ _).trans (hm.trans ht)
  refine ⟨h1, fun hz => ?_⟩
  rwa [if_pos hz] at h2

example : ∃ t s', slew { toyCfg with fov := 0 } (new toyCfg "r" 0) (toyReq 10) 0 false false = some (t, s') := by
  cases h : slew { toyCfg with fov := 0 } (new toyCfg "r" 0) (toyReq 10) 0 false false with
  | none =>
    have : (slew { toyCfg with fov := 0 } (new toyCfg "r" 0) (toyReq 10) 0 false false).isSome = true := by decide +kernel
    rw [h] at this
    cases this
  | some p => exact ⟨p.1, p.2, rfl⟩

/-- C66: the time left over from a visit is the readout time, or what is missing to the shutter's pause between exposures if that is longer. -/
theorem C66_left_over (C : Cfg α) (hr : 0 ≤ C.readtime) (s s' : Tel α) (r : Req α) (mjd t v : α) (lax sw : Bool) (h : observe C s r mjd lax sw = (s', some t, v)) :
    C.readtime ≤ s'.overhead ∧ C.shutter2 - r.exptime / r.nexp ≤ s'.overhead ∧ (s'.overhead = C.readtime ∨ s'.overhead = C.shutter2 - r.exptime / r.nexp) := by
  unfold observe at h
  rcases hs : slew C s r mjd lax sw with _ | ⟨t1, s1⟩ <;> rw [hs] at h
  · simp at h
  · simp only [Prod.mk.injEq] at h
    obtain ⟨rfl, -⟩ := h
    dsimp only
    unfold shutterStall
    dsimp only
    by_cases hd : r.exptime / r.nexp < C.shutter2
    · rw [if_pos hd]
      exact ⟨le_max_left _ _, le_max_right _ _, max_choice _ _⟩
    · rw [if_neg hd, max_eq_left hr]
      exact ⟨le_rfl, (sub_nonpos.2 (not_lt.1 hd)).trans hr, Or.inl rfl⟩

/-- A shutter that wants 20 s between exposures of 15 s. -/
example : (observe { toyCfg with shutter2 := 20 } (new toyCfg "r" 0) (toyReq 10) 0 true false).1.overhead = 5 := by decide +kernel

/-- C47: after a slew the telescope is where it was sent, at the angle of the rotator asked for, or at the angle on the sky if none was. -/
theorem C47_slew (C : Cfg ℝ) (hT : C.T = 2 * Real.pi) (s s' : Tel ℝ) (r : Req ℝ) (mjd t : ℝ) (lax sw : Bool) (h : slew C s r mjd lax sw = some (t, s')) :
    (position C s' mjd).1 = (C.altaz r.ra r.dec mjd).1 ∧ (position C s' mjd).2.1 = (C.altaz r.ra r.dec mjd).2.1 ∧
    (∀ x, r.rotTel = some x → SameAngle C.T (position C s' mjd).2.2 x) ∧
    (r.rotTel = none → SameAngle C.T (tel2sky C.T C.cam (position C s' mjd).2.2 (C.altaz r.ra r.dec mjd).2.2) r.rotSky) := by
  obtain ⟨-, d, rs, rt, hrt, -, -, -, -, he⟩ := slew_some h
  have hp : position C s' mjd = ((C.altaz r.ra r.dec mjd).1, (C.altaz r.ra r.dec mjd).2.1, sky2tel C.T C.cam rs (C.altaz r.ra r.dec mjd).2.2) := by rw [he]; rfl
  rw [hp]
  refine ⟨rfl, rfl, fun x hx => ?_, fun hx => ?_⟩
  · unfold rotTarget at hrt
    rw [hx] at hrt
    simp only [Prod.mk.injEq] at hrt
    obtain ⟨rfl, rfl⟩ := hrt
    rw [hT]
    exact (C47_inverse C.cam _ _).1
  · unfold rotTarget at hrt
    rw [hx] at hrt
    simp only [Prod.mk.injEq] at hrt
    obtain ⟨rfl, -⟩ := hrt
    rw [hT]
    exact (C47_inverse C.cam _ _).2.1

end

/-! ### C94 -/

section
open Rew

/-- C94: a survey over the whole map has a map of rewards only if the pixels not masked cover the area. -/
theorem C94_whole_partial (a : Area) (k : Option (List XReal → List XReal)) (bs : List (Basis × ℚ)) (l : List XReal) (req : ℚ)
    (hreq : a.required = some req) (hu : 0 < a.unit) (h : reward (.markov a k) bs = some (.map l)) :
    req ≤ ((l.filter (fun x => x ≠ .nan)).length : ℚ) * a.pixDeg := by
  simp only [reward, rewardWith] at h
  rcases hmf : markovFeasible a bs with _ | _ | _ <;> rw [hmf] at h
  · cases h
  · cases h
  dsimp only at h
  rcases hb : basic bs with _ | v <;> rw [hb] at h
  · cases h
  dsimp only at h
  generalize smoothed k v = w at h
  unfold markovTail at h
  rw [hreq] at h
  rcases w with x | m
  · cases h
  dsimp only at h
  split_ifs at h with hlt
  · cases h
  cases h
  rw [← mul_assoc, mul_lt_mul_iff_left₀ hu, not_lt] at hlt
  have e : (l.filter (fun x => x ≠ .nan)).length = l.countP (fun x => !x.isNan) := by
    rw [List.countP_eq_length_filter]
    congr 1
    apply List.filter_congr
    intro x _
    cases x <;> simp [XReal.isNan]
  rw [e]
  exact hlt

/-- The number that is meant. -/
noncomputable def meant : XReal → Option EReal
  | .nan => none
  | .fin a => some ((a : ℝ) : EReal)
  | .pinf => some ⊤
  | .ninf => some ⊥

theorem meant_smul (a : ℚ) (y : XReal) : meant (XReal.smul a y) = match meant y with
    | none => none
    | some y => if (a = 0 ∧ (y = ⊤ ∨ y = ⊥)) then none else some (((a : ℝ) : EReal) * y) := by
  cases y with
  | nan => rfl
  | fin b =>
    simp only [XReal.smul, meant, EReal.coe_ne_top, EReal.coe_ne_bot, or_self, and_false, if_false]
    push_cast
    rfl
  | pinf =>
    rcases lt_trichotomy a 0 with h | h | h
    · have h' : ((a : ℝ)) < 0 := by exact_mod_cast h
      simp [XReal.smul, meant, h.ne, not_lt.2 h.le, EReal.coe_mul_top_of_neg h']
    · simp [XReal.smul, meant, h]
    · have h' : (0 : ℝ) < (a : ℝ) := by exact_mod_cast h
      simp [XReal.smul, meant, h.ne', h, EReal.coe_mul_top_of_pos h']
  | ninf =>
    rcases lt_trichotomy a 0 with h | h | h
    · have h' : ((a : ℝ)) < 0 := by exact_mod_cast h
      simp [XReal.smul, meant, h.ne, not_lt.2 h.le, EReal.coe_mul_bot_of_neg h']
    · simp [XReal.smul, meant, h]
    · have h' : (0 : ℝ) < (a : ℝ) := by exact_mod_cast h
      simp [XReal.smul, meant, h.ne', h, EReal.coe_mul_bot_of_pos h']

/-- C94: rewards are multiplied with the additional masks as extended numbers; only zero times infinity has no value. -/
theorem C94_times (x y : XReal) (a b : EReal) (hx : meant x = some a) (hy : meant y = some b) (h : ¬ (a = 0 ∧ (b = ⊤ ∨ b = ⊥))) (h' : ¬ (b = 0 ∧ (a = ⊤ ∨ a = ⊥))) :
    meant (mulX x y) = some (a * b) := by
  cases x with
  | nan => cases hx
  | fin q =>
    cases hx
    unfold mulX
    rw [meant_smul, hy]
    dsimp only
    rw [if_neg]
    rintro ⟨e, e'⟩
    exact h ⟨by rw [e]; simp, e'⟩
  | pinf =>
    cases hx
    cases y with
    | nan => cases hy
    | fin q =>
      cases hy
      show meant (XReal.smul q .pinf) = _
      rw [meant_smul]
      simp only [meant]
      rw [if_neg, mul_comm]
      rintro ⟨e, -⟩
      exact h' ⟨by rw [e]; simp, Or.inl rfl⟩
    | pinf => cases hy; simp [mulX, meant]
    | ninf => cases hy; simp [mulX, meant]
  | ninf =>
    cases hx
    cases y with
    | nan => cases hy
    | fin q =>
      cases hy
      show meant (XReal.smul q .ninf) = _
      rw [meant_smul]
      simp only [meant]
      rw [if_neg, mul_comm]
      rintro ⟨e, -⟩
      exact h' ⟨by rw [e]; simp, Or.inr rfl⟩
    | pinf => cases hy; simp [mulX, meant]
    | ninf => cases hy; simp [mulX, meant]

/-- C94, additional masks of `BlobPairsSurvey`: a mask for another number of pixels than the rewards have raises. -/
theorem C94_masks_sizes (a : Area) (xs : List (ℚ × Basis)) (bs : List (Basis × ℚ)) (l m : List XReal) (hv : basic bs = some (.map l)) (hloop : checkLoop bs ≠ some false)
    (hno : pairsArea a bs (checkLoop bs) = some false) (x : ℚ × Basis) (hx : x ∈ xs) (hm : call x.2 = .map m) (hlen : l.length ≠ m.length) :
    pairsFeasible a (some xs) bs = none := by
  have key : ∀ xs : List (ℚ × Basis), x ∈ xs → extraPass a (.map l) xs = none := by
    intro xs
    induction xs with
    | nil => intro h; exact absurd h List.not_mem_nil
    | cons y xs ih =>
      intro h
      unfold extraPass
      rcases List.mem_cons.1 h with rfl | h
      · rw [hm]
        have e : timesV (.map l) (.map m) = none := by
          unfold timesV
          dsimp only
          rw [if_neg hlen]
        rw [e]
      · rw [ih h]
        rcases timesV (.map l) (call y.2) with _ | w
        · rfl
        · dsimp only
          generalize areaOk a nearRounded y.1 w = q
          rcases q with _ | p <;> rfl
  unfold pairsFeasible
  rw [if_neg hloop, hno]
  dsimp only
  rw [hv]
  exact key xs hx

/-- C94, additional masks of `BlobPairsSurvey`: a survey that has not the area asked for is feasible exactly if the rewards have the area of one of the masks. -/
theorem C94_masks (a : Area) (xs : List (ℚ × Basis)) (bs : List (Basis × ℚ)) (v : Val) (hv : basic bs = some v) (hloop : checkLoop bs ≠ some false)
    (hno : pairsArea a bs (checkLoop bs) = some false) (hd : ∀ x ∈ xs, ∃ w b, timesV v (call x.2) = some w ∧ areaOk a nearRounded x.1 w = some b) :
    pairsFeasible a (some xs) bs = some true ↔ ∃ x ∈ xs, ∃ w, timesV v (call x.2) = some w ∧ areaOk a nearRounded x.1 w = some true := by
  have key : ∀ xs : List (ℚ × Basis), (∀ x ∈ xs, ∃ w b, timesV v (call x.2) = some w ∧ areaOk a nearRounded x.1 w = some b) →
      ∃ b, extraPass a v xs = some b ∧ (b = true ↔ ∃ x ∈ xs, ∃ w, timesV v (call x.2) = some w ∧ areaOk a nearRounded x.1 w = some true) := by
    intro xs
    induction xs with
    | nil => intro _; exact ⟨false, rfl, by simp⟩
    | cons x xs ih =>
      intro hd
      obtain ⟨b, h1, h2⟩ := ih (fun y hy => hd y (List.mem_cons_of_mem _ hy))
      obtain ⟨w, c, h3, h4⟩ := hd x List.mem_cons_self
      refine ⟨c || b, ?_, ?_⟩
      · unfold extraPass
        rw [h3]
        dsimp only
        rw [h4, h1]
      · rw [Bool.or_eq_true, h2]
        simp only [List.mem_cons, exists_eq_or_imp]
        refine or_congr_left ?_
        constructor
        · rintro rfl; exact ⟨w, h3, h4⟩
        · rintro ⟨w', e1, e2⟩
          rw [h3] at e1
          cases e1
          rw [h4] at e2
          exact Option.some.inj e2
  obtain ⟨b, h1, h2⟩ := key xs hd
  unfold pairsFeasible
  rw [if_neg hloop, hno]
  dsimp only
  rw [hv]
  dsimp only
  rw [h1, Option.some.injEq]
  exact h2

/-- A mask with three pixels for rewards with four. -/
example : pairsFeasible (sky4 30000 true) (some [(3000, ⟨true, .map [.fin 1, .fin 1, .fin 1]⟩)]) oneBasis = none := by
  decide +kernel

/-- Too little around the maximum, but enough for the second mask. -/
example : pairsFeasible (sky4 30000 true) (some [(30000, ⟨true, .scalar (.fin 1)⟩), (3000, ⟨true, .map [.fin 1, .fin 1, .nan, .fin 1]⟩)]) oneBasis = some true := by
  decide +kernel

end

/-! ### C101 -/

section
open Pnt

theorem boost_skip (g : Limits) (t : Target) (l : List (String × ℕ)) (acc : ℚ) (h : ∀ k ∈ l, Feat.isIn k.1 t.note = false) :
    l.foldl (fun acc k => if Feat.isIn k.1 t.note then (if look k.1 g.goals = 0 then 0 else ((k.2 % look k.1 g.goals : ℕ) : ℚ)) else acc) acc = acc := by
  induction l generalizing acc with
  | nil => rfl
  | cons k l ih =>
    rw [List.foldl_cons, h k List.mem_cons_self]
    exact ih _ (fun k hk => h k (List.mem_cons_of_mem _ hk))

/-- C101: the boost of a target is the number of visits in the running sequence of its key: nothing at the begin of a sequence and one more with each visit. -/
theorem C101_boost (g : Limits) (pre post : List (String × ℕ)) (key : String) (goal m k : ℕ) (t : Target) (hg : look key g.goals = goal) (hk : k < goal)
    (hin : Feat.isIn key t.note = true) (hpost : ∀ k ∈ post, Feat.isIn k.1 t.note = false) :
    boostOne g (pre ++ (key, goal * m + k) :: post) t = k := by
  unfold boostOne
  rw [List.foldl_append, List.foldl_cons]
  dsimp only
  rw [boost_skip g t post _ hpost, if_pos hin, hg, if_neg (by omega), Nat.mul_add_mod, Nat.mod_eq_of_lt hk]

example : boostOne lim0 [("seq", 5)] ⟨"seq a", 10, 0, 0⟩ = 1 ∧ boostOne lim0 [("seq", 6)] ⟨"seq a", 10, 0, 0⟩ = 0 := by decide +kernel

/-- Without a key in its note a target has no boost. -/
theorem C101_no_boost (g : Limits) (counts : List (String × ℕ)) (t : Target) (h : ∀ k ∈ counts, Feat.isIn k.1 t.note = false) : boostOne g counts t = 0 :=
  boost_skip g t counts 0 h

end

/-! ### C131 and C133 -/

section
open Pre

/-- C131: with boosts the number wanted is multiplied in the first two seasons and in the third by their factors; the season before the first has its share of
the number asked for; others are as without. -/
theorem C131_boost (seq : ℚ) (b : Boost) (ns : List Night) (s s' : ℤ) (l M : ℚ) (h : Span ns s l) (hM : Span ns s' M)
    (hmax : ∀ t k, Span ns t k → k ≤ M) (hpos : 0 < M) :
    ((s = 0 ∨ s = 1) → goal seq 0 (some b) ns s = some (roundHalfEven (seq * l / M * b.early) : ℚ)) ∧
    (s = 2 → goal seq 0 (some b) ns s = some (roundHalfEven (seq * l / M * b.third) : ℚ)) ∧
    ((s < -1 ∨ 2 < s) → goal seq 0 (some b) ns s = some (roundHalfEven (seq * l / M) : ℚ)) ∧
    (s = -1 → 0 < b.fractional → goal seq 0 (some b) ns s = some (roundHalfEven (seq * b.fractional) : ℚ)) := by
  have hraw : rawGoal seq 0 ns s = some (seq * l / M) := raw_goal seq ns s s' l M h hM hmax hpos
  refine ⟨fun hs => ?_, fun hs => ?_, fun hs => ?_, fun hs hf => ?_⟩
  · unfold goal boosted
    dsimp only
    rw [if_neg (by omega), if_pos hs, hraw]
    rfl
  · unfold goal boosted
    dsimp only
    rw [if_neg (by omega), if_neg (by omega), if_pos hs, hraw]
    rfl
  · unfold goal boosted
    dsimp only
    rw [if_neg (by omega), if_neg (by omega), if_neg (by omega), hraw]
    rfl
  · unfold goal boosted
    dsimp only
    rw [if_pos ⟨hs, hf⟩]
    rfl

example : goal 10 0 (some ⟨2, 3, 1 / 2⟩) [⟨1, 1 / 4⟩, ⟨1, 3 / 4⟩, ⟨1, 9 / 4⟩, ⟨1, 10 / 4⟩] 0 = some 20 ∧
    goal 10 0 (some ⟨2, 3, 1 / 2⟩) [⟨1, 1 / 4⟩, ⟨1, 3 / 4⟩, ⟨1, 9 / 4⟩, ⟨1, 10 / 4⟩] 2 = some 15 := by decide +kernel

/-- C133: rows marked "even" are planned in odd nights only, rows marked "odd" in even nights only. -/
theorem C133_parity (o : Opts) (locs : String → Option (ℚ × ℚ)) (grid : String → List Row) (w : Want) (ts : List ℚ)
    (h : rowTimes o locs grid w = some ts) (t : ℚ) (ht : t ∈ ts) :
    ∃ a ∈ grid w.name, a.mjd = t ∧ (w.evenOdd = "even" → a.night % 2 = 1) ∧ (w.evenOdd = "odd" → a.night % 2 = 0) := by
  unfold rowTimes at h
  split at h
  · simp at h
  · next p hp =>
    simp only [Option.map_eq_some_iff] at h
    obtain ⟨r, hr, rfl⟩ := h
    obtain ⟨n, hn, x, -, hb⟩ := time_of hr ht
    obtain ⟨i, a, y, h1, h2, -, -, rfl, -⟩ := best_spec hb
    have hw := ((growRows_spec _ n _ i).1 h2).2 i a le_rfl (Nat.le_add_right _ _) h1
    have hmem := List.mem_iff_getElem?.2 ⟨i, h1⟩
    unfold inSurvey at hmem
    simp only [List.mem_filter, Bool.and_eq_true, decide_eq_true_eq] at hmem
    refine ⟨a, hmem.1, rfl, fun e => hw.odd ?_, fun e => hw.even ?_⟩
    · show nightMaskOf w = some true
      unfold nightMaskOf
      rw [e]
      decide +kernel
    · show nightMaskOf w = some false
      unfold nightMaskOf
      rw [e]
      decide +kernel

example : rowTimes ddfOpts ddfLocs ddfGrid (wantOf "F" "even" 1 "g" 2) ≠ some [] ∧ rowTimes ddfOpts ddfLocs ddfGrid (wantOf "F" "even" 1 "g" 2) ≠ none := by
  decide +kernel

end
end Verif
