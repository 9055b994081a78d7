import Verif.Model.Pointings
import Verif.Props.Blob
import Verif.Lemmas.Clear

/-! C101: surveys of a fixed list of targets. -/

namespace Verif

open Pnt Rew

/-! ### Counting visits -/

/-- The target after a history of visits: how many carry its note, and when the last one
was. -/
def tally (vs : List Done) (t : Target) : Target :=
  { t with n := t.n + (vs.filter (fun v => decide (v.note = t.note))).length,
           last := (((vs.filter (fun v => decide (v.note = t.note))).map (·.mjd)).getLast?).getD t.last }

theorem addOne_targets (vs : List Done) : ∀ s : State,
    (vs.foldl (fun s v => addOne v s) s).targets = s.targets.map (tally vs) := by
  induction vs with
  | nil =>
    intro s
    have : tally ([] : List Done) = id := by funext t; simp [tally]
    rw [this, List.map_id]; rfl
  | cons v vs ih =>
    intro s
    rw [List.foldl_cons, ih]
    show (s.targets.map (bump v)).map (tally vs) = _
    rw [List.map_map]
    apply List.map_congr_left
    intro t _
    simp only [Function.comp]
    by_cases h : t.note = v.note
    · have hb : bump v t = { t with n := t.n + 1, last := v.mjd } := by simp [bump, h]
      rw [hb]
      unfold tally
      rw [List.filter_cons_of_pos (by simp [h])]
      dsimp only
      rw [List.map_cons]
      congr 1
      · simp; omega
      · generalize (List.filter (fun w => decide (w.note = t.note)) vs).map (fun x : Done => x.mjd) = L
        rcases L with _ | ⟨a, l⟩
        · rfl
        · rw [List.getLast?_cons_cons, List.getLast?_cons]; rfl
    · have hb : bump v t = t := by simp [bump, h]
      rw [hb]
      unfold tally
      rw [List.filter_cons_of_neg (by simpa using fun e => h e.symm)]

theorem latest_chrono (l : List ℚ) (x : ℚ) (h : (x :: l).Pairwise (· ≤ ·)) : latest (x :: l) = l.getLastD x := by
  induction l generalizing x with
  | nil => rfl
  | cons a l ih =>
    have h' := List.pairwise_cons.1 h
    have e : latest (x :: a :: l) = latest (max x a :: l) := rfl
    rw [e, max_eq_right (h'.1 a List.mem_cons_self), ih a h'.2, List.getLastD_eq_getLast?, List.getLastD_eq_getLast?, List.getLast?_cons]
    simp

theorem addNote_fold (vs : List Done) (us : List String) (hu : us.Nodup) : ∀ s : State,
    (us.foldl (addNote vs) s).targets = s.targets.map (fun t => if t.note ∈ us then bumpMany vs t.note t else t) := by
  induction us with
  | nil => intro s; simp
  | cons u us ih =>
    intro s
    rw [List.nodup_cons] at hu
    rw [List.foldl_cons, ih hu.2]
    show (s.targets.map (bumpMany vs u)).map _ = _
    rw [List.map_map]
    apply List.map_congr_left
    intro t _
    simp only [Function.comp]
    by_cases h : t.note = u
    · have hn : (bumpMany vs u t).note = u := by simp [bumpMany, h]
      rw [if_neg (by rw [hn]; exact hu.1), if_pos (by rw [h]; exact List.mem_cons_self), h]
    · have hb : bumpMany vs u t = t := by simp [bumpMany, h]
      rw [hb]
      by_cases hm : t.note ∈ us
      · rw [if_pos hm, if_pos (List.mem_cons_of_mem _ hm)]
      · rw [if_neg hm, if_neg (by simp [h, hm])]

/-- C101: after any history added visit by visit each target has been counted as often as
visits carry its note, and its last visit is the time of the last of them. -/
theorem C101_counts (s : State) (vs : List Done) :
    (vs.foldl (fun s v => addOne v s) s).targets = s.targets.map (tally vs) := addOne_targets vs s

/-- C101: the same for a history in order of time added as an array. -/
theorem C101_counts_array (s : State) (vs : List Done) (hc : vs.Pairwise (fun a b => a.mjd ≤ b.mjd)) :
    (addArray vs s).targets = s.targets.map (tally vs) := by
  unfold addArray
  rw [addNote_fold vs _ (List.nodup_dedup _)]
  apply List.map_congr_left
  intro t _
  by_cases h : t.note ∈ (vs.map (·.note)).dedup
  · rw [if_pos h]
    unfold bumpMany tally
    rw [if_pos rfl]
    congr 1
    rcases hf : (vs.filter (fun v => decide (v.note = t.note))).map (·.mjd) with _ | ⟨a, l⟩
    · exfalso
      rw [List.mem_dedup, List.mem_map] at h
      obtain ⟨v, hv, hn⟩ := h
      rw [List.map_eq_nil_iff, List.filter_eq_nil_iff] at hf
      exact hf v hv (by simp [hn])
    · have hp : ((vs.filter (fun v => decide (v.note = t.note))).map (·.mjd)).Pairwise (· ≤ ·) :=
        List.pairwise_map.2 (hc.filter _)
      rw [hf] at hp
      rw [hf, latest_chrono l a hp, List.getLast?_cons, List.getLastD_eq_getLast?]
      simp
  · rw [if_neg h]
    unfold tally
    have : vs.filter (fun v => decide (v.note = t.note)) = [] := by
      rw [List.filter_eq_nil_iff]
      intro v hv hn
      apply h
      rw [List.mem_dedup, List.mem_map]
      exact ⟨v, hv, by simpa using hn⟩
    rw [this]; simp

/-- The two ways to add a history agree on the counts of sequences. -/
def SameTracking (s : State) (vs : List Done) : Prop :=
  (vs.foldl (fun s v => addOne v s) s).counts = (addArray vs s).counts

/-- Two targets of one sequence. -/
def pair0 : State :=
  { targets := [⟨"seq a", 10, 0, 0⟩, ⟨"seq b", 20, 0, 0⟩], counts := [("seq", 0)], cache := (-1, []) }

/-- C101 fails for the counts of sequences: a visit added singly is only counted if its note is
the name of the sequence, in an array it is enough that it contains the name. -/
theorem C101_tracking_violated : ¬ SameTracking pair0 [⟨"seq a", 1⟩, ⟨"seq b", 2⟩] ∧
    (addArray [⟨"seq a", 1⟩, ⟨"seq b", 2⟩] pair0).counts = [("seq", 2)] := by
  unfold SameTracking
  constructor <;> decide +kernel

/-- The constructor accepts exactly lists of targets with different notes. -/
theorem C101_unique_notes (obs : List (String × ℚ)) (names : List String) :
    (∃ s, make obs names = some s) ↔ (obs.map Prod.fst).Nodup := by
  unfold make
  have key : (obs.map Prod.fst).dedup.length = obs.length ↔ (obs.map Prod.fst).Nodup := by
    rw [← List.dedup_eq_self]
    constructor
    · intro h
      apply (List.dedup_sublist _).eq_of_length
      rw [h, List.length_map]
    · intro h; rw [h, List.length_map]
  by_cases h : (obs.map Prod.fst).dedup.length = obs.length
  · rw [if_pos h]; exact ⟨fun _ => key.1 h, fun _ => ⟨_, rfl⟩⟩
  · rw [if_neg h]; exact ⟨fun ⟨_, e⟩ => absurd e (by simp), fun e => absurd (key.2 e) h⟩

/-! ### The reward -/

theorem smul_not_nan {w : ℚ} {x : XReal} (h : XReal.smul w x ≠ .nan) : x ≠ .nan := by
  rintro rfl; exact h rfl

theorem add_not_nan {x y : XReal} (h : XReal.add x y ≠ .nan) : x ≠ .nan ∧ y ≠ .nan := by
  constructor
  · rintro rfl; exact h rfl
  · rintro rfl; cases x <;> exact h rfl

theorem total_terms (g : Limits) (sky : Sky) (s : State) (weights : List (Pnt.Term × ℚ)) (i : ℕ) (x : XReal) :
    ∀ acc : List XReal, (weights.foldl (fun acc w => List.zipWith XReal.add acc ((term g sky s w.1).map (XReal.smul w.2))) acc)[i]? = some x →
    x ≠ .nan → (∃ y, acc[i]? = some y ∧ y ≠ .nan) ∧ ∀ w ∈ weights, ∃ y, (term g sky s w.1)[i]? = some y ∧ y ≠ .nan := by
  induction weights with
  | nil => intro acc h hx; exact ⟨⟨x, h, hx⟩, by simp⟩
  | cons w ws ih =>
    intro acc h hx
    rw [List.foldl_cons] at h
    obtain ⟨⟨y, hy, hyn⟩, h2⟩ := ih _ h hx
    rw [List.getElem?_zipWith] at hy
    rcases ha : acc[i]? with _ | a <;> rw [ha] at hy
    · cases hy
    · rw [List.getElem?_map] at hy
      rcases hb : (term g sky s w.1)[i]? with _ | b <;> rw [hb] at hy
      · cases hy
      · simp only [Option.map_some, Option.some.injEq] at hy
        rw [← hy] at hyn
        obtain ⟨h3, h4⟩ := add_not_nan hyn
        refine ⟨⟨a, rfl, h3⟩, ?_⟩
        intro v hv
        rcases List.mem_cons.1 hv with rfl | hv
        · exact ⟨b, hb, smul_not_nan h4⟩
        · exact h2 v hv

theorem mask_get {bad : List Bool} {i : ℕ} {y : XReal} (h : (mask bad)[i]? = some y) (hy : y ≠ .nan) : bad[i]? = some false := by
  unfold mask at h
  rw [List.getElem?_map] at h
  rcases hb : bad[i]? with _ | _ | _ <;> rw [hb] at h
  · cases h
  · simp at h; exact absurd h.symm hy

/-- All values compared with limits are clear of them. -/
structure ClearTargets (g : Limits) (sky : Sky) (s : State) : Prop where
  gap : ClearOf g.gap (s.targets.map (fun t => sky.mjd - t.last))
  altMax : ClearOf g.altMax sky.alt
  altMin : ClearOf g.altMin sky.alt
  moon : ClearOf g.moon sky.moonDist
  wind : ∀ p, sky.pressure = some p → ClearOf g.wind p
  haMax : ClearOf (turn g.haMax) (s.targets.map (hourAngle sky))
  haMin : ClearOf (turn g.haMin) (s.targets.map (hourAngle sky))

theorem below_get {g : ℚ} {xs : List ℚ} (hc : ClearOf g xs) {i : ℕ} (h : (below g xs)[i]? = some false) :
    ∃ x, xs[i]? = some x ∧ g ≤ x := by
  unfold below at h
  rw [(cmp_clear xs g hc).1, List.getElem?_map] at h
  rcases hx : xs[i]? with _ | x <;> rw [hx] at h
  · cases h
  · exact ⟨x, rfl, by simpa using h⟩

theorem above_get {g : ℚ} {xs : List ℚ} (hc : ClearOf g xs) {i : ℕ} (h : (above g xs)[i]? = some false) :
    ∃ x, xs[i]? = some x ∧ x ≤ g := by
  unfold above at h
  rw [(cmp_clear xs g hc).2.2.1, List.getElem?_map] at h
  rcases hx : xs[i]? with _ | x <;> rw [hx] at h
  · cases h
  · exact ⟨x, rfl, by simpa using h⟩

/-- C101: the target chosen has the largest reward, and obeys every limit among the weights
(whatever the weight, also zero): time since the last visit, altitude, moon and wind. -/
theorem C101_limits_partial (g : Limits) (weights : List (Pnt.Term × ℚ)) (sky : Sky) (s : State) (i : ℕ)
    (h : winner g weights sky s = some i) (hfresh : s.cache.1 ≠ sky.mjd) (hc : ClearTargets g sky s) :
    IsPeak (total g sky s weights) i ∧
      (.visitGap ∈ weights.map Prod.fst → ∃ t, s.targets[i]? = some t ∧ g.gap ≤ sky.mjd - t.last) ∧
      (.alt ∈ weights.map Prod.fst → ∃ a, sky.alt[i]? = some a ∧ g.altMin ≤ a ∧ a ≤ g.altMax) ∧
      (.moon ∈ weights.map Prod.fst → ∃ d, sky.moonDist[i]? = some d ∧ g.moon ≤ d) ∧
      (.wind ∈ weights.map Prod.fst → ∀ p, sky.pressure = some p → ∃ x, p[i]? = some x ∧ x ≤ g.wind) := by
  unfold winner rewards at h
  rw [if_pos hfresh] at h
  have hp := peak_spec h
  obtain ⟨x, hx, hne, _⟩ := hp
  have hterm : ∀ k, k ∈ weights.map Prod.fst → ∃ y, (term g sky s k)[i]? = some y ∧ y ≠ .nan := by
    intro k hk
    obtain ⟨w, hw, rfl⟩ := List.mem_map.1 hk
    exact (total_terms g sky s weights i x _ hx hne).2 w hw
  refine ⟨peak_spec h, ?_, ?_, ?_, ?_⟩
  · intro hk
    obtain ⟨y, hy, hyn⟩ := hterm _ hk
    obtain ⟨d, hd, hg⟩ := below_get hc.gap (mask_get hy hyn)
    rw [List.getElem?_map] at hd
    rcases ht : s.targets[i]? with _ | t <;> rw [ht] at hd
    · cases hd
    · simp only [Option.map_some, Option.some.injEq] at hd
      exact ⟨t, rfl, by rw [hd]; exact hg⟩
  · intro hk
    obtain ⟨y, hy, hyn⟩ := hterm _ hk
    have hm := mask_get hy hyn
    rw [List.getElem?_zipWith] at hm
    rcases ha : (above g.altMax sky.alt)[i]? with _ | a <;> rcases hb : (below g.altMin sky.alt)[i]? with _ | b <;>
      rw [ha, hb] at hm
    · cases hm
    · cases hm
    · cases hm
    · simp only [Option.some.injEq, Bool.or_eq_false_iff] at hm
      obtain ⟨rfl, rfl⟩ := hm
      obtain ⟨u, hu, hu2⟩ := above_get hc.altMax ha
      obtain ⟨v, hv, hv2⟩ := below_get hc.altMin hb
      rw [hu] at hv; cases hv
      exact ⟨u, hu, hv2, hu2⟩
  · intro hk
    obtain ⟨y, hy, hyn⟩ := hterm _ hk
    exact below_get hc.moon (mask_get hy hyn)
  · intro hk p hpr
    obtain ⟨y, hy, hyn⟩ := hterm _ hk
    simp only [term, windLimit] at hy
    rw [hpr] at hy
    dsimp only at hy
    rw [List.getElem?_zipWith] at hy
    rcases ha : (above g.wind p)[i]? with _ | a <;> rw [ha] at hy
    · cases hy
    · rcases hb : p[i]? with _ | b <;> rw [hb] at hy
      · cases hy
      · simp only [Option.some.injEq] at hy
        rcases a with _ | _
        · obtain ⟨u, hu, hu2⟩ := above_get (hc.wind p hpr) ha
          rw [hb] at hu; cases hu
          exact ⟨b, rfl, hu2⟩
        · rw [if_pos rfl] at hy; exact absurd hy.symm hyn

/-- An hour angle, in degrees east or west of the meridian, is within the limits. -/
def HaOk (g : Limits) (ha : ℚ) : Prop := ∃ k : ℤ, g.haMin ≤ ha + 360 * k ∧ ha + 360 * k ≤ g.haMax

theorem turn_small {x : ℚ} (h0 : 0 ≤ x) (h1 : x < 360) : turn x = x := by
  unfold turn
  have : ⌊x / 360⌋ = 0 := by
    rw [Int.floor_eq_zero_iff]
    exact ⟨by positivity, by rw [div_lt_one (by norm_num)]; exact h1⟩
  rw [this]; simp

theorem turn_neg {x : ℚ} (h0 : x < 0) (h1 : -360 ≤ x) : turn x = x + 360 := by
  unfold turn
  have : ⌊x / 360⌋ = -1 := by
    rw [Int.floor_eq_iff]
    constructor
    · rw [le_div_iff₀ (by norm_num)]; push_cast; linarith
    · rw [div_lt_iff₀ (by norm_num)]; push_cast; linarith
  rw [this]; push_cast; ring

/-- C101, hour angle: with limits on both sides of the meridian the target chosen is within
them. -/
theorem C101_hour_angle_partial (g : Limits) (weights : List (Pnt.Term × ℚ)) (sky : Sky) (s : State) (i : ℕ)
    (h : winner g weights sky s = some i) (hfresh : s.cache.1 ≠ sky.mjd) (hc : ClearTargets g sky s)
    (hw : .ha ∈ weights.map Prod.fst) (hmin : g.haMin < 0) (hmin' : -360 ≤ g.haMin) (hmax : 0 ≤ g.haMax) (hmax' : g.haMax < 360)
    (hl : 0 ≤ sky.lmst) (hl' : sky.lmst < 360) (hr : ∀ t ∈ s.targets, 0 ≤ t.ra ∧ t.ra < 360) :
    ∃ t, s.targets[i]? = some t ∧ HaOk g (sky.lmst - t.ra) := by
  unfold winner rewards at h
  rw [if_pos hfresh] at h
  obtain ⟨x, hx, hne, _⟩ := peak_spec h
  obtain ⟨w, hw, hwk⟩ := List.mem_map.1 hw
  obtain ⟨y, hy, hyn⟩ := (total_terms g sky s weights i x _ hx hne).2 w hw
  rw [hwk] at hy
  have hm := mask_get hy hyn
  rw [List.getElem?_zipWith] at hm
  unfold above below at hm
  rw [(cmp_clear _ _ hc.haMax).2.2.1, (cmp_clear _ _ hc.haMin).1] at hm
  simp only [List.getElem?_map] at hm
  rcases ht : s.targets[i]? with _ | t <;> rw [ht] at hm
  · cases hm
  · simp only [Option.map_some, Option.some.injEq] at hm
    rw [turn_small hmax hmax', turn_neg hmin hmin'] at hm
    refine ⟨t, rfl, ?_⟩
    obtain ⟨r0, r1⟩ := hr t (List.mem_of_getElem? ht)
    have hh : 0 ≤ hourAngle sky t ∧ ∃ k : ℤ, hourAngle sky t = sky.lmst - t.ra + 360 * k := by
      unfold hourAngle
      by_cases hneg : sky.lmst - t.ra < 0
      · rw [if_pos hneg]; exact ⟨by linarith, 1, by push_cast; ring⟩
      · rw [if_neg hneg]; exact ⟨not_lt.1 hneg, 0, by push_cast; ring⟩
    have hlt : hourAngle sky t < 360 := by
      unfold hourAngle
      by_cases hneg : sky.lmst - t.ra < 0
      · rw [if_pos hneg]; linarith
      · rw [if_neg hneg]; linarith
    obtain ⟨hp, k, hk⟩ := hh
    by_cases hle : hourAngle sky t ≤ g.haMax
    · exact ⟨k, by rw [← hk]; linarith, by rw [← hk]; exact hle⟩
    · have h2 : g.haMin + 360 ≤ hourAngle sky t := by
        by_contra hcon
        rw [decide_eq_true (not_le.1 hle), decide_eq_true (not_le.1 hcon)] at hm
        cases hm
      refine ⟨k - 1, ?_, ?_⟩ <;> push_cast
      · have : sky.lmst - t.ra + 360 * ((k : ℚ) - 1) = hourAngle sky t - 360 := by rw [hk]; ring
        rw [this]; linarith
      · have : sky.lmst - t.ra + 360 * ((k : ℚ) - 1) = hourAngle sky t - 360 := by rw [hk]; ring
        rw [this]; linarith

/-- A fixture: two targets, one on the meridian and one an hour west. -/
def lim0 : Limits := { gap := 1/60, moon := 30, altMin := 20, altMax := 85, haMin := -60, haMax := 60, wind := 20, sunAlt := -12, goals := [("seq", 2)] }
def skyP : Sky := { mjd := 100, lmst := 20, sunAlt := -20, alt := [80, 70], moonDist := [90, 100], pressure := none, slew := [.fin 5, .fin 3], m5 := [.fin 0, .fin 0] }
def weightsP : List (Pnt.Term × ℚ) := [(.visitGap, 1), (.balance, 1), (.m5, 1), (.slew, -1), (.wind, 0), (.ha, 0), (.alt, 0), (.moon, 0)]

theorem winner_pair0 : winner lim0 weightsP skyP pair0 = some 1 := by decide +kernel

example : ClearTargets lim0 skyP pair0 := by
  constructor
  · right; unfold Feat.Clear; decide +kernel
  · right; unfold Feat.Clear; decide +kernel
  · right; unfold Feat.Clear; decide +kernel
  · right; unfold Feat.Clear; decide +kernel
  · intro p hp; cases hp
  · right; unfold Feat.Clear; decide +kernel
  · right; unfold Feat.Clear; decide +kernel

/-- The hour angle limit works for all limits: what the target chosen should obey. -/
def HaRespected (g : Limits) (weights : List (Pnt.Term × ℚ)) (sky : Sky) (s : State) : Prop :=
  ∀ i t, winner g weights sky s = some i → s.targets[i]? = some t → HaOk g (sky.lmst - t.ra)

/-- C101 fails for limits on one side of the meridian: nothing is masked. -/
theorem C101_hour_angle_violated : ¬ HaRespected { lim0 with haMin := 75, haMax := 90 } weightsP skyP pair0 := by
  intro h
  obtain ⟨k, h1, h2⟩ := h 1 ⟨"seq b", 20, 0, 0⟩ (by decide +kernel) rfl
  have e : skyP.lmst - (20 : ℚ) = 0 := by decide +kernel
  simp only [e] at h1 h2
  have a1 : (75 : ℚ) ≤ 360 * k := by simpa using h1
  have a2 : (360 : ℚ) * k ≤ 90 := by simpa using h2
  have b1 : 0 < k := by
    by_contra hk
    have : (k : ℚ) ≤ 0 := by exact_mod_cast not_lt.1 hk
    linarith
  have : (1 : ℚ) ≤ k := by exact_mod_cast b1
  linarith

/-- C101: at an unchanged time the rewards stay as they are, whatever was observed since. -/
theorem C101_stale (g : Limits) (weights : List (Pnt.Term × ℚ)) (sky : Sky) (s : State) (vs : List Done) :
    winner g weights sky (vs.foldl (fun s v => addOne v s) (computed g weights sky s)) = winner g weights sky s := by
  have hcache : ∀ (vs : List Done) (s : State), (vs.foldl (fun s v => addOne v s) s).cache = s.cache := by
    intro vs
    induction vs with
    | nil => intro s; rfl
    | cons v vs ih => intro s; rw [List.foldl_cons, ih]; rfl
  unfold winner
  congr 1
  conv_lhs => unfold rewards
  rw [hcache]
  rw [if_neg (by simp [computed])]
  rfl

/-- C101 fails without a change of time: the target just visited is chosen again, within the
minimum gap. -/
theorem C101_gap_violated :
    winner lim0 weightsP skyP (addOne ⟨"seq b", 100⟩ (computed lim0 weightsP skyP pair0)) = some 1 ∧
      ((addOne ⟨"seq b", 100⟩ (computed lim0 weightsP skyP pair0)).targets.map (fun t => decide (skyP.mjd - t.last < lim0.gap)))
        = [false, true] := by
  decide +kernel

/-! ### Balance -/

/-- A term that balances visits never prefers the target with more visits. -/
def Balanced (ts : List Target) : Prop :=
  ∀ (i j : ℕ) (t u : Target) (x y : ℚ), ts[i]? = some t → ts[j]? = some u → t.n < u.n → (balance ts)[i]? = some (.fin x) →
    (balance ts)[j]? = some (.fin y) → y ≤ x

/-- What the term does: one, except two for a target that has all the visits. -/
theorem C101_balance_values (ts : List Target) (t : Target) (h : t ∈ ts) :
    balanceOne (ts.map (·.n)).sum t.n = if 0 < t.n ∧ t.n = (ts.map (·.n)).sum then 2 else 1 := by
  have hle : t.n ≤ (ts.map (·.n)).sum := List.single_le_sum (by simp) _ (List.mem_map_of_mem h)
  unfold balanceOne
  by_cases h0 : t.n = 0
  · rw [if_pos h0, if_neg (by omega)]
  · rw [if_neg h0, if_neg (by omega)]
    have hpos : (0 : ℚ) < ((ts.map (·.n)).sum : ℕ) := by exact_mod_cast (by omega)
    by_cases he : t.n = (ts.map (·.n)).sum
    · rw [if_pos ⟨by omega, he⟩, ← he]
      have : (0 : ℚ) < t.n := by exact_mod_cast (by omega)
      rw [div_self (ne_of_gt this)]
      norm_num
    · rw [if_neg (by tauto)]
      have hlt : (t.n : ℚ) < ((ts.map (·.n)).sum : ℕ) := by exact_mod_cast lt_of_le_of_ne hle he
      have h1 : (t.n : ℚ) / ((ts.map (·.n)).sum : ℕ) < 1 := by rw [div_lt_one hpos]; exact hlt
      have h2 : (0 : ℚ) ≤ (t.n : ℚ) / ((ts.map (·.n)).sum : ℕ) := by positivity
      have : ⌊(1 : ℚ) + t.n / ((ts.map (·.n)).sum : ℕ)⌋ = 1 := by
        rw [Int.floor_eq_iff]; constructor <;> push_cast <;> linarith
      rw [this]; norm_num

/-- C101 fails: the only target visited so far gets the larger value. -/
theorem C101_balance_violated : ¬ Balanced [⟨"a", 0, 3, 1⟩, ⟨"b", 0, 0, 0⟩] := by
  intro h
  have := h 1 0 ⟨"b", 0, 0, 0⟩ ⟨"a", 0, 3, 1⟩ 1 2 rfl rfl (by decide) (by decide +kernel) (by decide +kernel)
  norm_num at this

/-! ### Feasibility -/

/-- C51 fails for these surveys: with the sun above the limit the survey calls itself not
feasible, and still has an ordinary reward. -/
theorem C51_pointings_violated : ∃ (sky : Sky), feasible lim0 weightsP sky pair0 = false ∧ lim0.sunAlt < sky.sunAlt ∧
    value lim0 weightsP sky pair0 = some (.fin (-2)) := by
  refine ⟨{ skyP with sunAlt := 30 }, ?_, ?_, ?_⟩ <;> decide +kernel

/-- A survey with all targets masked raises when asked for visits, and its reward is nan. -/
theorem C101_all_masked :
    winner lim0 weightsP { skyP with alt := [10, 10] } pair0 = none ∧
      value lim0 weightsP { skyP with alt := [10, 10] } pair0 = some .nan := by decide +kernel

end Verif
