import Verif.Model.Shadow
import Verif.Lemmas.Angles
import Verif.Lemmas.Clear
import Verif.Props.Masks
import Mathlib.Tactic.Linarith
import Mathlib.Tactic.LinearCombination

/-! C113: the mask of altitude and azimuth projected into the future. -/

namespace Verif

open Ang Shadow Feat

/-- Between the two altitudes. -/
def AltWithin (lim : ℚ × ℚ) (a : ℚ) : Prop := lim.1 ≤ a ∧ a ≤ lim.2

/-- On the way from the first azimuth of the pair eastwards to the second (going over zero if
need be); limits a full turn apart or more are no limits. -/
def Sector (T : ℚ) (lim : ℚ × ℚ) (a : ℚ) : Prop :=
  T ≤ |lim.2 - lim.1| ∨
    ∃ k m : ℤ, lim.1 ≤ a + k * T ∧ a + k * T ≤ lim.2 + m * T ∧ lim.2 + m * T < lim.1 + T

/-- Pixel `i` is within all limits now and at the later time: those of the survey, those of
the telescope, and at least one of the open ranges (at both times the same one). -/
def OpenSky (T : ℚ) (L : Lims) (i : ℕ) (now later : Sky) : Prop :=
  (∀ s ∈ [now, later], AltWithin L.alt (s.alt i)) ∧
  (L.skyAlt = [] ∨ ∃ l ∈ L.skyAlt, ∀ s ∈ [now, later], AltWithin l (s.alt i)) ∧
  (∀ l ∈ L.telAlt, ∀ s ∈ [now, later], AltWithin l (s.alt i)) ∧
  (∀ s ∈ [now, later], Sector T L.az (s.az i)) ∧
  (L.skyAz = [] ∨ ∃ l ∈ L.skyAz, ∀ s ∈ [now, later], Sector T l (s.az i)) ∧
  (∀ l ∈ L.telAz, ∀ s ∈ [now, later], Sector T l (s.az i))

/-- No pixel is within the tolerance of the comparison at an altitude limit. -/
def AltClear (n : ℕ) (L : Lims) (s : Sky) : Prop :=
  ∀ l ∈ L.alt :: (L.skyAlt ++ L.telAlt.toList),
    ClearOf l.1 ((List.range n).map s.alt) ∧ ClearOf l.2 ((List.range n).map s.alt)

theorem sector_iff {T : ℚ} (hT : 0 < T) (lim : ℚ × ℚ) (a : ℚ) :
    Sector T lim a ↔ ¬ (|lim.2 - lim.1| < T ∧ md T (lim.2 - lim.1) < md T (a - lim.1)) := by
  unfold Sector
  constructor
  · rintro (h | ⟨k, m, h1, h2, h3⟩) ⟨c1, c2⟩
    · exact absurd c1 (not_lt.2 h)
    · have e1 : md T (a - lim.1) = a + k * T - lim.1 := by
        rw [← md_of_mem (x := a + k * T - lim.1) hT (by linarith) (by linarith)]
        exact md_eq_of_same hT ⟨-k, by push_cast; ring⟩
      have e2 : md T (lim.2 - lim.1) = lim.2 + m * T - lim.1 := by
        rw [← md_of_mem (x := lim.2 + m * T - lim.1) hT (by linarith) (by linarith)]
        exact md_eq_of_same hT ⟨-m, by push_cast; ring⟩
      rw [e1, e2] at c2
      linarith
  · intro h
    rcases le_or_gt T (|lim.2 - lim.1|) with h1 | h1
    · exact Or.inl h1
    · right
      have h2 : md T (a - lim.1) ≤ md T (lim.2 - lim.1) := not_lt.1 (fun c => h ⟨h1, c⟩)
      have p1 := md_nonneg hT (a - lim.1)
      have p2 := md_lt hT (lim.2 - lim.1)
      obtain ⟨k, hk⟩ := md_same T (a - lim.1)
      obtain ⟨m, hm⟩ := md_same T (lim.2 - lim.1)
      refine ⟨k, m, ?_, ?_, ?_⟩ <;> (first | rw [hk] at p1 h2 | skip) <;> (first | rw [hm] at p2 h2 | skip) <;> linarith

/-- The mask leaves exactly the pixels with `P`. -/
def Leaves (n : ℕ) (m : List Bool) (P : ℕ → Prop) : Prop :=
  ∃ f : ℕ → Bool, m = (List.range n).map f ∧ ∀ i < n, (f i = false ↔ P i)

theorem leaves_get {n : ℕ} {m : List Bool} {P : ℕ → Prop} (h : Leaves n m P) (i : ℕ) (hi : i < n) :
    m[i]? = some false ↔ P i := by
  obtain ⟨f, rfl, hf⟩ := h
  rw [List.getElem?_map, List.getElem?_range hi, Option.map_some, Option.some_inj, hf i hi]

theorem leaves_length {n : ℕ} {m : List Bool} {P : ℕ → Prop} (h : Leaves n m P) : m.length = n := by
  obtain ⟨f, rfl, _⟩ := h
  simp

theorem leaves_congr {n : ℕ} {m : List Bool} {P Q : ℕ → Prop} (h : Leaves n m P) (hPQ : ∀ i < n, (P i ↔ Q i)) :
    Leaves n m Q := by
  obtain ⟨f, rfl, hf⟩ := h
  exact ⟨f, rfl, fun i hi => (hf i hi).trans (hPQ i hi)⟩

theorem leaves_all (n : ℕ) {P : ℕ → Prop} (hP : ∀ i, P i) : Leaves n (List.replicate n false) P := by
  refine ⟨fun _ => false, ?_, fun i _ => by simp [hP i]⟩
  symm
  rw [List.eq_replicate_iff]
  simp

theorem leaves_both {n : ℕ} {a b : List Bool} {P Q : ℕ → Prop} (ha : Leaves n a P) (hb : Leaves n b Q) :
    Leaves n (both a b) (fun i => P i ∧ Q i) := by
  obtain ⟨f, rfl, hf⟩ := ha
  obtain ⟨g, rfl, hg⟩ := hb
  refine ⟨fun i => f i || g i, zipWith_map_same (fun x y => x || y) f g _, fun i hi => ?_⟩
  rw [Bool.or_eq_false_iff, hf i hi, hg i hi]

theorem leaves_either {n : ℕ} {a b : List Bool} {P Q : ℕ → Prop} (ha : Leaves n a P) (hb : Leaves n b Q) :
    Leaves n (List.zipWith (fun x y => x && y) a b) (fun i => P i ∨ Q i) := by
  obtain ⟨f, rfl, hf⟩ := ha
  obtain ⟨g, rfl, hg⟩ := hb
  refine ⟨fun i => f i && g i, zipWith_map_same (fun x y => x && y) f g _, fun i hi => ?_⟩
  rw [Bool.and_eq_false_iff, hf i hi, hg i hi]

theorem altOff_leaves (n : ℕ) (lim : ℚ × ℚ) (alt : ℕ → ℚ) (h1 : ClearOf lim.1 ((List.range n).map alt))
    (h2 : ClearOf lim.2 ((List.range n).map alt)) :
    Leaves n (altOff n lim alt) (fun i => AltWithin lim (alt i)) := by
  unfold altOff
  rw [(cmp_clear _ _ h1).1, (cmp_clear _ _ h2).2.2.1, List.map_map, List.map_map]
  exact leaves_both (P := fun i => lim.1 ≤ alt i) (Q := fun i => alt i ≤ lim.2)
    ⟨_, rfl, fun i _ => by simp⟩ ⟨_, rfl, fun i _ => by simp⟩

theorem azOff_leaves {T : ℚ} (hT : 0 < T) (n : ℕ) (lim : ℚ × ℚ) (az : ℕ → ℚ) :
    Leaves n (azOff T n lim az) (fun i => Sector T lim (az i)) := by
  unfold azOff
  refine ⟨_, rfl, fun i _ => ?_⟩
  dsimp only
  rw [sector_iff hT, Bool.and_eq_false_iff, not_and_or, decide_eq_false_iff_not, decide_eq_false_iff_not]

theorem leaves_sky {n : ℕ} {a b : List Bool} {P : Sky → ℕ → Prop} {now later : Sky} (ha : Leaves n a (P now))
    (hb : Leaves n b (P later)) : Leaves n (both a b) (fun i => ∀ s ∈ [now, later], P s i) :=
  leaves_congr (leaves_both ha hb) (fun i _ => by simp)

theorem noRange_leaves (n : ℕ) (bad : ℚ × ℚ → List Bool) (P : ℚ × ℚ → ℕ → Prop) (ls : List (ℚ × ℚ))
    (h : ∀ l ∈ ls, Leaves n (bad l) (P l)) :
    Leaves n (noRange n bad ls) (fun i => ls = [] ∨ ∃ l ∈ ls, P l i) := by
  cases ls with
  | nil => exact leaves_all n (fun i => Or.inl rfl)
  | cons r rs =>
    have key : ∀ (rs : List (ℚ × ℚ)) (m : List Bool) (Q : ℕ → Prop), Leaves n m Q →
        (∀ l ∈ rs, Leaves n (bad l) (P l)) →
        Leaves n (rs.foldl (fun acc l => List.zipWith (fun x y => x && y) acc (bad l)) m)
          (fun i => Q i ∨ ∃ l ∈ rs, P l i) := by
      intro rs
      induction rs with
      | nil => intro m Q hm _; exact leaves_congr hm (fun i _ => by simp)
      | cons l ls ih =>
        intro m Q hm hQ
        exact leaves_congr (ih _ _ (leaves_either hm (hQ l (by simp))) (fun l' hl' => hQ l' (by simp [hl'])))
          (fun i _ => by simp [or_assoc])
    exact leaves_congr (key rs (bad r) (P r) (h r (by simp)) (fun l hl => h l (by simp [hl]))) (fun i _ => by simp)

theorem ifSet_leaves (n : ℕ) (bad : ℚ × ℚ → List Bool) (P : ℚ × ℚ → ℕ → Prop) (o : Option (ℚ × ℚ))
    (h : ∀ l ∈ o, Leaves n (bad l) (P l)) : Leaves n (ifSet n bad o) (fun i => ∀ l ∈ o, P l i) := by
  cases o with
  | none => exact leaves_all n (fun i => by simp)
  | some l => exact leaves_congr (h l rfl) (fun i _ => by simp)

/-- One pass masks exactly the pixels that are not open, with `az` as azimuth limits of the survey. -/
theorem pass_leaves {T : ℚ} (hT : 0 < T) (n : ℕ) (L : Lims) (now later : Sky) (m : List Bool) (az : ℚ × ℚ)
    (Q : ℕ → Prop) (h1 : AltClear n L now) (h2 : AltClear n L later) (hm : Leaves n m Q) :
    Leaves n (pass T n L now (m, az) later).1 (fun i => Q i ∧ OpenSky T { L with az := az } i now later) := by
  have ha : ∀ l ∈ L.alt :: (L.skyAlt ++ L.telAlt.toList), Leaves n (altBad n l now later)
      (fun i => ∀ s ∈ [now, later], AltWithin l (s.alt i)) := fun l hl =>
    leaves_sky (P := fun s i => AltWithin l (s.alt i)) (altOff_leaves n l _ (h1 l hl).1 (h1 l hl).2)
      (altOff_leaves n l _ (h2 l hl).1 (h2 l hl).2)
  have hz : ∀ l, Leaves n (azBad T n l now later) (fun i => ∀ s ∈ [now, later], Sector T l (s.az i)) := fun l =>
    leaves_sky (P := fun s i => Sector T l (s.az i)) (azOff_leaves hT n l _) (azOff_leaves hT n l _)
  unfold pass
  refine leaves_congr (leaves_both (leaves_both (leaves_both (leaves_both (leaves_both (leaves_both hm (ha _ (by simp)))
    (noRange_leaves n _ _ L.skyAlt (fun l hl => ha l (by simp [hl]))))
    (ifSet_leaves n _ _ L.telAlt (fun l hl => ha l ?_))) (hz az))
    (noRange_leaves n _ _ L.skyAz (fun l _ => hz l))) (ifSet_leaves n _ _ L.telAz (fun l _ => hz l))) (fun i _ => ?_)
  · simp [Option.mem_def.1 hl]
  · simp only [OpenSky]
    tauto

/-- After several passes. -/
theorem passes_leaves {T : ℚ} (hT : 0 < T) (n : ℕ) (L : Lims) (now : Sky) (later : ℚ → Sky) (ts : List ℚ)
    (h1 : AltClear n L now) (h2 : ∀ t ∈ ts, AltClear n L (later t)) :
    ∀ (m : List Bool) (az : ℚ × ℚ) (Q : ℕ → Prop), Leaves n m Q → azAfter az L.skyAz = az →
      Leaves n (ts.foldl (fun s t => pass T n L now s (later t)) (m, az)).1
        (fun i => Q i ∧ ∀ t ∈ ts, OpenSky T { L with az := az } i now (later t)) := by
  induction ts with
  | nil => intro m az Q hm _; exact leaves_congr hm (fun i _ => by simp)
  | cons t ts ih =>
    intro m az Q hm haz
    have hp := pass_leaves hT n L now (later t) m az Q h1 (h2 t (by simp)) hm
    have := ih (fun t' ht' => h2 t' (by simp [ht'])) _ az _ hp haz
    rw [List.foldl_cons]
    have e : pass T n L now (m, az) (later t) = ((pass T n L now (m, az) (later t)).1, az) :=
      Prod.ext rfl haz
    rw [e]
    exact leaves_congr this (fun i _ => by simp [and_assoc])

theorem azAfter_idem (az : ℚ × ℚ) (ls : List (ℚ × ℚ)) : azAfter (azAfter az ls) ls = azAfter az ls := by
  unfold azAfter
  cases h : ls.getLast? <;> simp

theorem times_ne_nil (shadow step : ℚ) : times shadow step ≠ [] := by
  unfold times
  dsimp only
  split
  · split
    · rename_i h
      intro hc
      rw [hc] at h
      simp at h
    · simp
  · simp

/-- What is left by the whole loop: with the survey's azimuth limits for the first of the times,
and those left over from the open ranges for the others. -/
theorem mask_leaves {T : ℚ} (hT : 0 < T) (n : ℕ) (L : Lims) (now : Sky) (later : ℚ → Sky) (shadow step : ℚ)
    (h1 : AltClear n L now) (h2 : ∀ t ∈ times shadow step, AltClear n L (later t)) :
    Leaves n (mask T n L now later shadow step) (fun i =>
      (∀ t ∈ (times shadow step).head?, OpenSky T L i now (later t)) ∧
      ∀ t ∈ (times shadow step).tail, OpenSky T { L with az := azAfter L.az L.skyAz } i now (later t)) := by
  unfold mask
  cases hts : times shadow step with
  | nil => exact absurd hts (times_ne_nil _ _)
  | cons t ts =>
    rw [hts] at h2
    rw [List.foldl_cons]
    have hp := pass_leaves hT n L now (later t) _ L.az (fun _ => True) h1 (h2 t (by simp)) (leaves_all n (fun _ => trivial))
    have := passes_leaves hT n L now later ts h1 (fun t' ht' => h2 t' (by simp [ht'])) _ (azAfter L.az L.skyAz) _ hp
      (azAfter_idem _ _)
    exact leaves_congr this (fun i _ => by simp)

/-- The times looked at: 0 and whole steps, and the end; all within the time asked for. -/
theorem mem_times {shadow step : ℚ} (hs : 0 < step) (t : ℚ) :
    t ∈ times shadow step ↔ t = shadow ∨ ∃ k : ℕ, t = k * step ∧ ((k : ℚ) + 1) * step ≤ shadow := by
  have hfl : ∀ k : ℕ, (k : ℤ) < ⌊shadow / step⌋ ↔ ((k : ℚ) + 1) * step ≤ shadow := by
    intro k
    rw [← le_div_iff₀ hs, ← Int.add_one_le_iff, Int.le_floor]
    push_cast
    rfl
  unfold times
  dsimp only
  split
  · rename_i hn
    have hmem : t ∈ (List.range ⌊shadow / step⌋.toNat).map (fun k : ℕ => (k : ℚ) * step) ↔
        ∃ k : ℕ, t = k * step ∧ ((k : ℚ) + 1) * step ≤ shadow := by
      simp only [List.mem_map, List.mem_range]
      constructor
      · rintro ⟨k, hk, rfl⟩
        exact ⟨k, rfl, (hfl k).1 (by omega)⟩
      · rintro ⟨k, rfl, hk⟩
        exact ⟨k, by have := (hfl k).2 hk; omega, rfl⟩
    split
    · rename_i hc
      rw [hmem]
      constructor
      · exact Or.inr
      · rintro (rfl | h)
        · exact hmem.1 (by simpa using hc)
        · exact h
    · rw [List.mem_append, hmem]
      simp [or_comm]
  · rename_i hn
    simp only [List.mem_singleton]
    constructor
    · exact Or.inl
    · rintro (h | ⟨k, _, hk⟩)
      · exact h
      · exact absurd ((hfl k).2 hk) (by omega)

/-- A pixel is left by the mask `m` if its entry is not nan. -/
def Unmasked (m : List Bool) (i : ℕ) : Prop := m[i]? = some false

/-- C113: whatever the limits, a pixel that is not masked is within the altitude limits of
survey and telescope, an open range of altitude, an open range of azimuth and the azimuth limits of
the telescope, now and at every time looked at, and now within the azimuth limits of the survey. -/
theorem C113_safe {T : ℚ} (hT : 0 < T) (n : ℕ) (L : Lims) (now : Sky) (later : ℚ → Sky) (shadow step : ℚ)
    (h1 : AltClear n L now) (h2 : ∀ t ∈ times shadow step, AltClear n L (later t)) (i : ℕ) (hi : i < n)
    (hm : Unmasked (mask T n L now later shadow step) i) :
    Sector T L.az (now.az i) ∧
    ∀ t ∈ times shadow step, ∀ s ∈ [now, later t],
      AltWithin L.alt (s.alt i) ∧ (L.skyAlt = [] ∨ ∃ l ∈ L.skyAlt, AltWithin l (s.alt i)) ∧
      (∀ l ∈ L.telAlt, AltWithin l (s.alt i)) ∧
      (L.skyAz = [] ∨ ∃ l ∈ L.skyAz, Sector T l (s.az i)) ∧ (∀ l ∈ L.telAz, Sector T l (s.az i)) := by
  have h := (leaves_get (mask_leaves hT n L now later shadow step h1 h2) i hi).1 hm
  constructor
  · cases hts : times shadow step with
    | nil => exact absurd hts (times_ne_nil _ _)
    | cons t ts =>
      rw [hts] at h
      exact (h.1 t rfl).2.2.2.1 now (by simp)
  · intro t ht s hs
    have key : ∃ az, OpenSky T { L with az := az } i now (later t) := by
      cases hts : times shadow step with
      | nil => exact absurd hts (times_ne_nil _ _)
      | cons t' ts =>
        rw [hts] at h ht
        rcases List.mem_cons.1 ht with rfl | ht
        · exact ⟨L.az, h.1 t rfl⟩
        · exact ⟨_, h.2 t ht⟩
    obtain ⟨az, k1, k2, k3, _, k5, k6⟩ := key
    refine ⟨k1 s hs, ?_, fun l hl => k3 l hl s hs, ?_, fun l hl => k6 l hl s hs⟩
    · exact k2.imp id (fun ⟨l, hl, hP⟩ => ⟨l, hl, hP s hs⟩)
    · exact k5.imp id (fun ⟨l, hl, hP⟩ => ⟨l, hl, hP s hs⟩)

/-- C113, in part: the mask leaves exactly the pixels within all limits now and at every time
looked at, if no azimuth ranges are set or one is and the survey has no azimuth limits of its own.
Missing: several ranges, or a range and limits of the survey; see below. -/
theorem C113_exact_partial {T : ℚ} (hT : 0 < T) (n : ℕ) (L : Lims) (now : Sky) (later : ℚ → Sky) (shadow step : ℚ)
    (h1 : AltClear n L now) (h2 : ∀ t ∈ times shadow step, AltClear n L (later t))
    (haz : L.skyAz = [] ∨ (∃ r, L.skyAz = [r]) ∧ T ≤ |L.az.2 - L.az.1|) (i : ℕ) (hi : i < n) :
    Unmasked (mask T n L now later shadow step) i ↔ ∀ t ∈ times shadow step, OpenSky T L i now (later t) := by
  unfold Unmasked
  rw [leaves_get (mask_leaves hT n L now later shadow step h1 h2) i hi]
  have hsame : ∀ s, OpenSky T { L with az := azAfter L.az L.skyAz } i now s ↔ OpenSky T L i now s := by
    intro s
    rcases haz with h0 | ⟨⟨r, hr⟩, hfull⟩
    · have : azAfter L.az L.skyAz = L.az := by rw [h0]; rfl
      rw [this]
    · have : azAfter L.az L.skyAz = r := by rw [hr]; rfl
      rw [this]
      have hS : ∀ a, Sector T L.az a := fun a => Or.inl hfull
      unfold OpenSky
      simp only [hr, hS]
      simp
  cases hts : times shadow step with
  | nil => exact absurd hts (times_ne_nil _ _)
  | cons t ts => simp [hsame]

/-- A sky of three pixels at fixed altitude that turns by one degree a minute. -/
def turning (alt : List ℚ) (az : List ℚ) (t : ℚ) : Sky := ⟨fun i => alt.getD i 0, fun i => az.getD i 0 + t⟩

/-- Limits for the examples: the survey from 20 to 86 degrees, the telescope likewise. -/
def plainL (az : ℚ × ℚ) (skyAz : List (ℚ × ℚ)) : Lims := ⟨(20, 86), az, [], skyAz, some (15, 87), some (-270, 270)⟩

theorem altClear_of {n : ℕ} {L : Lims} {s : Sky}
    (h : ∀ l ∈ L.alt :: (L.skyAlt ++ L.telAlt.toList), ∀ i < n, Clear l.1 (s.alt i) ∧ Clear l.2 (s.alt i)) :
    AltClear n L s := by
  intro l hl
  constructor
  · right
    intro x hx
    obtain ⟨i, hi, rfl⟩ := List.mem_map.1 hx
    exact (h l hl i (by simpa using hi)).1
  · right
    intro x hx
    obtain ⟨i, hi, rfl⟩ := List.mem_map.1 hx
    exact (h l hl i (by simpa using hi)).2

theorem turning_clear {n : ℕ} {L : Lims} (alt az : List ℚ) (t : ℚ)
    (h : ∀ l ∈ L.alt :: (L.skyAlt ++ L.telAlt.toList), ∀ i < n, Clear l.1 (alt.getD i 0) ∧ Clear l.2 (alt.getD i 0)) :
    AltClear n L (turning alt az t) := altClear_of h

example : mask 360 3 (plainL (0, 360) [(90, 180)]) (turning [30, 30, 10] [100, 175, 100] 0) (turning [30, 30, 10] [100, 175, 100]) 40 10 =
    [false, true, true] ∧ times 40 10 = [0, 10, 20, 30, 40] := by decide +kernel

example (t : ℚ) : AltClear 3 (plainL (0, 360) [(90, 180)]) (turning [30, 30, 10] [100, 175, 100] t) :=
  turning_clear _ _ _ (by unfold Clear plainL; decide +kernel)

/-- C113 is violated with two open azimuth ranges: after the first time looked at the last range
takes the place of the survey's limits, so a pixel well inside the first range all the time is masked. -/
theorem C113_two_ranges_violated :
    let L := plainL (0, 360) [(0, 90), (180, 270)]
    let sky := turning [45] [30]
    ¬ Unmasked (mask 360 1 L (sky 0) sky 40 10) 0 ∧ (∀ t, AltClear 1 L (sky t)) ∧
      ∀ t ∈ times 40 10, OpenSky 360 L 0 (sky 0) (sky t) := by
  refine ⟨by unfold Unmasked; decide +kernel, fun t => turning_clear _ _ _ (by unfold Clear plainL; decide +kernel), ?_⟩
  have h : ∀ t ∈ times 40 10, 0 ≤ t ∧ t ≤ 40 := by decide +kernel
  intro t ht
  obtain ⟨p1, p2⟩ := h t ht
  unfold OpenSky AltWithin Sector plainL turning
  refine ⟨by simp; norm_num, by simp, by simp; norm_num, by simp, Or.inr ⟨(0, 90), by simp, ?_⟩, ?_⟩
  · intro s hs
    right
    simp only [List.mem_cons, List.not_mem_nil, or_false] at hs
    rcases hs with rfl | rfl <;> refine ⟨0, 0, ?_⟩ <;> norm_num <;> (try constructor) <;> linarith
  · intro l hl s hs
    simp only [Option.mem_def, Option.some.injEq] at hl
    subst hl
    left
    norm_num

/-- C113 is violated with one open range and limits of the survey: the survey's own azimuth limits
are not looked at in the future, so a pixel that will have left them is not masked. -/
theorem C113_leak_violated :
    let L := plainL (0, 90) [(0, 180)]
    let sky := turning [45] [80]
    Unmasked (mask 360 1 L (sky 0) sky 40 10) 0 ∧ (∀ t, AltClear 1 L (sky t)) ∧
      40 ∈ times 40 10 ∧ ¬ Sector 360 L.az ((sky 40).az 0) := by
  refine ⟨by unfold Unmasked; decide +kernel, fun t => turning_clear _ _ _ (by unfold Clear plainL; decide +kernel),
    by decide +kernel, ?_⟩
  rw [sector_iff (by norm_num)]
  unfold plainL turning
  decide +kernel

/-- Without the assumption on the tolerance C113 is violated: one pixel exactly at the limit
makes the comparison of all pixels coarse, and a pixel far below the limit (in radians) is not masked. -/
theorem C113_rounding_violated :
    let L : Lims := ⟨(35 / 100, 15 / 10), (0, 7), [], [], none, none⟩
    let sky : ℚ → Sky := fun _ => ⟨fun i => [35 / 100, 1 / 10].getD i 0, fun _ => 1⟩
    Unmasked (mask 6 2 L (sky 0) sky 40 10) 1 ∧ ¬ AltWithin L.alt ((sky 0).alt 1) := by
  constructor
  · unfold Unmasked
    decide +kernel
  · unfold AltWithin
    decide +kernel

/-- C113, the times looked at: the end of the time asked for, and every multiple of the step that is
at least a step before the end; so no moment is two steps or more from the times around it. -/
theorem C113_times_partial {shadow step : ℚ} (hs : 0 < step) (hle : step ≤ shadow) :
    (∀ t, t ∈ times shadow step ↔ t = shadow ∨ ∃ k : ℕ, t = k * step ∧ ((k : ℚ) + 1) * step ≤ shadow) ∧
    ∀ u, 0 ≤ u → u ≤ shadow → ∃ t ∈ times shadow step, ∃ t' ∈ times shadow step, t ≤ u ∧ u ≤ t' ∧ t' - t < 2 * step := by
  refine ⟨mem_times hs, fun u h0 h1 => ?_⟩
  -- the last step of which a whole one follows
  have hn : 0 < ⌊shadow / step⌋ := Int.floor_pos.2 ((one_le_div hs).2 hle)
  have hlast : shadow < (⌊shadow / step⌋ + 1) * step := by
    have := Int.lt_floor_add_one (shadow / step)
    rwa [div_lt_iff₀ hs] at this
  have hfl : (⌊shadow / step⌋ : ℚ) * step ≤ shadow := by
    have := Int.floor_le (shadow / step)
    rwa [le_div_iff₀ hs] at this
  have hu := Int.floor_le (u / step)
  have hu' := Int.lt_floor_add_one (u / step)
  rw [le_div_iff₀ hs] at hu
  rw [div_lt_iff₀ hs] at hu'
  have hu0 : 0 ≤ ⌊u / step⌋ := Int.floor_nonneg.2 (div_nonneg h0 hs.le)
  obtain ⟨N, hN⟩ : ∃ N : ℕ, ⌊shadow / step⌋ = (N : ℤ) + 1 := ⟨(⌊shadow / step⌋ - 1).toNat, by omega⟩
  obtain ⟨K, hK⟩ : ∃ K : ℕ, ⌊u / step⌋ = (K : ℤ) := ⟨(⌊u / step⌋).toNat, by omega⟩
  rw [hN] at hlast hfl
  rw [hK] at hu hu'
  push_cast at hlast hfl hu hu'
  by_cases hc : K < N
  · have hKN : (K : ℚ) + 1 ≤ N := by exact_mod_cast hc
    have := mul_le_mul_of_nonneg_right hKN hs.le
    refine ⟨K * step, (mem_times hs _).2 (Or.inr ⟨K, rfl, by linarith⟩), ((K + 1 : ℕ) : ℚ) * step,
      (mem_times hs _).2 (Or.inr ⟨K + 1, rfl, by push_cast; linarith⟩), hu, by push_cast; linarith, by push_cast; linarith⟩
  · have hKN : (N : ℚ) ≤ K := by exact_mod_cast not_lt.1 hc
    have := mul_le_mul_of_nonneg_right hKN hs.le
    exact ⟨N * step, (mem_times hs _).2 (Or.inr ⟨N, rfl, hfl⟩), shadow, (mem_times hs _).2 (Or.inl rfl), by linarith, h1, by linarith⟩

example : times 40 10 = [0, 10, 20, 30, 40] ∧ times 5 10 = [5] := by decide +kernel

/-- The steps are not all as fine as asked for: with steps of 10 up to 45, nothing is looked at between
30 and 45, and with steps longer than the time asked for only the end is. -/
theorem C113_step_violated : times 45 10 = [0, 10, 20, 30, 45] := by decide +kernel

/-- C113, padding: a pixel is left by the padded mask exactly if no pixel close to it was masked. -/
theorem C113_pad (n : ℕ) (close : ℕ → ℕ → Bool) (hc : ∀ i, close i i = true) (pad : ℚ) (hp : 0 < pad) (m m' : List Bool)
    (hn : m.length = n) (h : padded n close pad m = some m') (j : ℕ) (hj : j < n) :
    Unmasked m' j ↔ ∀ i < n, close i j = true → Unmasked m i := by
  unfold padded at h
  rw [if_pos hp] at h
  unfold grow at h
  split at h
  · simp at h
  · rw [Option.map_some, Option.some_inj] at h
    subst h
    have hU : ∀ i < n, (Unmasked m i ↔ i ∉ masked m) := by
      intro i hi
      unfold Unmasked masked
      have hi' : i < m.length := by omega
      rw [List.getElem?_eq_getElem hi', Option.some_inj, List.mem_filter, List.mem_range, List.getD_eq_getElem?_getD,
        List.getElem?_eq_getElem hi']
      simp [hi']
    have hj' : j < m.length := by omega
    have e : Unmasked (hide m ((List.range n).filter (fun j => (masked m).any (fun i => close i j)))) j ↔
        (Unmasked m j ∧ ¬ ∃ i ∈ masked m, close i j = true) := by
      unfold hide Unmasked
      rw [List.getElem?_map, List.getElem?_range hj', Option.map_some, Option.some_inj, Bool.or_eq_false_iff,
        List.getD_eq_getElem?_getD, List.getElem?_eq_getElem hj']
      simp [hj]
    rw [e]
    constructor
    · rintro ⟨_, h2⟩ i hi hcl
      rw [hU i hi]
      exact fun hmem => h2 ⟨i, hmem, hcl⟩
    · intro h
      refine ⟨h j hj (hc j), ?_⟩
      rintro ⟨i, hmem, hcl⟩
      have hi : i < n := by
        unfold masked at hmem
        rw [List.mem_filter, List.mem_range] at hmem
        omega
      exact (hU i hi).1 (h i hi hcl) hmem

/-- C113, both together: with a pad, a pixel that is not masked and all pixels close to it are within the
limits (as in `C113_exact_partial`). -/
theorem C113_all_around_partial {T : ℚ} (hT : 0 < T) (n : ℕ) (close : ℕ → ℕ → Bool) (hc : ∀ i, close i i = true) (pad : ℚ)
    (hp : 0 < pad) (L : Lims) (now : Sky) (later : ℚ → Sky) (shadow step : ℚ)
    (h1 : AltClear n L now) (h2 : ∀ t ∈ times shadow step, AltClear n L (later t))
    (haz : L.skyAz = [] ∨ (∃ r, L.skyAz = [r]) ∧ T ≤ |L.az.2 - L.az.1|) (m : List Bool)
    (h : shadowMask T n close pad L now later shadow step = some m) (j : ℕ) (hj : j < n) :
    Unmasked m j ↔ ∀ i < n, close i j = true → ∀ t ∈ times shadow step, OpenSky T L i now (later t) := by
  rw [C113_pad n close hc pad hp _ m (leaves_length (mask_leaves hT n L now later shadow step h1 h2)) h j hj]
  exact forall_congr' (fun i => forall_congr' (fun hi => by rw [C113_exact_partial hT n L now later shadow step h1 h2 haz i hi]))

example : shadowMask 360 4 (fun i j => decide (i ≤ j + 1 ∧ j ≤ i + 1)) 3 (plainL (0, 360) [(90, 180)])
    (turning [30, 30, 30, 10] [100, 100, 100, 100] 0) (turning [30, 30, 30, 10] [100, 100, 100, 100]) 40 10 =
    some [false, false, true, true] := by decide +kernel

/-- With a pad and limits that mask nothing the method raises instead of returning an empty mask. -/
theorem C113_nothing_masked_violated :
    shadowMask 360 1 (fun _ _ => true) 3 ⟨(-90, 90), (0, 360), [], [], none, none⟩
      (turning [30] [100] 0) (turning [30] [100]) 40 10 = none := by decide +kernel

/-- C113, near sunrise and sunset only: the mask is applied exactly when one of the times is less than
`near` away. -/
theorem C113_limited {α : Type} (near mjd : ℚ) (events : List ℚ) (he : events ≠ []) (m : α) :
    ∃ o, timeLimited near mjd events m = some o ∧ (o = some m ∨ o = none) ∧ (o = some m ↔ ∃ e ∈ events, |mjd - e| < near) := by
  unfold timeLimited
  cases events with
  | nil => exact absurd rfl he
  | cons e es =>
    rw [List.map_cons]
    have key : ∀ (ds : List ℚ) (d : ℚ), ds.foldl min d < near ↔ d < near ∨ ∃ x ∈ ds, x < near := by
      intro ds
      induction ds with
      | nil => simp
      | cons x xs ih =>
        intro d
        rw [List.foldl_cons, ih]
        simp [or_assoc]
    refine ⟨_, rfl, ?_, ?_⟩
    · split <;> simp
    · have := key (es.map (fun e => |mjd - e|)) (|mjd - e|)
      rw [show (∃ e' ∈ e :: es, |mjd - e'| < near) ↔ (|mjd - e| < near ∨ ∃ x ∈ es.map (fun e => |mjd - e|), x < near) by simp,
        ← this]
      split <;> simp_all

example : timeLimited (1 / 12) 10 [9, 10 + 1 / 20] "mask" = some (some "mask") ∧
    timeLimited (1 / 12) 10 [9, 11] "mask" = some none := by decide +kernel

/-- C113, the cache: as long as every remembered answer is the one the present limits give,
the answer is the present one. -/
theorem C113_cache_partial {κ α : Type} [DecidableEq κ] (value : κ → α) (store : List (κ × α))
    (h : ∀ e ∈ store, e.2 = value e.1) (key : κ) :
    (cached store key (value key)).2 = value key ∧ ∀ e ∈ (cached store key (value key)).1, e.2 = value e.1 := by
  unfold cached
  split
  · rename_i e he
    have h1 := List.mem_of_find?_eq_some he
    have h2 := List.find?_some he
    have : e.1 = key := by simpa using h2
    exact ⟨by rw [h e h1, this], h⟩
  · refine ⟨rfl, ?_⟩
    intro e he
    rcases List.mem_cons.1 he with rfl | he
    · rfl
    · exact h e he

/-- But limits set on the same conditions after the mask was first asked for are not seen: the limits are no
part of the key. -/
theorem C113_stale_violated :
    let sky := turning [45] [30]
    let value := fun skyAz => mask 360 1 (plainL (0, 360) skyAz) (sky 0) sky 40 10
    let first := cached [] (60000 : ℕ) (value [])
    (cached first.1 60000 (value [(90, 180)])).2 = [false] ∧ value [(90, 180)] = [true] := by decide +kernel

end Verif
