import Verif.Model.Dither
import Verif.Props.Gnomonic
import Verif.Props.FeaturesCount
import Mathlib.Analysis.SpecialFunctions.Trigonometric.Arctan
import Mathlib.Analysis.SpecialFunctions.Trigonometric.Bounds

/-! C126: random offsets of visits. C128: given offsets. -/

namespace Verif

open Sph Real Dith

/-- The separation of a point of the plane's direction from the pointing. -/
theorem sep_toSky (x y ra0 dec0 : ℝ) :
    sep ra0 dec0 (toSky x y ra0 dec0).1 (toSky x y ra0 dec0).2 = arctan √(x ^ 2 + y ^ 2) := by
  obtain ⟨g, _⟩ := C124_sky x y ra0 dec0
  obtain ⟨d1, d2⟩ := C121_angle ra0 dec0 (toSky x y ra0 dec0).1 (toSky x y ra0 dec0).2
  have h0 : 0 ≤ x ^ 2 + y ^ 2 := by positivity
  have hR : 0 < √(1 + x ^ 2 + y ^ 2) := Real.sqrt_pos.2 (by linarith)
  have p := Real.pi_pos
  have ha : 0 ≤ arctan √(x ^ 2 + y ^ 2) := Real.arctan_nonneg.2 (Real.sqrt_nonneg _)
  refine eq_of_cos d2 ⟨ha, by linarith [Real.arctan_lt_pi_div_two √(x ^ 2 + y ^ 2)]⟩ ?_
  have e := (onPlane_dots ra0 dec0 x y).1
  rw [← g, dot_stretched] at e
  rw [d1, dot_comm', Real.cos_arctan, Real.sq_sqrt h0, ← add_assoc, eq_div_iff hR.ne', mul_comm]
  exact e

theorem arctan_le {r : ℝ} (h : 0 ≤ r) : arctan r ≤ r := by
  rcases h.eq_or_lt with h | h
  · rw [← h, Real.arctan_zero]
  · have h1 : 0 < arctan r := Real.arctan_pos.2 h
    have h2 := Real.lt_tan h1 (Real.arctan_lt_pi_div_two r)
    rw [Real.tan_arctan] at h2
    exact h2.le

/-- What can happen to a dither: it is called, or told of a visit, or of many. -/
inductive DithEv where
  | ask (os : List Dith.Visit) (night : ℤ)
  | told (v : Feat.Vis)
  | toldAll (vs : List Feat.Vis)

noncomputable def dithStep (c : Dith.Cfg) (s : Dith.State) : DithEv → Dith.State
  | .ask os night => (Dith.call c s os night).1
  | .told v => report s v
  | .toldAll vs => reportAll s vs

/-- The memory after a history. -/
noncomputable def dithRun (c : Dith.Cfg) (es : List DithEv) : Dith.State := es.foldl (dithStep c) Dith.State.init

/-- The numbers of the generator are from 0 to 1. -/
def Uni01 {ι : Type} (u : ι → ℕ → ℝ) : Prop := ∀ s k, 0 ≤ u s k ∧ u s k ≤ 1

/-- The offsets in memory belong to the night in memory and are not too large. -/
def DithInv (c : Dith.Cfg) (s : Dith.State) : Prop :=
  (Uni01 c.rng → 0 ≤ c.maxDither → ∀ p ∈ s.offsets, √(p.1 ^ 2 + p.2 ^ 2) ≤ c.maxDither) ∧
  (c.perNight = true → ∀ n, s.night = some n → s.offsets = (draws c n).map offset) ∧
  (∀ n, s.night = some n → s.table = draws c n)

theorem offset_small {c : Dith.Cfg} (hu : Uni01 c.rng) (hm : 0 ≤ c.maxDither) {n : ℤ} {p : ℝ × ℝ} (h : p ∈ draws c n) :
    √((offset p).1 ^ 2 + (offset p).2 ^ 2) ≤ c.maxDither := by
  unfold draws at h
  rw [List.mem_map] at h
  obtain ⟨i, _, rfl⟩ := h
  have hr : ∀ t r : ℝ, (r * cos t) ^ 2 + (r * sin t) ^ 2 = r ^ 2 := by
    intro t r; linear_combination r ^ 2 * Real.cos_sq_add_sin_sq t
  unfold offset
  dsimp only
  rw [hr]
  obtain ⟨u0, u1⟩ := hu (seed c n) (nGen c + i)
  have h1 : √(c.rng (seed c n) (nGen c + i)) ≤ 1 := Real.sqrt_le_one.2 u1
  rw [Real.sqrt_sq (mul_nonneg hm (Real.sqrt_nonneg _))]
  nlinarith

/-- C126: for a hundred years before and after the start of the survey the seeds are ones that the random numbers accept, which have to be non-negative, and no
two nights have the same. -/
theorem C126_seeds (c : Dith.Cfg) (hb : 73050 < c.bigInt) (n m : ℤ) (hn : |n| ≤ 36525) (hm : |m| ≤ 36525) :
    0 ≤ seed c n ∧ (seed c n = seed c m → n = m) := by
  obtain ⟨n1, n2⟩ := abs_le.1 hn
  obtain ⟨m1, m2⟩ := abs_le.1 hm
  unfold seed
  constructor
  · split_ifs <;> omega
  · split_ifs <;> omega

/-- The number that is used without a choice. -/
example : (73050 : ℤ) < 700000 := by decide

theorem fresh_table {c : Dith.Cfg} {s : Dith.State} (h : DithInv c s) (night : ℤ) :
    (fresh c s night).table = draws c night ∧ (fresh c s night).night = some night := by
  unfold fresh
  split
  · rename_i hn
    exact ⟨h.2.2 _ hn, hn⟩
  · exact ⟨rfl, rfl⟩

theorem generate_inv {c : Dith.Cfg} {s : Dith.State} (h : DithInv c s) (n : ℕ) (night : ℤ) :
    DithInv c (generate c s n night) ∧
    (c.perNight = true → (generate c s n night).offsets = (draws c night).map offset) ∧
    (c.perNight = false → (generate c s n night).offsets = (slice (draws c night) s.count.count n).map offset) := by
  obtain ⟨t1, t2⟩ := fresh_table h night
  unfold generate
  cases hp : c.perNight with
  | true =>
    simp only [if_true, reduceCtorEq, false_implies, and_true, true_implies]
    split
    · rename_i hn
      exact ⟨h, h.2.1 hp _ hn⟩
    · refine ⟨⟨fun hu hm p hpm => ?_, fun _ n hn => ?_, fun n hn => ?_⟩, rfl⟩
      · dsimp only at hpm
        rw [List.mem_map] at hpm
        obtain ⟨q, hq, rfl⟩ := hpm
        exact offset_small hu hm hq
      · have e : night = n := by rw [t2] at hn; exact Option.some.inj hn
        rw [e]
      · have e : night = n := by rw [t2] at hn; exact Option.some.inj hn
        exact t1.trans (by rw [e])
  | false =>
    simp only [Bool.false_eq_true, if_false, false_implies, true_and, true_implies]
    refine ⟨⟨fun hu hm p hpm => ?_, fun hx => (by rw [hp] at hx; cases hx), fun n hn => ?_⟩, by rw [t1]⟩
    · dsimp only at hpm
      rw [List.mem_map] at hpm
      obtain ⟨q, hq, rfl⟩ := hpm
      rw [t1] at hq
      exact offset_small hu hm (List.mem_of_mem_drop (List.mem_of_mem_take hq))
    · have e : night = n := by rw [t2] at hn; exact Option.some.inj hn
      exact t1.trans (by rw [e])

theorem dithRun_inv (c : Dith.Cfg) (es : List DithEv) : DithInv c (dithRun c es) := by
  induction es using List.reverseRecOn with
  | nil =>
    refine ⟨fun _ _ p hp => ?_, fun _ n hn => ?_, fun n hn => ?_⟩
    · cases hp
    · cases hn
    · cases hn
  | append_singleton es e ih =>
    unfold dithRun at ih ⊢
    rw [List.foldl_append]
    cases e with
    | ask os night =>
      simp only [List.foldl_cons, List.foldl_nil, dithStep, Dith.call]
      split
      · exact ih
      · exact (generate_inv ih _ _).1
    | told v => exact ih
    | toldAll vs => exact ih

theorem spread_some {α : Type} {n : ℕ} {l r : List α} (h : spread n l = some r) : r.length = n ∧ ∀ a ∈ r, a ∈ l := by
  unfold spread at h
  split at h
  · cases h; exact ⟨‹_›, fun _ h => h⟩
  · split at h
    · cases h
      exact ⟨List.length_replicate, fun a ha => by rw [List.eq_of_mem_replicate ha]; exact List.mem_singleton.2 rfl⟩
    · cases h

theorem forall₂_zipWith {α β γ : Type} {R : α → γ → Prop} {f : α → β → γ} : ∀ {l : List α} {m : List β},
    m.length = l.length → (∀ a ∈ l, ∀ b ∈ m, R a (f a b)) → List.Forall₂ R l (List.zipWith f l m)
  | [], m, _, _ => by simp
  | a :: l, [], h, _ => by simp at h
  | a :: l, b :: m, h, hr => by
    rw [List.zipWith_cons_cons]
    exact List.Forall₂.cons (hr a (by simp) b (by simp))
      (forall₂_zipWith (by simpa using h) (fun x hx y hy => hr x (by simp [hx]) y (by simp [hy])))

/-- C126: whatever happened before, every visit stays within the largest dither of where it was, and only its position is changed. -/
theorem C126_within (c : Dith.Cfg) (hu : Uni01 c.rng) (hm : 0 ≤ c.maxDither) (es : List DithEv) (os r : List Dith.Visit) (night : ℤ)
    (h : (Dith.call c (dithRun c es) os night).2 = some r) :
    List.Forall₂ (fun o o' => sep o.ra o.dec o'.ra o'.dec ≤ c.maxDither ∧ IsLat o'.dec ∧ o' = { o with ra := o'.ra, dec := o'.dec })
      os r := by
  unfold Dith.call at h
  split at h
  · rename_i he
    rw [List.isEmpty_iff] at he
    cases h
    rw [he]
    exact List.Forall₂.nil
  · dsimp only at h
    rw [Option.map_eq_some_iff] at h
    obtain ⟨off, ho, rfl⟩ := h
    obtain ⟨h1, h2⟩ := spread_some ho
    refine forall₂_zipWith h1 (fun o _ p hp => ?_)
    have hsmall := (generate_inv (dithRun_inv c es) os.length night).1.1 hu hm p (h2 p hp)
    refine ⟨?_, ?_, rfl⟩
    · unfold moved
      dsimp only
      rw [sep_toSky]
      exact le_trans (arctan_le (Real.sqrt_nonneg _)) hsmall
    · exact (C124_sky p.1 p.2 o.ra o.dec).2

theorem draws_length (c : Dith.Cfg) (night : ℤ) : (draws c night).length = nGen c := by
  unfold draws; simp

/-- C126: with one offset per night, every visit of a night is moved by the same offset on the sky, whatever happened before: there is one
offset for each night. The call never raises. -/
theorem C126_one_per_night (c : Dith.Cfg) (hp : c.perNight = true) :
    ∃ off : ℤ → ℝ × ℝ, ∀ es os night, ∃ r, (Dith.call c (dithRun c es) os night).2 = some r ∧
      List.Forall₂ (fun o o' => toXY o'.ra o'.dec o.ra o.dec = off night) os r := by
  have hlen : ∀ night, ∃ p, draws c night = [p] := by
    intro night
    have : (draws c night).length = 1 := by rw [draws_length]; unfold nGen; rw [if_pos hp]
    exact List.length_eq_one_iff.1 this
  choose p hpd using hlen
  refine ⟨fun night => offset (p night), fun es os night => ?_⟩
  unfold Dith.call
  split
  · rename_i he
    rw [List.isEmpty_iff] at he
    rw [he]
    exact ⟨[], rfl, List.Forall₂.nil⟩
  · have e := (generate_inv (dithRun_inv c es) os.length night).2.1 hp
    rw [hpd] at e
    simp only [List.map_cons, List.map_nil] at e
    dsimp only
    rw [e]
    have hs : spread os.length [offset (p night)] = some (List.replicate os.length (offset (p night))) := by
      unfold spread
      split
      · rename_i hl
        rw [← hl]; rfl
      · rfl
    rw [hs]
    refine ⟨_, rfl, forall₂_zipWith List.length_replicate (fun o _ q hq => ?_)⟩
    rw [List.eq_of_mem_replicate hq]
    exact C124_back_and_there _ _ _ _

/-- The visits a history tells of, one by one. -/
def toldOf : List DithEv → List Feat.Vis
  | [] => []
  | .told v :: es => v :: toldOf es
  | _ :: es => toldOf es

theorem toldOf_append (a b : List DithEv) : toldOf (a ++ b) = toldOf a ++ toldOf b := by
  induction a with
  | nil => rfl
  | cons e a ih => cases e <;> simp [toldOf, ih]

theorem call_count (c : Dith.Cfg) (s : Dith.State) (os : List Dith.Visit) (night : ℤ) : (Dith.call c s os night).1.count = s.count := by
  unfold Dith.call generate fresh
  split
  · rfl
  · dsimp only
    split <;> split <;> rfl

/-- The counter of the memory has been told exactly the visits of the history. -/
theorem dithRun_count (c : Dith.Cfg) (es : List DithEv) (hb : ∀ vs, DithEv.toldAll vs ∉ es) :
    (dithRun c es).count = (toldOf es).foldl (Feat.NObsCount.one ⟨none, none, true⟩) Feat.NObsCount.init := by
  induction es using List.reverseRecOn with
  | nil => rfl
  | append_singleton es e ih =>
    have ih := ih (fun vs h => hb vs (by simp [h]))
    unfold dithRun at ih ⊢
    rw [List.foldl_append, toldOf_append, List.foldl_append]
    cases e with
    | ask os night =>
      simp only [List.foldl_cons, List.foldl_nil, dithStep, toldOf, call_count]
      exact ih
    | told v =>
      simp only [List.foldl_cons, List.foldl_nil, dithStep, toldOf, report]
      rw [ih]
    | toldAll vs => exact absurd (by simp) (hb vs)

/-- The counter of a night: once a visit of the night was told of, the number of them. -/
theorem nightCount (h : List Feat.Vis) (v : Feat.Vis) (hc : (h ++ [v]).Pairwise (fun a b => a.night ≤ b.night)) :
    (h ++ [v]).foldl (Feat.NObsCount.one ⟨none, none, true⟩) Feat.NObsCount.init =
      ⟨v.night, (h ++ [v]).countP (fun u => decide (u.night = v.night))⟩ := by
  induction h using List.reverseRecOn generalizing v with
  | nil =>
    simp [Feat.NObsCount.one, Feat.NObsCount.init, Feat.NObsCount.bandOne, Feat.NObsCount.noteOk]
    split
    · rename_i h; exact ⟨h.symm, rfl⟩
    · exact ⟨rfl, rfl⟩
  | append_singleton h u ih =>
    have hc' := (List.pairwise_append.1 hc).1
    have hle : ∀ w ∈ h, w.night ≤ u.night := fun w hw => (List.pairwise_append.1 hc').2.2 w hw u (by simp)
    have hlt : u.night ≤ v.night := (List.pairwise_append.1 hc).2.2 u (by simp) v (by simp)
    rw [List.foldl_append, ih u hc', List.countP_append (l₁ := h ++ [u]) (l₂ := [v])]
    simp only [List.foldl_cons, List.foldl_nil, Feat.NObsCount.one, Feat.NObsCount.bandOne, Feat.NObsCount.noteOk,
      Bool.true_and, decide_eq_true_eq, Bool.and_self, if_true]
    by_cases hn : v.night = u.night
    · rw [if_neg (by simp [hn])]
      simp [hn]
    · rw [if_pos hn]
      have : (h ++ [u]).countP (fun w => decide (w.night = v.night)) = 0 := by
        rw [List.countP_eq_zero]
        intro w hw
        rw [List.mem_append, List.mem_singleton] at hw
        simp only [decide_eq_true_eq]
        rcases hw with hw | hw
        · have := hle w hw; omega
        · rw [hw]; omega
      simp [this]

/-- The offsets of a call with an offset per visit, by the count in memory. -/
theorem call_each (c : Dith.Cfg) (hp : c.perNight = false) (s : Dith.State) (hinv : DithInv c s) (os : List Dith.Visit) (night : ℤ) (m : ℕ) (hcount : s.count.count = m)
    (hn : m + os.length ≤ c.nInNight) :
    ∃ r, (Dith.call c s os night).2 = some r ∧ r.length = os.length ∧
      ∀ i o o', os[i]? = some o → r[i]? = some o' → toXY o'.ra o'.dec o.ra o.dec = offset ((draws c night).getD (m + i) (0, 0)) := by
  have hg : nGen c = c.nInNight := by unfold nGen; rw [hp]; rfl
  have hoff := (generate_inv hinv os.length night).2.2 hp
  rw [hcount] at hoff
  have hsl : (slice (draws c night) m os.length).length = os.length := by
    unfold slice
    rw [List.length_take, List.length_drop, draws_length, hg]
    omega
  unfold Dith.call
  split
  · rename_i he
    rw [List.isEmpty_iff] at he
    rw [he]
    exact ⟨[], rfl, rfl, fun i o o' h => by simp at h⟩
  · dsimp only
    rw [hoff]
    have hspread : spread os.length ((slice (draws c night) m os.length).map offset) = some ((slice (draws c night) m os.length).map offset) := by
      unfold spread; rw [if_pos (by rw [List.length_map, hsl])]
    rw [hspread]
    refine ⟨_, rfl, by rw [List.length_zipWith, List.length_map, hsl, min_self], fun i o o' ho ho' => ?_⟩
    rw [List.getElem?_zipWith, ho, List.getElem?_map] at ho'
    cases hq : (slice (draws c night) m os.length)[i]? with
    | none => rw [hq] at ho'; cases ho'
    | some q =>
      rw [hq] at ho'
      cases ho'
      have hq' : (draws c night)[m + i]? = some q := by
        unfold slice at hq
        rw [List.getElem?_take] at hq
        split at hq
        · rw [List.getElem?_drop] at hq; exact hq
        · cases hq
      rw [List.getD_eq_getElem?_getD, hq']
      exact C124_back_and_there _ _ _ _

/-- C126, in part: with an offset per visit, once a visit of the night was taken, the `i`-th visit of a call is moved by the offset whose
number in the night is `i` more than the visits taken in the night; so until the night's numbers are used up no two get the same one.
Missing: the first call of a night, see below, and histories told of in bulk, where the count is not started anew (C33). -/
theorem C126_each_partial (c : Dith.Cfg) (hp : c.perNight = false) :
    ∃ off : ℤ → ℕ → ℝ × ℝ, ∀ es os night v, (∀ vs, DithEv.toldAll vs ∉ es) → (toldOf es).Pairwise (fun a b => a.night ≤ b.night) →
      (toldOf es).getLast? = some v → v.night = night →
      (toldOf es).countP (fun u => decide (u.night = night)) + os.length ≤ c.nInNight →
      ∃ r, (Dith.call c (dithRun c es) os night).2 = some r ∧ r.length = os.length ∧
        ∀ i o o', os[i]? = some o → r[i]? = some o' →
          toXY o'.ra o'.dec o.ra o.dec = off night ((toldOf es).countP (fun u => decide (u.night = night)) + i) := by
  refine ⟨fun night k => offset ((draws c night).getD k (0, 0)), fun es os night v hb hs hl hv hn => ?_⟩
  have hcount : (dithRun c es).count.count = (toldOf es).countP (fun u => decide (u.night = night)) := by
    rw [dithRun_count c es hb]
    obtain ⟨h, e⟩ := List.getLast?_eq_some_iff.1 hl
    rw [e] at hs ⊢
    rw [nightCount h v hs, hv]
  exact call_each c hp _ (dithRun_inv c es) os night _ hcount hn

theorem reportAll_count (vs : List Feat.Vis) (hne : vs ≠ []) (hs : vs.Pairwise (fun a b => a.night ≤ b.night)) :
    (reportAll Dith.State.init vs).count = vs.foldl (Feat.NObsCount.one ⟨none, none, true⟩) Feat.NObsCount.init := by
  obtain ⟨h, v, rfl⟩ : ∃ h v, vs = h ++ [v] := ⟨_, _, (List.dropLast_append_getLast hne).symm⟩
  rw [nightCount h v hs]
  have hmax : Feat.NObsCount.maxNight (h ++ [v]) = some v.night := by
    unfold Feat.NObsCount.maxNight
    rw [List.max?_eq_some_iff]
    refine ⟨by simp, ?_⟩
    intro n hn
    obtain ⟨u, hu, rfl⟩ := List.mem_map.1 hn
    rcases List.mem_append.1 hu with hu | hu
    · exact (List.pairwise_append.1 hs).2.2 u hu v (by simp)
    · rw [List.mem_singleton.1 hu]
  show Feat.NObsCount.bulk ⟨none, none, true⟩ Feat.NObsCount.init (h ++ [v]) = _
  unfold Feat.NObsCount.bulk
  rw [hmax]
  simp [Feat.NObsCount.init, Feat.NObsCount.bandBulk, Feat.NObsCount.noteOk, List.countP_eq_length_filter, beq_eq_decide]

theorem foldl_count (c : Dith.Cfg) (es : List DithEv) (hb : ∀ vs, DithEv.toldAll vs ∉ es) (s : Dith.State) :
    (es.foldl (dithStep c) s).count = (toldOf es).foldl (Feat.NObsCount.one ⟨none, none, true⟩) s.count := by
  induction es generalizing s with
  | nil => rfl
  | cons e es ih =>
    have ih := ih (fun vs h => hb vs (by simp [h]))
    rw [List.foldl_cons, ih]
    cases e with
    | ask os night =>
      show (toldOf es).foldl _ (Dith.call c s os night).1.count = _
      rw [call_count]
      rfl
    | told v => rfl
    | toldAll vs => exact absurd (by simp) (hb vs)

/-- C126, in part, after a restart: the same for a new dither that is first told of all visits made so far in bulk, and then one by one. -/
theorem C126_restored_partial (c : Dith.Cfg) (hp : c.perNight = false) :
    ∃ off : ℤ → ℕ → ℝ × ℝ, ∀ vs es os night v, vs ≠ [] → (∀ us, DithEv.toldAll us ∉ es) → (vs ++ toldOf es).Pairwise (fun a b => a.night ≤ b.night) →
      (vs ++ toldOf es).getLast? = some v → v.night = night →
      (vs ++ toldOf es).countP (fun u => decide (u.night = night)) + os.length ≤ c.nInNight →
      ∃ r, (Dith.call c (dithRun c (.toldAll vs :: es)) os night).2 = some r ∧ r.length = os.length ∧
        ∀ i o o', os[i]? = some o → r[i]? = some o' →
          toXY o'.ra o'.dec o.ra o.dec = off night ((vs ++ toldOf es).countP (fun u => decide (u.night = night)) + i) := by
  refine ⟨fun night k => offset ((draws c night).getD k (0, 0)), fun vs es os night v hne hb hs hl hv hn => ?_⟩
  have hcount : (dithRun c (.toldAll vs :: es)).count.count = (vs ++ toldOf es).countP (fun u => decide (u.night = night)) := by
    unfold dithRun
    rw [List.foldl_cons, foldl_count c es hb]
    show ((toldOf es).foldl _ (reportAll Dith.State.init vs).count).count = _
    rw [reportAll_count vs hne (List.pairwise_append.1 hs).1, ← List.foldl_append]
    obtain ⟨h, e⟩ := List.getLast?_eq_some_iff.1 hl
    rw [e] at hs ⊢
    rw [nightCount h v hs, hv]
  exact call_each c hp _ (dithRun_inv c _) os night _ hcount hn

/-- Two visits told of in bulk and one afterwards: the next visit gets the third offset of the night. -/
example : let vs := [vis 1 0 4 "r" "" [], vis 2 0 5 "r" "" []]
    let es := [DithEv.ask [] 5, .told (vis 3 0 5 "g" "" [])]
    vs ≠ [] ∧ (∀ us, DithEv.toldAll us ∉ es) ∧ (vs ++ toldOf es).Pairwise (fun a b => a.night ≤ b.night) ∧ (vs ++ toldOf es).getLast? = some (vis 3 0 5 "g" "" [])
      ∧ (vs ++ toldOf es).countP (fun u => decide (u.night = 5)) = 2 := by
  refine ⟨by simp, by simp, ?_, rfl, rfl⟩
  show [vis 1 0 4 "r" "" [], vis 2 0 5 "r" "" [], vis 3 0 5 "g" "" []].Pairwise _
  simp [vis]

/-- C126 is violated for the first call of a night: the counter still holds the number of the night before. Here three numbers are drawn
in a night; three visits were taken the night before, and the first two visits of the new night cannot be placed. -/
theorem C126_new_night_violated (rng : ℤ → ℕ → ℝ) (o : Dith.Visit) :
    let c : Dith.Cfg := ⟨1, false, 3, 700000, rng⟩
    let told := [DithEv.told (vis 1 0 1 "r" "" []), .told (vis 2 0 1 "r" "" []), .told (vis 3 0 1 "r" "" [])]
    (Dith.call c (dithRun c told) [o, o] 2).2 = none ∧ (Dith.call c (dithRun c []) [o, o] 2).2 ≠ none := by
  constructor
  · simp [Dith.call, dithRun, dithStep, report, generate, fresh, slice, draws, nGen, spread, Feat.NObsCount.one, Dith.State.init,
      Feat.NObsCount.init, vis, Feat.NObsCount.bandOne, Feat.NObsCount.noteOk, List.range_succ]
  · simp [Dith.call, dithRun, generate, fresh, slice, draws, nGen, spread, Dith.State.init, Feat.NObsCount.init,
      List.range_succ]

/-- A history, a generator and visits that meet the hypotheses: two visits of night 5 were taken. -/
example : let c : Dith.Cfg := ⟨1, false, 1200, 700000, fun _ _ => 1 / 2⟩
    let es := [DithEv.ask [] 5, .told (vis 1 0 5 "r" "" []), .told (vis 2 0 5 "r" "" [])]
    Uni01 c.rng ∧ (toldOf es).Pairwise (fun a b => a.night ≤ b.night) ∧
    (toldOf es).getLast? = some (vis 2 0 5 "r" "" []) ∧ (toldOf es).countP (fun u => decide (u.night = 5)) = 2 := by
  refine ⟨fun _ _ => ⟨by norm_num, by norm_num⟩, ?_, rfl, rfl⟩
  simp [toldOf, vis]

end Verif
