import Verif.Lemmas.CoreFill
import Verif.Lemmas.SimRelate
import Verif.Model.Whole

/-!
Schedulers that differ in surveys that are never feasible, and in the size but not the order of the rewards.
-/

namespace Verif

open XReal

section
variable {C Sv Sv' A : Type}

/-- A rule for rewards that keeps their order, nan and minus infinity. -/
structure Grows (g : XReal → XReal) : Prop where
  nan : g .nan = .nan
  ninf : g .ninf = .ninf
  order : ∀ a b, ltB (g a) (g b) = ltB a b

/-- As far as conditions are as `P` says and surveys as `I` says: the surveys `s` of `E'` with `f s = some v` behave as the surveys `v` of `E`, with rewards of the same
order; those with `f s = none` are never feasible; all surveys stay as `I` says. -/
structure Trimmed (E' : Env C Sv' A) (E : Env C Sv A) (f : Sv' → Option Sv) (g : C → XReal → XReal) (P : C → Prop) (I : Sv' → Prop) : Prop where
  q : E'.q = E.q
  toos : E'.toos = E.toos
  grows : ∀ c, Grows (g c)
  reward : ∀ s c, I s → P c → f (E'.sv.reward s c).2 = (f s).map fun v => (E.sv.reward v c).2
  value : ∀ s v c, I s → P c → f s = some v → scalarReward (E.sv.reward v c).1 = g c (scalarReward (E'.sv.reward s c).1)
  idle : ∀ s c, I s → P c → f s = none → ¬ Feasible E'.sv c s
  gen : ∀ s v c, I s → P c → f s = some v → f (E'.sv.gen s c).2 = some (E.sv.gen v c).2
  rows : ∀ s v c, I s → P c → f s = some v → (E.sv.gen v c).1 = (E'.sv.gen s c).1
  addObs : ∀ s o, I s → f (E'.sv.addObs s o) = (f s).map fun v => E.sv.addObs v o
  update : ∀ s c, I s → P c → f (E'.sv.update s c) = (f s).map fun v => E.sv.update v c
  scheduled : ∀ s, I s → E'.sv.scheduled s = (f s).bind E.sv.scheduled
  stayReward : ∀ s c, I s → P c → I (E'.sv.reward s c).2
  stayGen : ∀ s v c, I s → P c → f s = some v → I (E'.sv.gen s c).2
  stayAdd : ∀ s o, I s → I (E'.sv.addObs s o)
  stayUpdate : ∀ s c, I s → P c → I (E'.sv.update s c)

/-- The surveys that are left, in tiers that are not empty. -/
def trim (f : Sv' → Option Sv) (ts : List (List Sv')) : List (List Sv) := (ts.map (List.filterMap f)).filter fun t => !t.isEmpty

variable {f : Sv' → Option Sv}

theorem trim_append (a b : List (List Sv')) : trim f (a ++ b) = trim f a ++ trim f b := by
  unfold trim
  rw [List.map_append, List.filter_append]

theorem trim_cons_of_ne (t : List Sv') (b : List (List Sv')) (h : t.filterMap f ≠ []) : trim f (t :: b) = t.filterMap f :: trim f b := by
  unfold trim
  rw [List.map_cons, List.filter_cons_of_pos (by simpa using h)]

theorem keep_map {φ : Sv' → Sv'} {ψ : Sv → Sv} (t : List Sv') (h : ∀ s ∈ t, f (φ s) = (f s).map ψ) : (t.map φ).filterMap f = (t.filterMap f).map ψ := by
  induction t with
  | nil => rfl
  | cons s t ih =>
    rw [List.map_cons, List.filterMap_cons, List.filterMap_cons, h s List.mem_cons_self]
    have ih := ih fun x hx => h x (List.mem_cons_of_mem _ hx)
    cases f s with
    | none => exact ih
    | some v => simp [ih]

theorem trim_map {φ : Sv' → Sv'} {ψ : Sv → Sv} (ts : List (List Sv')) (h : ∀ t ∈ ts, ∀ s ∈ t, f (φ s) = (f s).map ψ) :
    trim f (ts.map (List.map φ)) = (trim f ts).map (List.map ψ) := by
  induction ts with
  | nil => rfl
  | cons t ts ih =>
    have ih := ih fun x hx => h x (List.mem_cons_of_mem _ hx)
    have h0 := keep_map t (h t List.mem_cons_self)
    by_cases ht : t.filterMap f = []
    · have h1 : (t.map φ).filterMap f = [] := by rw [h0, ht]; rfl
      unfold trim at ih ⊢
      rw [List.map_cons, List.map_cons, List.filter_cons_of_neg (by simp [h1]), List.map_cons, List.filter_cons_of_neg (by simp [ht])]
      exact ih
    · have h1 : (t.map φ).filterMap f ≠ [] := by
        rw [h0]
        simpa using ht
      rw [List.map_cons, trim_cons_of_ne _ _ h1, trim_cons_of_ne _ _ ht, List.map_cons, ih, h0]

theorem trim_flatten (ts : List (List Sv')) : (trim f ts).flatten = ts.flatten.filterMap f := by
  induction ts with
  | nil => rfl
  | cons t ts ih =>
    rw [List.flatten_cons, List.filterMap_append, ← ih]
    by_cases ht : t.filterMap f = []
    · rw [ht]
      unfold trim
      rw [List.map_cons, List.filter_cons_of_neg (by simp [ht])]
      rfl
    · rw [trim_cons_of_ne _ _ ht]
      rfl

theorem mem_trim {t : List Sv} {ts : List (List Sv')} (h : t ∈ trim f ts) : t ≠ [] ∧ ∃ t' ∈ ts, t'.filterMap f = t := by
  obtain ⟨h1, h2⟩ := List.mem_filter.1 h
  exact ⟨by simpa using h2, List.mem_map.1 h1⟩

/-! ### Rewards -/

theorem Grows.dead {g : XReal → XReal} (h : Grows g) (r : XReal) : Dead (g r) ↔ Dead r := by
  rw [dead_iff, dead_iff, ← h.order .ninf r, h.ninf]

theorem Grows.le {g : XReal → XReal} (h : Grows g) {a b : XReal} (ha : a ≠ .nan) (hb : b ≠ .nan) (hab : leB a b = true) : leB (g a) (g b) = true := by
  have hn : ∀ x, x ≠ .nan → g x ≠ .nan := by
    intro x hx hg
    by_cases h1 : x = .ninf
    · rw [h1, h.ninf] at hg; cases hg
    · have h2 : ltB .ninf x = true := by cases x <;> simp_all [ltB]
      have h3 := h.order .ninf x
      rw [hg, h2] at h3
      rw [h.ninf] at h3
      cases h3
  rcases leB_total (a := g a) (b := g b) (by cases hx : g a <;> simp_all [isNan]) (by cases hx : g b <;> simp_all [isNan]) with h1 | h1
  · exact h1
  · by_cases he : g b = g a
    · rw [he] at h1 ⊢; exact h1
    · have h2 := ltB_of_leB_ne h1 he
      rw [h.order] at h2
      exfalso
      cases a <;> cases b <;> simp_all [ltB, leB]
      linarith

/-- With a survey that is feasible there is a best one. -/
theorem bestIndex_some {rs : List XReal} (hal : ∃ r ∈ rs, ¬ Dead r) : ∃ j, bestIndex (rs.map fixNan) = some j := by
  obtain ⟨r, hr, hd⟩ := hal
  have hmem : r ∈ rs.map fixNan := by
    refine List.mem_map.2 ⟨r, hr, ?_⟩
    unfold fixNan
    rw [if_neg]
    rw [isNan_iff]
    exact fun h => hd (.inl h)
  unfold bestIndex
  cases hm : nanmax (rs.map fixNan) with
  | none =>
    rw [nanmax_none hm] at hmem
    cases hmem
  | some m =>
    dsimp only
    rcases nanmax_max hm with ⟨-, h⟩ | ⟨h1, h2, -⟩
    · exact absurd (.inl (h r hmem)) hd
    · cases hf : (rs.map fixNan).findIdx? (fun r => eqB r m) with
      | some j => exact ⟨j, rfl⟩
      | none =>
        rw [List.findIdx?_eq_none_iff] at hf
        have := hf m h2
        exfalso
        cases m <;> simp_all [eqB]

/-- Tiers that are not empty can all be looked at. -/
theorem tierLoop_total (ops : SurveyOps C Sv) (c : C) (ts : List (List Sv)) (h : ∀ t ∈ ts, t ≠ []) :
    ∀ n, ∃ rs brk ts', tierLoop ops c n ts = .ok (rs, brk, ts') ∧ (ts ≠ [] → rs ≠ []) := by
  induction ts with
  | nil => exact fun n => ⟨_, _, _, rfl, fun h => absurd rfl h⟩
  | cons t ts ih =>
    intro n
    have hne : (evalTier ops c t).1 ≠ [] := by
      have := h t List.mem_cons_self
      unfold evalTier
      simpa using this
    cases hm : nanmax (evalTier ops c t).1 with
    | none => exact absurd (nanmax_none hm) hne
    | some m =>
      unfold tierLoop
      dsimp only
      rw [hm]
      dsimp only
      by_cases h1 : ltB .ninf m = true
      · rw [if_pos h1]
        exact ⟨_, _, _, rfl, fun _ => hne⟩
      · rw [if_neg h1]
        obtain ⟨rs, brk, ts', e, he⟩ := ih (fun t ht => h t (List.mem_cons_of_mem _ ht)) (n + 1)
        rw [e]
        refine ⟨_, _, _, rfl, fun _ => ?_⟩
        cases ts with
        | nil => exact hne
        | cons t2 ts => exact he (by simp)

variable {E' : Env C Sv' A} {E : Env C Sv A} {g : C → XReal → XReal} {P : C → Prop} {I : Sv' → Prop}

theorem Trimmed.feasible (h : Trimmed E' E f g P I) {s : Sv'} {v : Sv} (c : C) (hi : I s) (hp : P c) (hs : f s = some v) : Feasible E.sv c v ↔ Feasible E'.sv c s := by
  rw [← not_iff_not, not_feasible_iff, not_feasible_iff, h.value s v c hi hp hs, (h.grows c).dead]

/-- The best survey of a tier is the best one of those left. -/
theorem best_trim (h : Trimmed E' E f g P I) (c : C) (hp : P c) (t : List Sv') (hI : ∀ s ∈ t, I s) {i : ℕ} (hi : bestIndex ((evalTier E'.sv c t).1.map fixNan) = some i)
    (hal : ∃ s ∈ t, Feasible E'.sv c s) :
    ∃ a s b v, t = a ++ s :: b ∧ a.length = i ∧ f s = some v ∧ bestIndex ((evalTier E.sv c (t.filterMap f)).1.map fixNan) = some (a.filterMap f).length := by
  have halive : ∃ r ∈ (evalTier E'.sv c t).1, ¬ Dead r := by
    obtain ⟨s, hs, hf⟩ := hal
    refine ⟨_, List.mem_map_of_mem hs, ?_⟩
    rw [← not_feasible_iff]
    exact not_not.2 hf
  obtain ⟨r, hr, hd, hmax, hfirst⟩ := bestIndex_spec hi halive
  have hr : (t.map fun s => scalarReward (E'.sv.reward s c).1)[i]? = some r := hr
  rw [List.getElem?_map] at hr
  obtain ⟨s, hs, hsr⟩ := Option.map_eq_some_iff.1 hr
  obtain ⟨hlt, hget⟩ := List.getElem?_eq_some_iff.1 hs
  have ht : t = t.take i ++ s :: t.drop (i + 1) := by
    rw [← hget, ← List.drop_eq_getElem_cons hlt, List.take_append_drop]
  have hlen : (t.take i).length = i := by rw [List.length_take]; omega
  have hIs : I s := hI s (List.mem_of_getElem? hs)
  have hfs : f s ≠ none := by
    intro hn
    have := h.idle s c hIs hp hn
    rw [not_feasible_iff, hsr] at this
    exact hd this
  obtain ⟨v, hv⟩ := Option.ne_none_iff_exists'.1 hfs
  refine ⟨t.take i, s, t.drop (i + 1), v, ht, hlen, hv, ?_⟩
  -- the survey left is the best one
  have hvr : scalarReward (E.sv.reward v c).1 = g c r := by rw [h.value s v c hIs hp hv, hsr]
  have hkeep : t.filterMap f = (t.take i).filterMap f ++ v :: (t.drop (i + 1)).filterMap f := by
    conv_lhs => rw [ht]
    rw [List.filterMap_append, List.filterMap_cons, hv]
  have hdg : ¬ Dead (g c r) := by rw [(h.grows c).dead]; exact hd
  have hat : (evalTier E.sv c (t.filterMap f)).1[((t.take i).filterMap f).length]? = some (g c r) := by
    show ((t.filterMap f).map fun s => scalarReward (E.sv.reward s c).1)[_]? = _
    rw [hkeep, List.map_append, List.getElem?_append_right (by simp)]
    simp [hvr]
  have halive2 : ∃ r ∈ (evalTier E.sv c (t.filterMap f)).1, ¬ Dead r := ⟨_, List.mem_of_getElem? hat, hdg⟩
  obtain ⟨j, hj⟩ := bestIndex_some halive2
  obtain ⟨r2, hr2, hd2, hmax2, hfirst2⟩ := bestIndex_spec hj halive2
  rw [hj]
  congr 1
  have hrn : r ≠ .nan := fun e => hd (.inl e)
  have hle2 : leB (g c r) r2 = true := (hmax2 _ (List.mem_of_getElem? hat)).resolve_left fun e => hdg (.inl e)
  rcases lt_trichotomy j ((t.take i).filterMap f).length with hlt2 | heq | hgt
  · -- an earlier one is worse
    exfalso
    have hr2' : ((t.filterMap f).map fun s => scalarReward (E.sv.reward s c).1)[j]? = some r2 := hr2
    rw [hkeep, List.map_append, List.getElem?_append_left (by simpa using hlt2), List.getElem?_map] at hr2'
    obtain ⟨v2, hv2, hv2r⟩ := Option.map_eq_some_iff.1 hr2'
    obtain ⟨s2, hs2, hf2⟩ := List.mem_filterMap.1 (List.mem_of_getElem? hv2)
    obtain ⟨k, hk⟩ := List.mem_iff_getElem?.1 hs2
    obtain ⟨hk1, -⟩ := List.getElem?_eq_some_iff.1 hk
    rw [hlen] at hk1
    rw [List.getElem?_take, if_pos hk1] at hk
    have hval := h.value s2 v2 c (hI s2 (List.mem_of_mem_take hs2)) hp hf2
    rw [hv2r] at hval
    have hb := hfirst k hk1 (scalarReward (E'.sv.reward s2 c).1) (by
      show (t.map fun s => scalarReward (E'.sv.reward s c).1)[k]? = _
      rw [List.getElem?_map, hk]; rfl)
    rcases hb with hb | hb
    · rw [hb, (h.grows c).nan] at hval
      exact hd2 (.inl hval)
    · rw [← (h.grows c).order, ← hval] at hb
      revert hle2 hb
      cases r2 <;> cases g c r <;> simp [ltB, leB]
  · exact heq
  · exfalso
    rcases hfirst2 _ hgt _ hat with hb | hb
    · exact hdg (.inl hb)
    · have hr2' : ((t.filterMap f).map fun s => scalarReward (E.sv.reward s c).1)[j]? = some r2 := hr2
      rw [List.getElem?_map] at hr2'
      obtain ⟨v2, hv2, hv2r⟩ := Option.map_eq_some_iff.1 hr2'
      obtain ⟨s2, hs2, hf2⟩ := List.mem_filterMap.1 (List.mem_of_getElem? hv2)
      have hval := h.value s2 v2 c (hI s2 hs2) hp hf2
      rw [hv2r] at hval
      rw [hval, (h.grows c).order] at hb
      rcases hmax _ (List.mem_map_of_mem (f := fun s => scalarReward (E'.sv.reward s c).1) hs2) with hm | hm
      · rw [hm] at hb
        cases r <;> simp [ltB] at hb
      · revert hb hm
        generalize scalarReward (E'.sv.reward s2 c).1 = x
        cases x <;> cases r <;> simp [ltB, leB]

/-! ### The scheduler -/

/-- The same scheduler with the surveys that are left; the place of the last survey chosen may differ. -/
structure SameLeft (f : Sv' → Option Sv) (P : C → Prop) (I : Sv' → Prop) (s' : Core C Sv' A) (s : Core C Sv A) : Prop where
  qm : s'.qm = s.qm
  tiers : s.tiers = trim f s'.tiers
  counter : s'.counter = s.counter
  conditions : s'.conditions = s.conditions
  scheduled : s'.scheduled = s.scheduled
  flushToo : s'.flushForNewToo = s.flushForNewToo
  ids : s'.tooIds = s.tooIds
  dict : s'.bandToFilter = s.bandToFilter
  full : ∀ t ∈ s'.tiers, t ≠ []
  some : s.tiers ≠ []
  good : ∀ t ∈ s'.tiers, ∀ v ∈ t, I v
  known : ∀ c, s'.conditions = Option.some c → P c

/-- Both raise, or both answer the same and are alike afterwards. -/
def LeftOut {β : Type} (f : Sv' → Option Sv) (P : C → Prop) (I : Sv' → Prop) (r' : Except Err (Core C Sv' A × β)) (r : Except Err (Core C Sv A × β)) : Prop :=
  match r', r with
  | .error _, .error _ => True
  | .ok x', .ok x => SameLeft f P I x'.1 x.1 ∧ x'.2 = x.2
  | _, _ => False

theorem dead_max {rs : List XReal} {m : XReal} (hm : nanmax rs = some m) (h : ∀ r ∈ rs, Dead r) : m = .ninf ∨ m = .nan := by
  rcases nanmax_max hm with ⟨e, -⟩ | ⟨-, h2, -⟩
  · exact .inr e
  · exact (h m h2).symm

theorem alive_max {rs : List XReal} {m : XReal} (hm : nanmax rs = some m) (h : ∃ r ∈ rs, ¬ Dead r) : ¬ (m = .ninf ∨ m = .nan) := by
  obtain ⟨r, hr, hd⟩ := h
  rcases nanmax_max hm with ⟨-, h2⟩ | ⟨h1, -, h3⟩
  · exact absurd (.inl (h2 r hr)) hd
  · rintro (e | e)
    · rcases h3 r hr with h | h
      · exact hd (.inl h)
      · rw [e] at h
        exact hd (.inr (by cases r <;> simp_all [leB]))
    · exact h1 e

/-- What is done with the survey chosen. -/
def Core.take (E : Env C Sv A) (s : Core C Sv A) (c : C) (ts : List (List Sv)) (tier : List Sv) (sv : Sv) (i j : ℕ) : Except Err (Core C Sv A × List Ev) :=
  match fillFilters s.bandToFilter (tagIds s.counter (E.sv.gen sv c).1) with
  | .error e => .error e
  | .ok filled => .ok ({ s with tiers := ts.set i (tier.set j (E.sv.gen sv c).2), surveyIndex := (some i, some j), counter := s.counter + (E.sv.gen sv c).1.length,
                                qm := s.qm.setQueue filled }, filled.map fun o => .assigned o.targetId)

theorem fillQueue_flush {s : Core C Sv A} {c : C} (hc : s.conditions = some c) {rs : List XReal} {brk : Option ℕ} {ts' : List (List Sv)} {m : XReal}
    (hl : tierLoop E.sv c 0 s.tiers = .ok (rs, brk, ts')) (hm : nanmax rs = some m) (hd : m = .ninf ∨ m = .nan) :
    s.fillQueue E = .ok (({ s with tiers := ts' } : Core C Sv A).flush, []) := by
  unfold Core.fillQueue
  rw [hc]
  dsimp only
  rw [hl]
  dsimp only
  rw [hm]
  dsimp only
  rw [if_pos hd]

theorem fillQueue_take {s : Core C Sv A} {c : C} (hc : s.conditions = some c) {rs : List XReal} {i j : ℕ} {ts' : List (List Sv)} {m : XReal} {tier : List Sv} {sv : Sv}
    (hl : tierLoop E.sv c 0 s.tiers = .ok (rs, some i, ts')) (hm : nanmax rs = some m) (hd : ¬ (m = .ninf ∨ m = .nan)) (hj : bestIndex (rs.map fixNan) = some j)
    (ht : ts'[i]? = some tier) (hsv : tier[j]? = some sv) : s.fillQueue E = s.take E c ts' tier sv i j := by
  unfold Core.fillQueue Core.take
  rw [hc]
  dsimp only
  rw [hl]
  dsimp only
  rw [hm]
  dsimp only
  rw [if_neg hd, hj]
  dsimp only
  rw [ht]
  dsimp only
  rw [hsv]
  rfl

theorem fillQueue_left (h : Trimmed E' E f g P I) {s' : Core C Sv' A} {s : Core C Sv A} (ha : SameLeft f P I s' s) : LeftOut f P I (s'.fillQueue E') (s.fillQueue E) := by
  cases hc : s.conditions with
  | none =>
    have hc' := ha.conditions.trans hc
    unfold Core.fillQueue
    rw [hc, hc']
    trivial
  | some c =>
  have hc' : s'.conditions = some c := ha.conditions.trans hc
  have hp : P c := ha.known c hc'
  have hne' : s'.tiers ≠ [] := by
    intro e
    apply ha.some
    rw [ha.tiers, e]
    rfl
  have hfull : ∀ t ∈ s.tiers, t ≠ [] := by
    intro t ht
    rw [ha.tiers] at ht
    exact (mem_trim ht).1
  obtain ⟨rs', brk', ts', hl', hr'⟩ := tierLoop_total E'.sv c s'.tiers ha.full 0
  obtain ⟨rs, brk, ts, hl, hr⟩ := tierLoop_total E.sv c s.tiers hfull 0
  obtain ⟨m', hm'⟩ : ∃ m, nanmax rs' = some m := by
    cases e : nanmax rs' with
    | none => exact absurd (nanmax_none e) (hr' hne')
    | some m => exact ⟨m, rfl⟩
  obtain ⟨m, hm⟩ : ∃ m, nanmax rs = some m := by
    cases e : nanmax rs with
    | none => exact absurd (nanmax_none e) (hr ha.some)
    | some m => exact ⟨m, rfl⟩
  have hev : ∀ ts0 : List (List Sv'), (∀ t ∈ ts0, t ∈ s'.tiers) → trim f (ts0.map fun t => (evalTier E'.sv c t).2) = (trim f ts0).map fun t => (evalTier E.sv c t).2 :=
    fun ts0 h0 => trim_map (f := f) ts0 fun t ht s hs => h.reward s c (ha.good t (h0 t ht) s hs) hp
  have hstay : ∀ t ∈ s'.tiers, ∀ v ∈ (evalTier E'.sv c t).2, I v := by
    intro t ht v hv
    obtain ⟨v0, h0, rfl⟩ := List.mem_map.1 hv
    exact h.stayReward v0 c (ha.good t ht v0 h0) hp
  rcases tierLoop_spec E'.sv c 0 s'.tiers hl' with ⟨-, hinf, ht', hdead'⟩ | ⟨k, t, hb, hk, hbefore, halive, hrs', ht'⟩
  · -- nothing is feasible
    have hinf2 : ∀ t ∈ s.tiers, ∀ v ∈ t, ¬ Feasible E.sv c v := by
      intro t ht v hv
      rw [ha.tiers] at ht
      obtain ⟨-, t0, ht0, rfl⟩ := mem_trim ht
      obtain ⟨s0, hs0, hf0⟩ := List.mem_filterMap.1 hv
      rw [h.feasible c (ha.good t0 ht0 s0 hs0) hp hf0]
      exact hinf t0 ht0 s0 hs0
    rcases tierLoop_spec E.sv c 0 s.tiers hl with ⟨-, -, ht, hdead⟩ | ⟨k, t, -, hk, -, ⟨v, hv, hfv⟩, -⟩
    · rw [fillQueue_flush hc' hl' hm' (dead_max hm' (hdead' hne')), fillQueue_flush hc hl hm (dead_max hm (hdead ha.some))]
      refine ⟨⟨by show s'.qm.flush = s.qm.flush; rw [ha.qm], ?_, ha.counter, ha.conditions, ha.scheduled, ha.flushToo, ha.ids, ha.dict, ?_, ?_, ?_, ha.known⟩, rfl⟩
      · show ts = trim f ts'
        rw [ht, ht', hev _ fun _ h => h, ha.tiers]
      · show ∀ t ∈ ts', t ≠ []
        rw [ht']
        intro t h1
        obtain ⟨t0, h0, rfl⟩ := List.mem_map.1 h1
        have := ha.full t0 h0
        unfold evalTier
        simpa using this
      · show ts ≠ []
        rw [ht]
        simpa using ha.some
      · show ∀ t ∈ ts', ∀ v ∈ t, I v
        rw [ht']
        intro t h1
        obtain ⟨t0, h0, rfl⟩ := List.mem_map.1 h1
        exact hstay t0 h0
    · exact absurd hfv (hinf2 t (List.mem_of_getElem? hk) v hv)
  · -- the first feasible tier
    obtain ⟨hklt, hkget⟩ := List.getElem?_eq_some_iff.1 hk
    have hsplit : s'.tiers = s'.tiers.take k ++ t :: s'.tiers.drop (k + 1) := by
      rw [← hkget, ← List.drop_eq_getElem_cons hklt, List.take_append_drop]
    obtain ⟨sv0, hsv0, hfeas0⟩ := halive
    have hIt : ∀ v ∈ t, I v := ha.good t (List.mem_of_getElem? hk)
    have hI0 := hIt sv0 hsv0
    have hkept : t.filterMap f ≠ [] := by
      cases hf0 : f sv0 with
      | none => exact absurd hfeas0 (h.idle _ _ hI0 hp hf0)
      | some v =>
        intro e
        have : v ∈ t.filterMap f := List.mem_filterMap.2 ⟨sv0, hsv0, hf0⟩
        rw [e] at this
        cases this
    have hsmall : s.tiers = trim f (s'.tiers.take k) ++ t.filterMap f :: trim f (s'.tiers.drop (k + 1)) := by
      rw [ha.tiers]
      conv_lhs => rw [hsplit]
      rw [trim_append, trim_cons_of_ne _ _ hkept]
    have halive2 : ∃ v ∈ t.filterMap f, Feasible E.sv c v := by
      cases hf0 : f sv0 with
      | none => exact absurd hfeas0 (h.idle _ _ hI0 hp hf0)
      | some v => exact ⟨v, List.mem_filterMap.2 ⟨sv0, hsv0, hf0⟩, (h.feasible c hI0 hp hf0).2 hfeas0⟩
    have hbefore2 : ∀ t0 ∈ trim f (s'.tiers.take k), ∀ v ∈ t0, ¬ Feasible E.sv c v := by
      intro t0 ht0 v hv
      obtain ⟨-, t1, ht1, rfl⟩ := mem_trim ht0
      obtain ⟨s1, hs1, hf1⟩ := List.mem_filterMap.1 hv
      rw [h.feasible c (ha.good t1 (List.mem_of_mem_take ht1) s1 hs1) hp hf1]
      obtain ⟨i, hi⟩ := List.mem_iff_getElem?.1 ht1
      obtain ⟨hi1, -⟩ := List.getElem?_eq_some_iff.1 hi
      rw [List.length_take] at hi1
      rw [List.getElem?_take, if_pos (by omega)] at hi
      exact hbefore i (by omega) t1 hi s1 hs1
    have hplace : s.tiers[(trim f (s'.tiers.take k)).length]? = some (t.filterMap f) := by
      rw [hsmall, List.getElem?_append_right le_rfl, Nat.sub_self]
      rfl
    rcases tierLoop_spec E.sv c 0 s.tiers hl with ⟨-, hinf, -⟩ | ⟨k2, t2, hb2, hk2, hbefore3, halive3, hrs, ht⟩
    · obtain ⟨v, hv, hfv⟩ := halive2
      exact absurd hfv (hinf _ (List.mem_of_getElem? hplace) v hv)
    · have hk2e : k2 = (trim f (s'.tiers.take k)).length := by
        rcases lt_trichotomy k2 (trim f (s'.tiers.take k)).length with hlt | heq | hgt
        · exfalso
          rw [hsmall, List.getElem?_append_left hlt] at hk2
          obtain ⟨v, hv, hfv⟩ := halive3
          exact hbefore2 t2 (List.mem_of_getElem? hk2) v hv hfv
        · exact heq
        · exfalso
          obtain ⟨v, hv, hfv⟩ := halive2
          exact hbefore3 _ hgt _ hplace v hv hfv
      subst hk2e
      have ht2 : t2 = t.filterMap f := by
        rw [hplace] at hk2
        exact (Option.some.inj hk2).symm
      subst ht2
      have hal' : ∃ r ∈ rs', ¬ Dead r := by
        rw [hrs']
        refine ⟨_, List.mem_map_of_mem hsv0, ?_⟩
        rw [← not_feasible_iff]
        exact not_not.2 hfeas0
      obtain ⟨i, hi⟩ := bestIndex_some hal'
      have hi0 := hi
      rw [hrs'] at hi0
      obtain ⟨a, sv, b, v, htab, hlen, hfv, hj⟩ := best_trim h c hp t hIt hi0 ⟨sv0, hsv0, hfeas0⟩
      rw [← hrs] at hj
      have hal : ∃ r ∈ rs, ¬ Dead r := by
        rw [hrs]
        obtain ⟨v, hv, hfv⟩ := halive2
        refine ⟨_, List.mem_map_of_mem hv, ?_⟩
        rw [← not_feasible_iff]
        exact not_not.2 hfv
      have hIsv : I sv := hIt sv (by rw [htab]; simp)
      have hIa : ∀ x ∈ a, I x := fun x hx => hIt x (by rw [htab]; simp [hx])
      have hIb : ∀ x ∈ b, I x := fun x hx => hIt x (by rw [htab]; simp [hx])
      set φ : Sv' → Sv' := fun s => (E'.sv.reward s c).2 with hφ
      set ψ : Sv → Sv := fun s => (E.sv.reward s c).2 with hψ
      have htier' : (evalTier E'.sv c t).2 = a.map φ ++ φ sv :: b.map φ := by
        show t.map φ = _
        rw [htab, List.map_append, List.map_cons]
      have htier : (evalTier E.sv c (t.filterMap f)).2 = (a.filterMap f).map ψ ++ ψ v :: (b.filterMap f).map ψ := by
        show (t.filterMap f).map ψ = _
        rw [htab, List.filterMap_append, List.filterMap_cons, hfv, List.map_append]
        rfl
      have hlenk : ((s'.tiers.take k).map fun t => (evalTier E'.sv c t).2).length = k := by
        rw [List.length_map, List.length_take]; omega
      have hq' : ts'[k]? = some (evalTier E'.sv c t).2 := by
        rw [ht', List.getElem?_append_right (by rw [hlenk]), hlenk, Nat.sub_self]
        rfl
      have hfirst : s.tiers.take (trim f (s'.tiers.take k)).length = trim f (s'.tiers.take k) := by
        rw [hsmall, List.take_append_of_le_length le_rfl, List.take_length]
      have hlast : s.tiers.drop ((trim f (s'.tiers.take k)).length + 1) = trim f (s'.tiers.drop (k + 1)) := by
        rw [hsmall, List.drop_append, List.drop_eq_nil_of_le (by omega), Nat.add_sub_cancel_left]
        rfl
      rw [hfirst, hlast] at ht
      have hlenK : ((trim f (s'.tiers.take k)).map fun t => (evalTier E.sv c t).2).length = (trim f (s'.tiers.take k)).length := List.length_map ..
      have hq : ts[(trim f (s'.tiers.take k)).length]? = some (evalTier E.sv c (t.filterMap f)).2 := by
        rw [ht, List.getElem?_append_right (by rw [hlenK]), hlenK, Nat.sub_self]
        rfl
      have hs1' : (evalTier E'.sv c t).2[i]? = some (φ sv) := by
        rw [htier', List.getElem?_append_right (by simp [hlen]), List.length_map, hlen, Nat.sub_self]
        rfl
      have hs1 : (evalTier E.sv c (t.filterMap f)).2[(a.filterMap f).length]? = some (ψ v) := by
        rw [htier, List.getElem?_append_right (by simp), List.length_map, Nat.sub_self]
        rfl
      rw [hb, Nat.zero_add] at hl'
      rw [hb2, Nat.zero_add] at hl
      rw [fillQueue_take hc' hl' hm' (alive_max hm' hal') hi hq' hs1', fillQueue_take hc hl hm (alive_max hm hal) hj hq hs1]
      have hfφ : f (φ sv) = some (ψ v) := by rw [hφ, h.reward sv c hIsv hp, hfv]; rfl
      have hIφ : I (φ sv) := h.stayReward sv c hIsv hp
      unfold Core.take
      rw [h.rows (φ sv) (ψ v) c hIφ hp hfφ, ha.dict, ha.counter]
      cases fillFilters s.bandToFilter (tagIds s.counter (E'.sv.gen (φ sv) c).1) with
      | error e => trivial
      | ok filled =>
        have hset' : ts'.set k ((evalTier E'.sv c t).2.set i (E'.sv.gen (φ sv) c).2)
            = ((s'.tiers.take k).map fun t => (evalTier E'.sv c t).2) ++ (a.map φ ++ (E'.sv.gen (φ sv) c).2 :: b.map φ) :: s'.tiers.drop (k + 1) := by
          rw [ht', List.set_append_right _ _ (by rw [hlenk]), hlenk, Nat.sub_self, List.set_cons_zero, htier',
            List.set_append_right _ _ (by simp [hlen]), List.length_map, hlen, Nat.sub_self, List.set_cons_zero]
        have hset : ts.set (trim f (s'.tiers.take k)).length ((evalTier E.sv c (t.filterMap f)).2.set (a.filterMap f).length (E.sv.gen (ψ v) c).2)
            = ((trim f (s'.tiers.take k)).map fun t => (evalTier E.sv c t).2) ++ ((a.filterMap f).map ψ ++ (E.sv.gen (ψ v) c).2 :: (b.filterMap f).map ψ)
              :: trim f (s'.tiers.drop (k + 1)) := by
          rw [ht, List.set_append_right _ _ (by rw [hlenK]), hlenK, Nat.sub_self, List.set_cons_zero, htier,
            List.set_append_right _ _ (by simp), List.length_map, Nat.sub_self, List.set_cons_zero]
        have hmid : (a.map φ ++ (E'.sv.gen (φ sv) c).2 :: b.map φ).filterMap f = (a.filterMap f).map ψ ++ (E.sv.gen (ψ v) c).2 :: (b.filterMap f).map ψ := by
          rw [List.filterMap_append, List.filterMap_cons, h.gen _ _ _ hIφ hp hfφ, keep_map a fun s hs => h.reward s c (hIa s hs) hp, keep_map b fun s hs => h.reward s c (hIb s hs) hp]
        refine ⟨⟨by show s'.qm.setQueue filled = s.qm.setQueue filled; rw [ha.qm], ?_, rfl, ha.conditions, ha.scheduled, ha.flushToo, ha.ids, ?_, ?_, ?_, ?_, ha.known⟩, rfl⟩
        · dsimp only
          rw [hset, hset', trim_append, trim_cons_of_ne _ _ (by rw [hmid]; simp), hmid, hev _ fun _ h => List.mem_of_mem_take h]
        · rfl
        · dsimp only
          rw [hset']
          intro t0 ht0
          rcases List.mem_append.1 ht0 with h0 | h0
          · obtain ⟨t1, h1, rfl⟩ := List.mem_map.1 h0
            have := ha.full t1 (List.mem_of_mem_take h1)
            unfold evalTier
            simpa using this
          · rcases List.mem_cons.1 h0 with rfl | h0
            · simp
            · exact ha.full t0 (List.mem_of_mem_drop h0)
        · dsimp only
          rw [hset]
          simp
        · dsimp only
          rw [hset']
          intro t0 ht0
          rcases List.mem_append.1 ht0 with h0 | h0
          · obtain ⟨t1, h1, rfl⟩ := List.mem_map.1 h0
            exact hstay t1 (List.mem_of_mem_take h1)
          · rcases List.mem_cons.1 h0 with rfl | h0
            · intro x hx
              simp only [List.mem_append, List.mem_cons, List.mem_map] at hx
              rcases hx with ⟨y, hy, rfl⟩ | rfl | ⟨y, hy, rfl⟩
              · exact h.stayReward y c (hIa y hy) hp
              · exact h.stayGen _ _ c hIφ hp hfφ
              · exact h.stayReward y c (hIb y hy) hp
            · exact ha.good t0 (List.mem_of_mem_drop h0)

theorem SameLeft.queue {s' : Core C Sv' A} {s : Core C Sv A} (h : SameLeft f P I s' s) {q' q : QM A} (hq : q' = q) : SameLeft f P I { s' with qm := q' } { s with qm := q } :=
  ⟨hq, h.tiers, h.counter, h.conditions, h.scheduled, h.flushToo, h.ids, h.dict, h.full, h.some, h.good, h.known⟩

theorem request_left (h : Trimmed E' E f g P I) {s' : Core C Sv' A} {s : Core C Sv A} (ha : SameLeft f P I s' s) (x : Option ℚ) (whole : Bool) :
    LeftOut f P I (s'.request E' x whole) (s.request E x whole) := by
  unfold Core.request
  rw [ha.conditions]
  cases s.conditions with
  | none => trivial
  | some c =>
    dsimp only
    have hfirst : LeftOut f P I (if s'.qm.nonePending then s'.fillQueue E' else .ok (s', [])) (if s.qm.nonePending then s.fillQueue E else .ok (s, [])) := by
      rw [ha.qm]
      split_ifs
      · exact fillQueue_left h ha
      · exact ⟨ha, rfl⟩
    generalize (if s'.qm.nonePending then s'.fillQueue E' else .ok (s', [])) = r' at hfirst
    generalize (if s.qm.nonePending then s.fillQueue E else .ok (s, [])) = r at hfirst
    match r', r, hfirst with
    | .error _, .error _, _ => trivial
    | .ok (s1', ev'), .ok (s1, ev), ⟨h1, (hev : ev' = ev)⟩ =>
      subst hev
      dsimp only at h1 ⊢
      rw [h1.qm, h.q]
      by_cases hp : s1.qm.nonePending = true
      · rw [if_pos hp, if_pos hp]
        exact ⟨h1, rfl⟩
      · rw [if_neg hp, if_neg hp]
        by_cases hl : (s1.qm.request E.q c whole).1.length = 0
        · rw [if_pos hl, if_pos hl]
          have h2 := fillQueue_left h (h1.queue (q' := (s1.qm.request E.q c whole).2.flush) rfl)
          generalize ({ s1' with qm := (s1.qm.request E.q c whole).2.flush } : Core C Sv' A).fillQueue E' = r' at h2
          generalize ({ s1 with qm := (s1.qm.request E.q c whole).2.flush } : Core C Sv A).fillQueue E = r at h2
          match r', r, h2 with
          | .error _, .error _, _ => trivial
          | .ok (s3', ev3'), .ok (s3, ev3), ⟨h3, (hev3 : ev3' = ev3)⟩ =>
            subst hev3
            dsimp only at h3 ⊢
            rw [h3.qm]
            by_cases hl2 : (s3.qm.request E.q c whole).1.length = 0
            · rw [if_pos hl2, if_pos hl2]
              exact ⟨h3.queue rfl, rfl⟩
            · rw [if_neg hl2, if_neg hl2]
              exact ⟨h3.queue rfl, rfl⟩
        · rw [if_neg hl, if_neg hl]
          exact ⟨h1.queue rfl, rfl⟩

theorem full_map {φ : Sv' → Sv'} {ts : List (List Sv')} (h : ∀ t ∈ ts, t ≠ []) : ∀ t ∈ ts.map (List.map φ), t ≠ [] := by
  intro t ht
  obtain ⟨t0, h0, rfl⟩ := List.mem_map.1 ht
  simpa using h t0 h0

theorem addObs_left (h : Trimmed E' E f g P I) {s' : Core C Sv' A} {s : Core C Sv A} (ha : SameLeft f P I s' s) (o : Obs) : SameLeft f P I (s'.addObs E' o).1 (s.addObs E o).1 := by
  refine ⟨?_, ?_, ?_, ha.conditions, ha.scheduled, ha.flushToo, ha.ids, ha.dict, full_map ha.full, ?_, ?_, ha.known⟩
  · show s'.qm.addObs E'.q _ = s.qm.addObs E.q _
    rw [ha.qm, h.q]
  · show s.tiers.map (List.map fun v => E.sv.addObs v (backfillBand o)) = trim f (s'.tiers.map (List.map fun v => E'.sv.addObs v (backfillBand o)))
    rw [trim_map _ fun t ht s hs => h.addObs s _ (ha.good t ht s hs), ha.tiers]
  · show Core.bump s'.counter _ = Core.bump s.counter _
    rw [ha.counter]
  · show s.tiers.map _ ≠ []
    simpa using ha.some
  · intro t ht v hv
    obtain ⟨t0, h0, rfl⟩ := List.mem_map.1 ht
    obtain ⟨v0, h1, rfl⟩ := List.mem_map.1 hv
    exact h.stayAdd v0 _ (ha.good t0 h0 v0 h1)

theorem flush_left {s' : Core C Sv' A} {s : Core C Sv A} (ha : SameLeft f P I s' s) : SameLeft f P I s'.flush s.flush :=
  ⟨by show s'.qm.flush = s.qm.flush; rw [ha.qm], ha.tiers, ha.counter, ha.conditions, ha.scheduled, ha.flushToo, ha.ids, ha.dict, ha.full, ha.some, ha.good, ha.known⟩

theorem tooStep_left (h : Trimmed E' E f g P I) {s' : Core C Sv' A} {s : Core C Sv A} (ha : SameLeft f P I s' s) (c : C) : SameLeft f P I (s'.tooStep E' c) (s.tooStep E c) := by
  unfold Core.tooStep
  rw [ha.flushToo, h.toos]
  split_ifs
  · cases E.toos c with
    | none => exact ha
    | some ts =>
      dsimp only
      have h1 : ∀ l : List ℤ, SameLeft f P I { s' with tooIds := l, flushForNewToo := s.flushForNewToo } { s with tooIds := l } := fun l =>
        ⟨ha.qm, ha.tiers, ha.counter, ha.conditions, ha.scheduled, rfl, rfl, ha.dict, ha.full, ha.some, ha.good, ha.known⟩
      rw [ha.ids]
      split_ifs
      · exact flush_left (h1 _)
      · exact h1 _
  · exact ha

theorem update_left (h : Trimmed E' E f g P I) {s' : Core C Sv' A} {s : Core C Sv A} (ha : SameLeft f P I s' s) (c : C) (hp : P c) : SameLeft f P I (s'.update E' c) (s.update E c) := by
  have h1 := tooStep_left h ha c
  have ht : (s.tooStep E c).tiers.map (List.map fun v => E.sv.update v c) = trim f ((s'.tooStep E' c).tiers.map (List.map fun v => E'.sv.update v c)) := by
    rw [trim_map _ fun t ht s hs => h.update s _ (h1.good t ht s hs) hp, h1.tiers]
  have hgood : ∀ t ∈ (s'.tooStep E' c).tiers.map (List.map fun v => E'.sv.update v c), ∀ v ∈ t, I v := by
    intro t ht v hv
    obtain ⟨t0, h0, rfl⟩ := List.mem_map.1 ht
    obtain ⟨v0, h2, rfl⟩ := List.mem_map.1 hv
    exact h.stayUpdate v0 _ (h1.good t0 h0 v0 h2) hp
  refine ⟨h1.qm, ht, h1.counter, rfl, ?_, h1.flushToo, h1.ids, h1.dict, full_map h1.full, ?_, hgood, fun c0 h0 => by cases h0; exact hp⟩
  · show Core.gatherScheduled E' ((s'.tooStep E' c).tiers.map (List.map fun v => E'.sv.update v c)) (E'.q.mjdOf c)
      = Core.gatherScheduled E ((s.tooStep E c).tiers.map (List.map fun v => E.sv.update v c)) (E.q.mjdOf c)
    rw [ht, h.q]
    unfold Core.gatherScheduled
    rw [trim_flatten, List.filterMap_filterMap]
    have hq : ((s'.tooStep E' c).tiers.map (List.map fun v => E'.sv.update v c)).flatten.filterMap E'.sv.scheduled
        = ((s'.tooStep E' c).tiers.map (List.map fun v => E'.sv.update v c)).flatten.filterMap fun x => (f x).bind E.sv.scheduled :=
      List.filterMap_congr fun x hx => by
        obtain ⟨t, ht, hx⟩ := List.mem_flatten.1 hx
        exact h.scheduled x (hgood t ht x hx)
    rw [hq]
  · show (s.tooStep E c).tiers.map _ ≠ []
    simpa using h1.some

section
open Whole
variable {H K B : Type}

/-- Worlds of simulations with schedulers that are alike. -/
structure LeftWorld (f : Sv' → Option Sv) (P : C → Prop) (I : Sv' → Prop) (w' : World (Core C Sv' A × H) K) (w : World (Core C Sv A × H) K) : Prop where
  obs : w'.obs = w.obs
  core : SameLeft f P I w'.sched.1 w.sched.1
  rest : w'.sched.2 = w.sched.2
  raised : w'.raised = w.raised

theorem left_relate (h : Trimmed E' E f g P I) (S : Obs.Site) (M : Obs.Kin K Obs) (fuel : ℕ) (conds : Obs.St K → C) (hconds : ∀ o, P (conds o)) (mount : K → B → K) (X : Rest H C B) :
    Sim.Relate (env S M fuel conds mount (coreSched E' X)) (env S M fuel conds mount (coreSched E X)) (LeftWorld (K := K) (H := H) f P I) where
  clock r := by show _ = _; exact congrArg Obs.St.mjd r.obs
  set {a b} x r := ⟨by show ({ a.obs with mjd := x } : Obs.St K) = { b.obs with mjd := x }; rw [r.obs], r.core, r.rest, r.raised⟩
  conds r := ⟨⟨by show Obs.idle S M _ = Obs.idle S M _; rw [r.obs], r.core, r.rest, r.raised⟩, by show conds _ = conds _; rw [r.obs]⟩
  hasConds {a b} r := by
    show a.sched.1.conditions.isSome = b.sched.1.conditions.isSome
    rw [r.core.conditions]
  check {a b} x r := by
    refine ⟨r, ?_⟩
    show coreCheck E' a.sched.1 x = coreCheck E b.sched.1 x
    unfold coreCheck
    rw [r.core.conditions, r.core.qm, h.q]
  update {a b} r := by
    refine ⟨by show Obs.idle S M _ = Obs.idle S M _; rw [r.obs], ?_, r.rest, r.raised⟩
    show SameLeft f P I (a.sched.1.update E' (conds a.obs)) (b.sched.1.update E (conds b.obs))
    rw [r.obs]
    exact update_left h r.core _ (hconds _)
  request {a b} x r := by
    show LeftWorld f P I (requestOf (coreSched E' X) a x).1 (requestOf (coreSched E X) b x).1 ∧ (requestOf (coreSched E' X) a x).2 = (requestOf (coreSched E X) b x).2
    have hr := request_left h r.core (some x) false
    have e' : (coreSched E' X).request a.sched x = (coreRequest E' a.sched.1 x).map fun z => ((z.1, a.sched.2), z.2) := rfl
    have e : (coreSched E X).request b.sched x = (coreRequest E b.sched.1 x).map fun z => ((z.1, b.sched.2), z.2) := rfl
    unfold requestOf
    rw [e', e]
    unfold coreRequest
    generalize a.sched.1.request E' (some x) false = r' at hr
    generalize b.sched.1.request E (some x) false = r0 at hr
    match r', r0, hr with
    | .error _, .error _, _ => exact ⟨⟨r.obs, r.core, r.rest, rfl⟩, rfl⟩
    | .ok (s1', l', ev'), .ok (s1, l, ev), ⟨h1, (hev : (l', ev') = (l, ev))⟩ =>
      simp only [Prod.mk.injEq] at hev
      obtain ⟨rfl, rfl⟩ := hev
      exact ⟨⟨r.obs, h1, r.rest, r.raised⟩, rfl⟩
  observe {a b} v r := by
    show LeftWorld f P I (observeOf S M fuel a v).1 (observeOf S M fuel b v).1 ∧ (observeOf S M fuel a v).2 = (observeOf S M fuel b v).2
    unfold observeOf
    rw [r.obs]
    cases Obs.observe S M fuel b.obs v.target with
    | error e => exact ⟨⟨rfl, r.core, r.rest, rfl⟩, rfl⟩
    | ok z => exact ⟨⟨rfl, r.core, r.rest, r.raised⟩, rfl⟩
  overhead {a b} v r := by
    refine ⟨⟨r.obs, r.core, ?_, r.raised⟩, ?_⟩
    · show (X.overhead a.sched.2 v).1 = (X.overhead b.sched.2 v).1
      rw [r.rest]
    · show (X.overhead a.sched.2 v).2 = (X.overhead b.sched.2 v).2
      rw [r.rest]
  add v r := ⟨r.obs, addObs_left h r.core _, r.rest, r.raised⟩
  bandAdd {a b} v r := ⟨r.obs, r.core, by show X.bandAdd a.sched.2 v = X.bandAdd b.sched.2 v; rw [r.rest], r.raised⟩
  flush r := ⟨r.obs, flush_left r.core, r.rest, r.raised⟩
  bands {a b} c r := by
    refine ⟨⟨r.obs, r.core, ?_, r.raised⟩, ?_⟩
    · show (X.bands a.sched.2 c).1 = (X.bands b.sched.2 c).1
      rw [r.rest]
    · show (X.bands a.sched.2 c).2 = (X.bands b.sched.2 c).2
      rw [r.rest]
  mount {a b} m r := ⟨by show ({ a.obs with kin := mount a.obs.kin m } : Obs.St K) = { b.obs with kin := mount b.obs.kin m }; rw [r.obs], r.core, r.rest, r.raised⟩

end

end

end Verif
