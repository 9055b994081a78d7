import Mathlib.Tactic.Linarith
import Mathlib.Tactic.NormNum
import Mathlib.Tactic.Ring
import Mathlib.Algebra.BigOperators.Group.List.Basic
import Verif.Model.Generators
import Verif.Model.Feasible

/-!
C169-C175: what the functions that make example surveys promise.
-/

namespace Verif

open Gen

/-! ### What is claimed -/

/-- The caller's limits of the safety masks, or the defaults of `safety_masks` where the caller gives none. -/
def askedFor (p : Option Params) : Params := p.getD {}

/-- The survey has every safety mask, with weight 0, on the resolution `nside`, with the limits asked for (a lower ceiling is as safe), and with a shadow
that is long enough for the `need` minutes of the block and for what the caller asks, and is one of the two. -/
def Safe (p : Option Params) (nside : ℕ) (need : ℚ) (ts : List (Term × ℚ)) : Prop :=
  let a := askedFor p
  ∃ shadow top, need ≤ shadow ∧ (∀ s, a.shadow = some s → s ≤ shadow) ∧ (shadow = need ∨ a.shadow = some shadow)
    ∧ top ≤ a.maxAlt.getD (173 / 2)
    ∧ (Term.moon nside (a.moon.getD 30), 0) ∈ ts
    ∧ (Term.planets nside, 0) ∈ ts
    ∧ (Term.wind nside (a.wind.getD 20), 0) ∈ ts
    ∧ (Term.altAz nside (a.minAlt.getD 20) top (a.minAz.getD 0) (a.maxAz.getD 360) shadow, 0) ∈ ts
    ∧ (a.limited.getD true = true → ∃ hours, a.timeSun.getD 3 + need / 60 ≤ hours
        ∧ (Term.sunrise nside (a.minAlt.getD 20) top (a.minAzSun.getD 120) (a.maxAzSun.getD 290) shadow hours, 0) ∈ ts)

/-- The resolution of the maps of a basis function, `none` when it has no map. -/
def gridOf : Term → Option ℕ
  | .moon n _ | .planets n | .wind n _ | .altAz n _ _ _ _ _ | .sunrise n _ _ _ _ _ _ | .depth n _ | .footprint n _ | .slew n _ | .repeats n _
  | .goodSeeing n _ _ | .ha n _ _ | .notHa n _ _ | .inNight n _ | .poorSeeing n _ _ | .afterVisits n _ _ | .nearSun n _ | .elongation n _ => some n
  | _ => none

/-- The survey and all its maps have one resolution. -/
def OneGrid (nside : ℕ) (s : Survey) : Prop := s.grid = nside ∧ ∀ t ∈ s.terms, ∀ n, gridOf t.1 = some n → n = nside

/-- Nothing above `top` is allowed. -/
def Ceiling (top : ℚ) (ts : List (Term × ℚ)) : Prop := ∃ n lo hi a b sh w, (Term.altAz n lo hi a b sh, w) ∈ ts ∧ hi ≤ top

def isDepth : Term → Bool
  | .depth _ _ => true
  | _ => false

def isFootprint : Term → Bool
  | .footprint _ _ => true
  | _ => false

def isSlew : Term → Bool
  | .slew _ _ => true
  | _ => false

def isStay : Term → Bool
  | .strictBand _ | .bandChange _ => true
  | _ => false

def isRepeat : Term → Bool
  | .repeats _ _ => true
  | _ => false

/-- The weight given in all to the rewards of a sort. -/
def weightOf (f : Term → Bool) (ts : List (Term × ℚ)) : ℚ := ((ts.filter fun t => f t.1).map Prod.snd).sum

/-- The rewards have in all the weights asked for, each band has the same share, and the bands must all be mounted. -/
def Weighted (nside : ℕ) (w : Weights) (s : Survey) : Prop :=
  weightOf isDepth s.terms = w.depth ∧ weightOf isFootprint s.terms = w.footprint ∧ weightOf isSlew s.terms = w.slew ∧ weightOf isStay s.terms = w.stay
  ∧ (∀ b ∈ s.band1 :: s.band2.toList, ∃ bands, b ∈ bands ∧ (Term.loaded bands, 0) ∈ s.terms)
  ∧ ∀ b ∈ s.band1 :: s.band2.toList, (Term.depth nside b, w.depth / (s.band1 :: s.band2.toList).length) ∈ s.terms
    ∧ (Term.footprint nside b, w.footprint / (s.band1 :: s.band2.toList).length) ∈ s.terms

/-! ### Proofs -/

theorem safe_masks (q : Params) (nside : ℕ) (need top : ℚ) (p : Option Params) (pre : List (Term × ℚ))
    (hn : q.nside.getD defaultNside = nside) (hmoon : q.moon.getD 30 = (askedFor p).moon.getD 30) (hwind : q.wind.getD 20 = (askedFor p).wind.getD 20)
    (hlo : q.minAlt.getD 20 = (askedFor p).minAlt.getD 20) (hhi : q.maxAlt.getD (173 / 2) = top) (htop : top ≤ (askedFor p).maxAlt.getD (173 / 2))
    (ha : q.minAz.getD 0 = (askedFor p).minAz.getD 0) (hb : q.maxAz.getD 360 = (askedFor p).maxAz.getD 360)
    (hsa : q.minAzSun.getD 120 = (askedFor p).minAzSun.getD 120) (hsb : q.maxAzSun.getD 290 = (askedFor p).maxAzSun.getD 290)
    (ht : q.timeSun.getD 3 = (askedFor p).timeSun.getD 3) (hl : q.limited.getD true = (askedFor p).limited.getD true)
    (hneed : need ≤ q.shadow.getD 70) (hs : ∀ s, (askedFor p).shadow = some s → s ≤ q.shadow.getD 70)
    (hor : q.shadow.getD 70 = need ∨ (askedFor p).shadow = some (q.shadow.getD 70)) :
    Safe p nside need (pre ++ weightless (safetyMasks q)) := by
  refine ⟨q.shadow.getD 70, top, hneed, hs, hor, htop, ?_, ?_, ?_, ?_, ?_⟩
  · rw [← hmoon, ← hn]; simp [weightless, safetyMasks]
  · rw [← hn]; simp [weightless, safetyMasks]
  · rw [← hwind, ← hn]; simp [weightless, safetyMasks]
  · rw [← hlo, ← hhi, ← ha, ← hb, ← hn]; simp [weightless, safetyMasks]
  · intro h
    refine ⟨q.timeSun.getD 3 + q.shadow.getD 70 / 60, ?_, ?_⟩
    · rw [← ht]; linarith
    · rw [← hl] at h
      rw [← hlo, ← hhi, ← hsa, ← hsb, ← hn]; simp [weightless, safetyMasks, h]

theorem raised_shadow (q : Params) (need : ℚ) :
    need ≤ (raiseShadow q need).shadow.getD 70 ∧ (∀ s, q.shadow = some s → s ≤ (raiseShadow q need).shadow.getD 70)
    ∧ ((raiseShadow q need).shadow.getD 70 = need ∨ q.shadow = some ((raiseShadow q need).shadow.getD 70)) := by
  unfold raiseShadow
  cases h : q.shadow with
  | none => simp
  | some s =>
    by_cases hs : s < need
    · simp [hs]; exact hs.le
    · simp [hs, h, not_lt.1 hs]

theorem raise_same (q : Params) (need : ℚ) : ∃ sh, raiseShadow q need = { q with shadow := sh } := by
  unfold raiseShadow
  cases h : q.shadow with
  | none => exact ⟨_, rfl⟩
  | some s =>
    by_cases hs : s < need
    · exact ⟨some need, by simp [hs]⟩
    · exact ⟨some s, by simp [hs]; rw [← h]⟩

/-- The dictionary prepared from that of the caller is safe when it names the resolution. -/
theorem safe_prepare (p : Option Params) (nside : ℕ) (need : ℚ) (pre : List (Term × ℚ)) (hp : ∀ q, p = some q → q.nside = some nside) :
    Safe p nside need (pre ++ weightless (safetyMasks (prepare p nside need))) := by
  obtain ⟨h1, h2, h3⟩ := raised_shadow (orGrid p nside) need
  obtain ⟨sh, h⟩ := raise_same (orGrid p nside) need
  unfold prepare
  cases p with
  | none =>
    rw [h] at h1 h2 h3 ⊢
    exact safe_masks _ _ _ (173 / 2) _ _ rfl rfl rfl rfl rfl le_rfl rfl rfl rfl rfl rfl rfl h1 h2 h3
  | some q =>
    rw [h] at h1 h2 h3 ⊢
    exact safe_masks _ _ _ (q.maxAlt.getD (173 / 2)) _ _ (by simp [orGrid, hp q rfl]) rfl rfl rfl rfl le_rfl rfl rfl rfl rfl rfl rfl h1 h2 h3

theorem lower_same (q : Params) (top : ℚ) : ∃ a, lowerCeiling q top = { q with maxAlt := a } ∧ a.getD (173 / 2) ≤ q.maxAlt.getD (173 / 2)
    ∧ (∀ b, q.maxAlt = some b → a.getD (173 / 2) ≤ top) := by
  unfold lowerCeiling
  cases h : q.maxAlt with
  | none => exact ⟨none, by simp only []; rw [← h], le_rfl, by simp⟩
  | some s =>
    by_cases hs : top < s
    · exact ⟨some top, by simp [hs], by simp [hs.le], by simp⟩
    · exact ⟨some s, by simp [hs]; rw [← h], by simp, by simpa using not_lt.1 hs⟩

theorem safe_blob (p : Option Params) (nside : ℕ) (need ceiling : ℚ) (pre : List (Term × ℚ)) (hp : ∀ q, p = some q → q.nside = some nside) :
    Safe p nside need (pre ++ weightless (safetyMasks (lowerCeiling (prepare p nside need) ceiling))) := by
  obtain ⟨h1, h2, h3⟩ := raised_shadow (orGrid p nside) need
  obtain ⟨sh, h⟩ := raise_same (orGrid p nside) need
  obtain ⟨a, ha, hle, _⟩ := lower_same (prepare p nside need) ceiling
  rw [ha]
  unfold prepare at hle ⊢
  cases p with
  | none =>
    rw [h] at h1 h2 h3 hle ⊢
    exact safe_masks _ _ _ _ _ _ rfl rfl rfl rfl rfl hle rfl rfl rfl rfl rfl rfl h1 h2 h3
  | some q =>
    rw [h] at h1 h2 h3 hle ⊢
    exact safe_masks _ _ _ _ _ _ (by simp [orGrid, hp q rfl]) rfl rfl rfl rfl hle rfl rfl rfl rfl rfl rfl h1 h2 h3

/-- C169, in part: the surveys of templates, of pairs, of pairs before a long gap, near the sun and of the Roman field have all the safety masks, with the
caller's limits and a shadow long enough for the block. Missing: the caller's dictionary must name the resolution; short pairs and single visits are
apart. -/
theorem C169_masks_partial (p : Option Params) (nside : ℕ) (hp : ∀ q, p = some q → q.nside = some nside) :
    (∀ w seeing pairTime haMin haMax maxAlt shown dark nObs uNexp bl b,
      Safe p nside pairTime (template nside w seeing pairTime haMin haMax maxAlt shown dark nObs uNexp bl p b).terms)
    ∧ (∀ (c : LongCfg) reason band1s band2s, c.params = p → c.nside = nside → ∀ s ∈ blobForLong c reason band1s band2s, Safe p nside (c.pairTime * 2 + c.pad) s.terms)
    ∧ (∀ (c : BlobCfg) band1s band2s, c.params = p → c.nside = nside → ∀ s ∈ blobs c band1s band2s, Safe p nside (c.pairTime * 2 + c.pad) s.terms)
    ∧ (∀ w dist pairTime airmass elong sunAlt to12 pattern b, Safe p nside (pairTime * 4) (nearSun nside w dist pairTime airmass elong sunAlt to12 pattern p b).terms)
    ∧ Safe p nside 12 (weightless (romanOn nside p)) ∧ Safe p nside 11 (weightless (romanOff nside p)) := by
  have perm : ∀ need (post : List (Term × ℚ)), Safe p nside need (weightless (safetyMasks (prepare p nside need)) ++ post) := by
    intro need post
    obtain ⟨sh, top, a1, a2, a3, a4, a5, a6, a7, a8, a9⟩ := safe_prepare p nside need [] hp
    rw [List.nil_append] at a5 a6 a7 a8 a9
    refine ⟨sh, top, a1, a2, a3, a4, List.mem_append_left _ a5, List.mem_append_left _ a6, List.mem_append_left _ a7, List.mem_append_left _ a8, fun h => ?_⟩
    obtain ⟨k, hk, hm⟩ := a9 h
    exact ⟨k, hk, List.mem_append_left _ hm⟩
  refine ⟨fun w seeing pairTime haMin haMax maxAlt shown dark nObs uNexp bl b => safe_prepare p nside pairTime _ hp, ?_, ?_, fun w dist pairTime airmass elong sunAlt to12 pattern b => safe_prepare p nside _ _ hp, ?_, ?_⟩
  · intro c reason band1s band2s hc hn s hs
    unfold blobForLong at hs
    generalize band1s.zip band2s = l at hs
    induction l generalizing reason with
    | nil => simp [longLoop] at hs
    | cons q rest ih =>
      obtain ⟨b, b2⟩ := q
      rcases List.mem_cons.1 hs with rfl | h
      · subst hc hn
        exact safe_prepare c.params c.nside _ _ hp
      · exact ih _ h
  · intro c band1s band2s hc hn s hs
    obtain ⟨q, _, rfl⟩ := List.mem_map.1 hs
    subst hc hn
    exact safe_blob c.params c.nside _ _ _ hp
  · have := perm 12 (weightless [.haLimit [(20, 24), (0, 4)], .notTwilight, .delay (4 / 5), .window seasonsOn])
    simpa [romanOn, weightless] using this
  · have := perm 11 (weightless [.haLimit [(20, 24), (0, 4)], .notTwilight, .delay 3, .window seasonsOff])
    simpa [romanOff, weightless] using this

/-- The masks of the repeats after a long gap: the resolution need not be named. -/
theorem C169_repeats (p : Option Params) (nside : ℕ) (pairTime : ℚ) (hp : ∀ q n, p = some q → q.nside = some n → n = nside) :
    Safe p nside pairTime (weightless (scriptedMasks p nside pairTime)) := by
  cases p with
  | none => simpa [scriptedMasks, prepare, orGrid] using safe_prepare none nside pairTime [] (by simp)
  | some q =>
    have hq : q.nside.getD nside = nside := by
      cases h : q.nside with
      | none => rfl
      | some n => simpa using hp q n rfl h
    obtain ⟨sh, top, a⟩ := safe_prepare (some { q with nside := some nside }) nside pairTime [] (by rintro _ ⟨⟩; rfl)
    refine ⟨sh, top, ?_⟩
    simpa [scriptedMasks, prepare, orGrid, hq, askedFor] using a

/-- C169, in part: short pairs are safe when the caller asks for no shadow longer than the block, and single visits when the caller asks for
nothing. -/
theorem C169_others_partial (c : BlobCfg) (b : String) (b2 : Option String) (hp : ∀ q, c.params = some q → q.nside = some c.nside)
    (hs : ∀ q s, c.params = some q → q.shadow = some s → s ≤ c.pairTime * 2 + c.pad) (nside : ℕ) (w : Weights) (rw shadow top : ℚ) (u : ℕ) (bands : List String) :
    Safe c.params c.nside (c.pairTime * 2 + c.pad) (shortBlob c b b2).terms
    ∧ Safe none nside shadow (greedy nside w rw shadow top u bands none b).terms := by
  constructor
  · cases h : c.params with
    | none =>
      have := safe_masks (prepareShort none c.nside (c.pairTime * 2 + c.pad)) c.nside (c.pairTime * 2 + c.pad) (173 / 2) none
      simp only [shortBlob, h]
      exact this _ rfl rfl rfl rfl rfl le_rfl rfl rfl rfl rfl rfl rfl le_rfl (by simp [askedFor]) (Or.inl rfl)
    | some q =>
      have := safe_masks (prepareShort (some q) c.nside (c.pairTime * 2 + c.pad)) c.nside (c.pairTime * 2 + c.pad) (q.maxAlt.getD (173 / 2)) (some q)
      simp only [shortBlob, h]
      exact this _ (by simp [prepareShort, orGrid, hp q h]) rfl rfl rfl rfl le_rfl rfl rfl rfl rfl rfl rfl le_rfl
        (fun s hs' => by simpa [prepareShort] using hs q s h hs') (Or.inl rfl)
  · exact safe_masks { nside := some nside, shadow := some shadow } nside shadow (173 / 2) none _ rfl rfl rfl rfl rfl le_rfl rfl rfl rfl rfl rfl rfl le_rfl
      (by simp [askedFor]) (Or.inl rfl)

def demoWeights : Weights := ⟨6, 3 / 2, 3, 3⟩

def demoBlob (p : Option Params) : BlobCfg where
  nside := 32
  weights := demoWeights
  repeatWeight := -20
  pairTime := 15
  pad := 5
  truncated := "15"
  shown := "15.0"
  maxAlt := 76
  respect := 45
  pattern := [true]
  good := fun b => if b = "g" ∨ b = "r" ∨ b = "i" then some 3 else none
  goodWeight := 3
  uConstant := 1
  uNexp := 1
  blob := none
  params := p

example : Safe (some { nside := some 32, moon := some 40, shadow := some 120 }) 32 35
    (blob (demoBlob (some { nside := some 32, moon := some 40, shadow := some 120 })) "g" (some "r")).terms := by
  have h := (C169_masks_partial (some { nside := some 32, moon := some 40, shadow := some 120 }) 32 (by rintro q ⟨⟩; rfl)).2.2.1
    (demoBlob (some { nside := some 32, moon := some 40, shadow := some 120 })) ["g"] [some "r"] rfl rfl _ (List.mem_singleton.2 rfl)
  have e : (demoBlob (some { nside := some 32, moon := some 40, shadow := some 120 })).pairTime * 2
      + (demoBlob (some { nside := some 32, moon := some 40, shadow := some 120 })).pad = 35 := by norm_num [demoBlob]
  rwa [e] at h

example : Safe (some { shadow := some 50 }) 64 33 (weightless (scriptedMasks (some { shadow := some 50 }) 64 33)) :=
  C169_repeats _ _ _ (by rintro q n ⟨⟩ h; simp at h)

/-- C169 for the pairs of the simple example, without a list of masks of the caller: all masks, with a shadow of half an hour. Of a block only half an hour is
then known to be safe: the shadow does not grow with the length of the block. The mask of the morning is not made here. -/
theorem C169_simple_partial (nside : ℕ) (pairTime : ℚ) (b : String) (b2 : Option String) (requireTime : Bool) :
    Safe (some { limited := some false }) nside 30 (simplePairs nside pairTime b b2 requireTime none).1 := by
  have h : ∀ t ∈ standardMasks nside, (t, (0 : ℚ)) ∈ (simplePairs nside pairTime b b2 requireTime none).1 := by
    intro t ht
    unfold simplePairs weightless pairMasks
    simp only [Option.getD_none, List.map_append, List.mem_append, List.mem_map]
    exact Or.inr (Or.inl ⟨t, ht, rfl⟩)
  refine ⟨30, 173 / 2, le_rfl, by simp [askedFor], Or.inl rfl, by simp [askedFor], h _ ?_, h _ ?_, h _ ?_, h _ ?_, by simp [askedFor]⟩ <;>
    simp [standardMasks, askedFor]

/-- C169 is violated by pairs of the simple example: with a second band the block of pairs half an hour apart takes an hour, the shadow is half an hour. -/
theorem C169_simple_violated : ¬ Safe (some { limited := some false }) 32 60 (simplePairs 32 30 "g" (some "r") false none).1 := by
  rintro ⟨sh, top, h1, _, _, _, _, _, _, h8, _⟩
  simp [simplePairs, pairRewards, simpleRewards, weightless, pairMasks, standardMasks, List.filter_cons, askedFor] at h8
  obtain ⟨_, h8⟩ := h8
  rw [h8] at h1
  norm_num at h1

/-- C169 is violated by short pairs: a caller asking for 120 minutes gets 35. -/
theorem C169_short_violated : ∃ (c : BlobCfg) (b : String) (b2 : Option String), (∀ q, c.params = some q → q.nside = some c.nside)
    ∧ ¬ Safe c.params c.nside (c.pairTime * 2 + c.pad) (shortBlob c b b2).terms := by
  refine ⟨demoBlob (some { nside := some 32, shadow := some 120 }), "r", some "i", by rintro q ⟨⟩; rfl, ?_⟩
  rintro ⟨sh, top, _, h2, _, _, _, _, _, h8, _⟩
  have h := h2 120 rfl
  simp only [shortBlob, demoBlob, standardBf, perBand, weightless, safetyMasks, prepareShort, orGrid, ownAltAz, askedFor] at h8
  simp at h8
  rcases h8 with ⟨_, h8⟩ | ⟨_, h8⟩ <;> rw [h8] at h <;> norm_num at h

/-- C169 is violated by single visits: a caller who wants 40 degrees to the moon gets 30. -/
theorem C169_greedy_violated : ∃ (p : Option Params) (nside : ℕ) (w : Weights) (rw shadow top : ℚ) (u : ℕ) (bands : List String) (b : String),
    (∀ q, p = some q → q.nside = some nside) ∧ ¬ Safe p nside shadow (greedy nside w rw shadow top u bands p b).terms := by
  refine ⟨some { nside := some 32, moon := some 40 }, 32, demoWeights, -1, 15, 76, 1, ["r"], "r", by rintro q ⟨⟩; rfl, ?_⟩
  rintro ⟨sh, top, _, _, _, _, h5, _⟩
  simp [greedy, standardBf, perBand, weightless, safetyMasks, ownAltAz, askedFor] at h5

/-- C169 and C170 are violated when the caller's dictionary does not name the resolution: the masks are then made on the default one. -/
theorem C169_grid_violated : ∃ (c : BlobCfg) (b : String) (b2 : Option String), c.params = some { moon := some 40 } ∧ c.blob = some c.nside
    ∧ ¬ Safe c.params c.nside (c.pairTime * 2 + c.pad) (blob c b b2).terms ∧ ¬ OneGrid c.nside (blob c b b2) := by
  refine ⟨{ demoBlob (some { moon := some 40 }) with nside := 64, blob := some 64 }, "g", some "r", rfl, rfl, ?_, ?_⟩
  · rintro ⟨sh, top, _, _, _, _, h5, _⟩
    simp [blob, demoBlob, standardBf, perBand, weightless, safetyMasks, lowerCeiling, prepare, raiseShadow, orGrid, askedFor, defaultNside, bandList, goodSeeing] at h5
  · rintro ⟨_, h⟩
    have := h (Term.planets 32, 0) (by
      simp [blob, demoBlob, standardBf, perBand, weightless, safetyMasks, lowerCeiling, prepare, raiseShadow, orGrid, defaultNside]) 32 rfl
    simp at this

/-! ### C170: one resolution -/

/-- All maps of a list have one resolution. -/
def AllGrid (nside : ℕ) (ts : List (Term × ℚ)) : Prop := ∀ t ∈ ts, ∀ n, gridOf t.1 = some n → n = nside

theorem allGrid_nil (nside : ℕ) : AllGrid nside [] := by intro t ht; simp at ht

theorem allGrid_append (nside : ℕ) (a b : List (Term × ℚ)) (ha : AllGrid nside a) (hb : AllGrid nside b) : AllGrid nside (a ++ b) := by
  intro t ht
  rcases List.mem_append.1 ht with h | h
  · exact ha t h
  · exact hb t h

theorem allGrid_cons (nside : ℕ) (t : Term) (w : ℚ) (b : List (Term × ℚ)) (ha : gridOf t = none ∨ gridOf t = some nside) (hb : AllGrid nside b) :
    AllGrid nside ((t, w) :: b) := by
  intro u hu n hn
  rcases List.mem_cons.1 hu with rfl | h
  · rcases ha with ha | ha <;> rw [ha] at hn
    · simp at hn
    · simpa using hn.symm
  · exact hb u h n hn

theorem grid_masks (q : Params) (nside : ℕ) (h : q.nside.getD defaultNside = nside) : AllGrid nside (weightless (safetyMasks q)) := by
  subst h
  simp only [weightless, safetyMasks, List.map_append, List.map_cons, List.map_nil]
  refine allGrid_append _ _ _ ?_ ?_
  · repeat' first | exact allGrid_nil _ | refine allGrid_cons _ _ _ _ (Or.inr rfl) ?_
  · split
    · exact allGrid_cons _ _ _ _ (Or.inr rfl) (allGrid_nil _)
    · exact allGrid_nil _

theorem grid_standard (nside : ℕ) (b : String) (b2 : Option String) (w : Weights) (strict : Bool) : AllGrid nside (standardBf nside b b2 w strict) := by
  unfold standardBf
  refine allGrid_append _ _ _ (allGrid_append _ _ _ ?_ ?_) ?_
  · cases b2
    · exact allGrid_cons _ _ _ _ (Or.inr rfl) (allGrid_nil _)
    · exact allGrid_cons _ _ _ _ (Or.inr rfl) (allGrid_cons _ _ _ _ (Or.inr rfl) (allGrid_nil _))
  · cases b2
    · exact allGrid_cons _ _ _ _ (Or.inr rfl) (allGrid_nil _)
    · exact allGrid_cons _ _ _ _ (Or.inr rfl) (allGrid_cons _ _ _ _ (Or.inr rfl) (allGrid_nil _))
  · refine allGrid_cons _ _ _ _ (Or.inr rfl) (allGrid_cons _ _ _ _ (Or.inl ?_) (allGrid_cons _ _ _ _ (Or.inl rfl) (allGrid_nil _)))
    cases strict <;> rfl

theorem prepare_nside (p : Option Params) (nside : ℕ) (need : ℚ) (hp : ∀ q, p = some q → q.nside = some nside) : (prepare p nside need).nside = some nside := by
  unfold prepare
  obtain ⟨sh, h⟩ := raise_same (orGrid p nside) need
  rw [h]
  cases p with
  | none => rfl
  | some q => exact hp q rfl

/-- C170, in part: a survey and all its maps have the resolution asked for. Missing: the dictionaries of the caller must name it, unless it is the
default one. -/
theorem C170_grid_partial (p : Option Params) (nside : ℕ) (bl : Option ℕ) (hp : ∀ q, p = some q → q.nside = some nside) (hb : bl.getD defaultNside = nside) :
    (∀ w seeing pairTime haMin haMax maxAlt shown dark nObs uNexp b,
      OneGrid nside (template nside w seeing pairTime haMin haMax maxAlt shown dark nObs uNexp bl p b))
    ∧ (∀ (c : LongCfg) reason b b2, c.params = p → c.nside = nside → c.blob = bl → OneGrid nside (longOne c reason b b2))
    ∧ (∀ (c : BlobCfg) b b2, c.params = p → c.nside = nside → c.blob = bl → OneGrid nside (blob c b b2) ∧ OneGrid nside (shortBlob c b b2))
    ∧ (∀ w dist pairTime airmass elong sunAlt to12 pattern b, OneGrid nside (nearSun nside w dist pairTime airmass elong sunAlt to12 pattern p b))
    ∧ (∀ w rw shadow top u bands b, OneGrid nside (greedy nside w rw shadow top u bands p b)) := by
  have masks : ∀ need, AllGrid nside (weightless (safetyMasks (prepare p nside need))) := fun need =>
    grid_masks _ _ (by rw [prepare_nside p nside need hp]; rfl)
  refine ⟨?_, ?_, ?_, ?_, ?_⟩
  · intro w seeing pairTime haMin haMax maxAlt shown dark nObs uNexp b
    refine ⟨hb, allGrid_append _ _ _ (allGrid_append _ _ _ (allGrid_append _ _ _ (allGrid_append _ _ _ (grid_standard _ _ _ _ _) ?_) ?_) ?_) (masks _)⟩
    · repeat' first | exact allGrid_nil _ | refine allGrid_cons _ _ _ _ (Or.inr rfl) ?_ | refine allGrid_cons _ _ _ _ (Or.inl rfl) ?_
    · split
      · exact allGrid_cons _ _ _ _ (Or.inl rfl) (allGrid_nil _)
      · exact allGrid_nil _
    · repeat' first | exact allGrid_nil _ | refine allGrid_cons _ _ _ _ (Or.inr rfl) ?_ | refine allGrid_cons _ _ _ _ (Or.inl rfl) ?_
  · rintro c reason b b2 rfl rfl rfl
    refine ⟨hb, allGrid_append _ _ _ (allGrid_append _ _ _ (grid_standard _ _ _ _ _) ?_) (masks _)⟩
    repeat' first | exact allGrid_nil _ | refine allGrid_cons _ _ _ _ (Or.inr rfl) ?_ | refine allGrid_cons _ _ _ _ (Or.inl rfl) ?_
  · rintro c b b2 rfl rfl rfl
    constructor
    · obtain ⟨a, ha, _⟩ := lower_same (prepare c.params c.nside (c.pairTime * 2 + c.pad)) c.maxAlt
      refine ⟨hb, allGrid_append _ _ _ (allGrid_append _ _ _ (allGrid_append _ _ _ (allGrid_append _ _ _ (grid_standard _ _ _ _ _) ?_) ?_) ?_) ?_⟩
      · exact allGrid_cons _ _ _ _ (Or.inr rfl) (allGrid_nil _)
      · intro t ht n hn
        obtain ⟨a, _, ha⟩ := List.mem_flatMap.1 ht
        unfold goodSeeing at ha
        split at ha
        · rw [List.mem_singleton] at ha
          subst ha
          simpa [gridOf] using hn.symm
        · simp at ha
      · repeat' first | exact allGrid_nil _ | refine allGrid_cons _ _ _ _ (Or.inr rfl) ?_ | refine allGrid_cons _ _ _ _ (Or.inl rfl) ?_
      · refine grid_masks _ _ ?_
        rw [ha]
        simp [prepare_nside c.params c.nside _ hp]
    · refine ⟨hb, allGrid_append _ _ _ (allGrid_append _ _ _ (grid_standard _ _ _ _ _) ?_) (grid_masks _ _ ?_)⟩
      · repeat' first | exact allGrid_nil _ | refine allGrid_cons _ _ _ _ (Or.inr rfl) ?_ | refine allGrid_cons _ _ _ _ (Or.inl rfl) ?_
      · cases h : c.params with
        | none => simp [prepareShort, orGrid]
        | some q => simp [prepareShort, orGrid, hp q h]
  · intro w dist pairTime airmass elong sunAlt to12 pattern b
    refine ⟨rfl, allGrid_append _ _ _ ?_ (masks _)⟩
    repeat' first | exact allGrid_nil _ | refine allGrid_cons _ _ _ _ (Or.inr rfl) ?_ | refine allGrid_cons _ _ _ _ (Or.inl rfl) ?_
  · intro w rw shadow top u bands b
    refine ⟨rfl, allGrid_append _ _ _ (allGrid_append _ _ _ (grid_standard _ _ _ _ _) ?_) (grid_masks _ _ rfl)⟩
    repeat' first | exact allGrid_nil _ | refine allGrid_cons _ _ _ _ (Or.inr rfl) ?_ | refine allGrid_cons _ _ _ _ (Or.inl rfl) ?_

example : OneGrid 32 (blob (demoBlob none) "g" (some "r")) := ((C170_grid_partial none 32 none (by simp) rfl).2.2.1 (demoBlob none) "g" (some "r") rfl rfl rfl).1

/-- C170 is violated by pairs on another resolution: the survey itself is made with the default one. -/
theorem C170_survey_violated : ∃ (c : BlobCfg) (b : String) (b2 : Option String), c.params = none ∧ c.blob = none ∧ ¬ OneGrid c.nside (blob c b b2)
    ∧ (Term.depth 64 b, c.weights.depth / 2) ∈ (blob c b b2).terms ∧ (blob c b b2).grid = 32 :=
  ⟨{ demoBlob none with nside := 64 }, "g", some "r", rfl, rfl, fun h => by have := h.1; simp [blob, blobGrid, demoBlob, defaultNside] at this,
    by simp [blob, standardBf, perBand], rfl⟩

/-! ### C171: the ceiling -/

theorem ceiling_masks (q : Params) : Ceiling (q.maxAlt.getD (173 / 2)) (weightless (safetyMasks q)) := by
  refine ⟨q.nside.getD defaultNside, q.minAlt.getD 20, q.maxAlt.getD (173 / 2), q.minAz.getD 0, q.maxAz.getD 360, q.shadow.getD 70, 0, ?_, le_rfl⟩
  simp [weightless, safetyMasks]

/-- C171, in part: surveys of templates, of short pairs, of pairs before a long gap and of single visits allow nothing above the ceiling asked for, and
surveys of pairs do so when the dictionary of the caller has a ceiling too. -/
theorem C171_ceiling_partial :
    (∀ nside w seeing pairTime haMin haMax maxAlt shown dark nObs uNexp bl p b,
      Ceiling maxAlt (template nside w seeing pairTime haMin haMax maxAlt shown dark nObs uNexp bl p b).terms)
    ∧ (∀ (c : LongCfg) reason b b2, Ceiling c.maxAlt (longOne c reason b b2).terms)
    ∧ (∀ (c : BlobCfg) b b2, Ceiling c.maxAlt (shortBlob c b b2).terms)
    ∧ (∀ nside w rw shadow top u bands p b, Ceiling top (greedy nside w rw shadow top u bands p b).terms)
    ∧ (∀ (c : BlobCfg) q a b b2, c.params = some q → q.maxAlt = some a → Ceiling c.maxAlt (blob c b b2).terms) := by
  refine ⟨?_, ?_, ?_, ?_, ?_⟩
  · intro nside w seeing pairTime haMin haMax maxAlt shown dark nObs uNexp bl p b
    exact ⟨nside, 20, maxAlt, 0, 360, pairTime, 0, by simp [template, ownAltAz], le_rfl⟩
  · intro c reason b b2
    exact ⟨c.nside, 20, c.maxAlt, 0, 360, c.pairTime * 2 + c.pad, 0, by simp [longOne, ownAltAz], le_rfl⟩
  · intro c b b2
    exact ⟨c.nside, 20, c.maxAlt, 0, 360, c.pairTime * 2 + c.pad, 0, by simp [shortBlob, ownAltAz], le_rfl⟩
  · intro nside w rw shadow top u bands p b
    exact ⟨nside, 20, top, 0, 360, shadow, 0, by simp [greedy, ownAltAz], le_rfl⟩
  · intro c q a b b2 hc hq
    obtain ⟨m, hm, _, hle⟩ := lower_same (prepare c.params c.nside (c.pairTime * 2 + c.pad)) c.maxAlt
    have hq' : (prepare c.params c.nside (c.pairTime * 2 + c.pad)).maxAlt = some a := by
      unfold prepare
      obtain ⟨sh, h⟩ := raise_same (orGrid c.params c.nside) (c.pairTime * 2 + c.pad)
      rw [h, hc]
      exact hq
    obtain ⟨n, lo, hi, x, y, sh, w, hmem, htop⟩ := ceiling_masks (lowerCeiling (prepare c.params c.nside (c.pairTime * 2 + c.pad)) c.maxAlt)
    refine ⟨n, lo, hi, x, y, sh, w, List.mem_append_right _ hmem, le_trans htop ?_⟩
    rw [hm]
    exact hle a hq'

/-- C171 is violated by surveys of pairs: without a ceiling in the dictionary that of the argument is not used. -/
theorem C171_pairs_violated : ∃ (c : BlobCfg) (b : String) (b2 : Option String), c.maxAlt = 76 ∧ c.params = none ∧ ¬ Ceiling c.maxAlt (blob c b b2).terms := by
  refine ⟨demoBlob none, "g", some "r", rfl, rfl, ?_⟩
  rintro ⟨n, lo, hi, a, b, sh, w, h, hle⟩
  simp [blob, demoBlob, standardBf, perBand, weightless, safetyMasks, lowerCeiling, prepare, raiseShadow, orGrid, goodSeeing, bandList] at h
  simp only [demoBlob] at hle
  rw [h.1.2.2.1] at hle
  norm_num at hle

example : Ceiling 76 (blob (demoBlob (some { maxAlt := some 84 })) "g" (some "r")).terms :=
  C171_ceiling_partial.2.2.2.2 (demoBlob (some { maxAlt := some 84 })) _ 84 "g" (some "r") rfl rfl

/-! ### C172: the weights -/

theorem weightOf_append (f : Term → Bool) (a b : List (Term × ℚ)) : weightOf f (a ++ b) = weightOf f a + weightOf f b := by
  simp [weightOf]

theorem weightOf_nil (f : Term → Bool) : weightOf f [] = 0 := rfl

theorem weightOf_cons (f : Term → Bool) (t : Term) (w : ℚ) (l : List (Term × ℚ)) : weightOf f ((t, w) :: l) = (if f t then w else 0) + weightOf f l := by
  unfold weightOf
  by_cases h : f t <;> simp [h]

theorem weightOf_weightless (f : Term → Bool) (ts : List Term) : weightOf f (weightless ts) = 0 := by
  induction ts with
  | nil => rfl
  | cons t ts ih =>
    show weightOf f ((t, 0) :: weightless ts) = 0
    rw [weightOf_cons, ih]
    simp

/-- The terms of one survey that are neither of the rewards nor of the bands. -/
theorem weighted_of (nside : ℕ) (b : String) (b2 : Option String) (w : Weights) (strict : Bool) (s : Survey) (rest : List (Term × ℚ)) (h1 : s.band1 = b)
    (h2 : s.band2 = b2) (ht : s.terms = standardBf nside b b2 w strict ++ rest) (hd : weightOf isDepth rest = 0) (hf : weightOf isFootprint rest = 0)
    (hs : weightOf isSlew rest = 0) (hc : weightOf isStay rest = 0) : Weighted nside w s := by
  unfold Weighted
  rw [ht, h1, h2]
  simp only [weightOf_append, hd, hf, hs, hc, standardBf]
  refine ⟨?_, ?_, ?_, ?_, ?_, ?_⟩
  · cases b2 <;> simp [perBand, weightOf_cons, weightOf_nil, isDepth] <;> cases strict <;> simp
  · cases b2 <;> simp [perBand, weightOf_cons, weightOf_nil, isFootprint] <;> cases strict <;> simp
  · cases b2 <;> simp [perBand, weightOf_cons, weightOf_nil, isSlew] <;> cases strict <;> simp
  · cases b2 <;> simp [perBand, weightOf_cons, weightOf_nil, isStay] <;> cases strict <;> simp
  · intro x hx
    exact ⟨bandList b b2, hx, by simp⟩
  · intro x hx
    cases b2 with
    | none =>
      simp only [Option.toList_none, List.mem_singleton] at hx
      subst hx
      simp [perBand]
    | some b' =>
      simp only [Option.toList_some, List.mem_cons, List.not_mem_nil, or_false] at hx
      rcases hx with rfl | rfl
      · constructor <;> simp [perBand] <;> norm_num
      · constructor <;> simp [perBand] <;> norm_num

/-- C172: in the surveys of the baseline the rewards for depth, footprint, slew and band have in all the weights asked for, shared evenly between the
bands, and every band of the survey has to be mounted. -/
theorem C172_weights :
    (∀ nside w seeing pairTime haMin haMax maxAlt shown dark nObs uNexp bl p b,
      Weighted nside w (template nside w seeing pairTime haMin haMax maxAlt shown dark nObs uNexp bl p b))
    ∧ (∀ (c : LongCfg) reason b b2, Weighted c.nside c.weights (longOne c reason b b2))
    ∧ (∀ (c : BlobCfg) b b2, Weighted c.nside c.weights (blob c b b2) ∧ Weighted c.nside c.weights (shortBlob c b b2))
    ∧ (∀ nside w rw shadow top u bands p b, Weighted nside w (greedy nside w rw shadow top u bands p b)) := by
  refine ⟨?_, ?_, ?_, ?_⟩
  · intro nside w seeing pairTime haMin haMax maxAlt shown dark nObs uNexp bl p b
    refine weighted_of nside b none w true _ _ rfl rfl (by simp only [template, List.append_assoc]; rfl) ?_ ?_ ?_ ?_ <;>
    · by_cases h : dark.contains b = true <;>
      simp only [h, if_true, if_false, Bool.false_eq_true, weightOf_append, weightOf_weightless, weightOf_cons, weightOf_nil, ownAltAz, isDepth, isFootprint, isSlew, isStay, add_zero]
  · intro c reason b b2
    refine weighted_of c.nside b b2 c.weights true _ _ rfl rfl (by simp only [longOne, List.append_assoc]; rfl) ?_ ?_ ?_ ?_ <;>
    simp [weightOf_append, weightOf_weightless, weightOf_cons, weightOf_nil, ownAltAz, isDepth, isFootprint, isSlew, isStay]
  · intro c b b2
    constructor
    · have good : ∀ (f : Term → Bool), (∀ n b k, f (.goodSeeing n b k) = false) → ∀ l : List String, weightOf f (l.flatMap (goodSeeing c.nside c.good c.goodWeight)) = 0 := by
        intro f hf l
        induction l with
        | nil => rfl
        | cons x l ih =>
          rw [List.flatMap_cons, weightOf_append, ih, add_zero]
          unfold goodSeeing
          split
          · simp [weightOf_cons, weightOf_nil, hf]
          · rfl
      refine weighted_of c.nside b b2 c.weights true _ _ rfl rfl (by simp only [blob, List.append_assoc]; rfl) ?_ ?_ ?_ ?_
      · rw [weightOf_append, weightOf_append, weightOf_append, weightOf_weightless, good _ (fun _ _ _ => rfl)]
        simp [weightOf_cons, weightOf_nil, isDepth]
      · rw [weightOf_append, weightOf_append, weightOf_append, weightOf_weightless, good _ (fun _ _ _ => rfl)]
        simp [weightOf_cons, weightOf_nil, isFootprint]
      · rw [weightOf_append, weightOf_append, weightOf_append, weightOf_weightless, good _ (fun _ _ _ => rfl)]
        simp [weightOf_cons, weightOf_nil, isSlew]
      · rw [weightOf_append, weightOf_append, weightOf_append, weightOf_weightless, good _ (fun _ _ _ => rfl)]
        simp [weightOf_cons, weightOf_nil, isStay]
    · refine weighted_of c.nside b b2 c.weights true _ _ rfl rfl (by simp only [shortBlob, List.append_assoc]; rfl) ?_ ?_ ?_ ?_ <;>
      simp [weightOf_append, weightOf_weightless, weightOf_cons, weightOf_nil, ownAltAz, isDepth, isFootprint, isSlew, isStay]
  · intro nside w rw shadow top u bands p b
    refine weighted_of nside b none w false _ _ rfl rfl (by simp only [greedy, List.append_assoc]; rfl) ?_ ?_ ?_ ?_ <;>
    simp [weightOf_append, weightOf_weightless, weightOf_cons, weightOf_nil, ownAltAz, isDepth, isFootprint, isSlew, isStay]

/-- The rewards of the simple pairs: depth, footprint, slew and band have the weights of the defaults, for one band or two. -/
theorem C172_simple (nside : ℕ) (b : String) (b2 : Option String) :
    weightOf isDepth (pairRewards nside b b2) = 6 ∧ weightOf isFootprint (pairRewards nside b b2) = 3 / 2 ∧ weightOf isSlew (pairRewards nside b b2) = 3
    ∧ weightOf isStay (pairRewards nside b b2) = 3 := by
  cases b2 <;> simp [pairRewards, simpleRewards, simpleWeights, weightOf, isDepth, isFootprint, isSlew, isStay, List.filter_cons] <;> norm_num

/-- Surveys near the sun: footprint, slew and band have the weights asked for. -/
theorem C172_near_sun (nside : ℕ) (w : Weights) (dist pairTime airmass elong sunAlt to12 : ℚ) (pattern : List Bool) (p : Option Params) (b : String) :
    weightOf isFootprint (nearSun nside w dist pairTime airmass elong sunAlt to12 pattern p b).terms = w.footprint
    ∧ weightOf isSlew (nearSun nside w dist pairTime airmass elong sunAlt to12 pattern p b).terms = w.slew
    ∧ weightOf isStay (nearSun nside w dist pairTime airmass elong sunAlt to12 pattern p b).terms = w.stay
    ∧ (Term.bandDist b, dist) ∈ (nearSun nside w dist pairTime airmass elong sunAlt to12 pattern p b).terms := by
  refine ⟨?_, ?_, ?_, by simp [nearSun]⟩ <;>
  simp [nearSun, weightOf_append, weightOf_weightless, weightOf_cons, weightOf_nil, isFootprint, isSlew, isStay]

/-- C172 for the rewards of the simple example: each has the weight asked for. -/
theorem C172_simple_each (nside : ℕ) (b : String) (w : Weights) (r : ℚ) :
    weightOf isDepth (simpleRewards nside b w r) = w.depth ∧ weightOf isFootprint (simpleRewards nside b w r) = w.footprint
    ∧ weightOf isSlew (simpleRewards nside b w r) = w.slew ∧ weightOf isStay (simpleRewards nside b w r) = w.stay
    ∧ weightOf isRepeat (simpleRewards nside b w r) = r := by
  simp [simpleRewards, weightOf, isDepth, isFootprint, isSlew, isStay, isRepeat, List.filter_cons]

example : weightOf isSlew (simpleRewards 32 "r" ⟨1, 2, 3, 4⟩ (-5)) = 3 := by
  simp [simpleRewards, weightOf, isSlew]

/-- C172, in part: simple pairs in one band are kept from being repeated at once. -/
theorem C172_repeat_partial (nside : ℕ) (b : String) : weightOf isRepeat (pairRewards nside b none) = -20 := by
  simp [pairRewards, simpleRewards, simpleWeights, weightOf, isRepeat, List.filter_cons]

/-- C172 is violated by simple pairs in two bands: rewards whose weight is not above 0 are dropped, and so is the penalty for repeats. -/
theorem C172_repeat_violated (nside : ℕ) (b b' : String) : weightOf isRepeat (pairRewards nside b (some b')) = 0
    ∧ ∀ t ∈ pairRewards nside b (some b'), isRepeat t.1 = false := by
  constructor
  · simp [pairRewards, simpleRewards, weightOf, isRepeat, List.filter_cons]
  · intro t ht
    simp [pairRewards, simpleRewards, List.filter_cons] at ht
    rcases ht with rfl | rfl | rfl | rfl | rfl | rfl | rfl <;> rfl

/-! ### C173: names and reasons -/

/-- C173: the name and the reason of a survey tell its bands, and surveys of one call with the same name have the same bands written out. -/
theorem C173_names (c : BlobCfg) (band1s : List String) (band2s : List (Option String)) :
    (∀ s ∈ blobs c band1s band2s, s.name = "pair_" ++ c.truncated ++ ", " ++ (s.band1 ++ s.band2.getD "") ∧ s.reason = "pairs_" ++ (s.band1 ++ s.band2.getD "") ++ "_" ++ c.shown)
    ∧ (∀ b b2, (shortBlob c b b2).name = "pair_" ++ c.truncated ++ ", " ++ (b ++ b2.getD "") ∧ (shortBlob c b b2).reason = "pairs_" ++ (b ++ b2.getD "") ++ "_" ++ c.shown)
    ∧ (∀ s ∈ blobs c band1s band2s, ∀ t ∈ blobs c band1s band2s, s.name = t.name → s.band1 ++ s.band2.getD "" = t.band1 ++ t.band2.getD "") := by
  have h : ∀ s ∈ blobs c band1s band2s, s.name = "pair_" ++ c.truncated ++ ", " ++ (s.band1 ++ s.band2.getD "") ∧ s.reason = "pairs_" ++ (s.band1 ++ s.band2.getD "") ++ "_" ++ c.shown := by
    intro s hs
    obtain ⟨q, _, rfl⟩ := List.mem_map.1 hs
    exact ⟨rfl, rfl⟩
  refine ⟨h, fun b b2 => ⟨rfl, rfl⟩, fun s hs t ht e => ?_⟩
  rw [(h s hs).1, (h t ht).1] at e
  have e' := congrArg String.toList e
  rw [String.toList_append, String.toList_append (s := _) (t := t.band1 ++ _)] at e'
  exact String.toList_inj.1 (List.append_cancel_left e')

/-- C173: so do the names and reasons of templates and of single visits. -/
theorem C173_singles (nside : ℕ) (w : Weights) (rw shadow top : ℚ) (u : ℕ) (bands : List String) (p : Option Params) (b : String)
    (seeing pairTime haMin haMax maxAlt : ℚ) (shown : String) (dark : List String) (nObs : String → ℕ) (uNexp : ℕ) (bl : Option ℕ) :
    (greedy nside w rw shadow top u bands p b).name = "greedy " ++ b ∧ (greedy nside w rw shadow top u bands p b).reason = "singles_" ++ b
    ∧ (template nside w seeing pairTime haMin haMax maxAlt shown dark nObs uNexp bl p b).name = "templates, " ++ b
    ∧ (template nside w seeing pairTime haMin haMax maxAlt shown dark nObs uNexp bl p b).reason = "template_blob_" ++ b ++ "_" ++ shown :=
  ⟨rfl, rfl, rfl, rfl⟩

/-- C173 is violated by visits near the sun: surveys in all bands have one name and reason. -/
theorem C173_near_sun_violated (nside : ℕ) (w : Weights) (dist pairTime airmass elong sunAlt to12 : ℚ) (pattern : List Bool) (p : Option Params) (b b' : String) :
    (nearSun nside w dist pairTime airmass elong sunAlt to12 pattern p b).name = (nearSun nside w dist pairTime airmass elong sunAlt to12 pattern p b').name
    ∧ (nearSun nside w dist pairTime airmass elong sunAlt to12 pattern p b).reason
      = (nearSun nside w dist pairTime airmass elong sunAlt to12 pattern p b').reason :=
  ⟨rfl, rfl⟩

/-- C173, in part: the reason of pairs before a long gap tells their bands when one pair of bands is asked for, as `gen_long_gaps_survey` does, or the
caller gives none of the reason and there is only one. -/
theorem C173_long_partial (c : LongCfg) (b b' : String) (reason : Option String) :
    ∀ s ∈ blobForLong c reason [b] [some b'], s.name = "blob_long, " ++ (b ++ b') ∧ s.reason = reason.getD ("triplet_pairs_" ++ b ++ b' ++ "_" ++ c.shown) := by
  intro s hs
  simp only [blobForLong, List.zip_cons_cons, List.zip_nil_right, longLoop, List.mem_singleton] at hs
  subst hs
  exact ⟨rfl, rfl⟩

def demoLong : LongCfg := ⟨32, demoWeights, 33, 5, "33.0", 12, 41 / 2, 76, 30, 30, [true], [], 1, none, none⟩

/-- C173 is violated by several pairs of bands before a long gap: the second survey has the reason of the first. -/
theorem C173_long_violated : ((blobForLong demoLong none ["g", "r"] [some "r", some "i"]).map fun s => (s.name, s.reason))
    = [("blob_long, gr", "triplet_pairs_gr_33.0"), ("blob_long, ri", "triplet_pairs_gr_33.0")] := by
  decide +kernel

/-- C173, in part: the number of exposures in u is the one asked for, in surveys of templates, before a long gap, of single visits with u among their
bands, and of pairs when what is asked for is the constant of the module. -/
theorem C173_u_partial (c : BlobCfg) (b : String) (b2 : Option String) (hu : c.uNexp = c.uConstant) (h : b = "u" ∨ b2 = some "u") (l : LongCfg) (reason : String)
    (nside : ℕ) (w : Weights) (rw shadow top : ℚ) (u : ℕ) (bands : List String) (p : Option Params) (hb : "u" ∈ bands) :
    (blob c b b2).uSnaps = some c.uNexp ∧ (longOne l reason b b2).uSnaps = some l.uNexp ∧ (greedy nside w rw shadow top u bands p b).uSnaps = some u := by
  refine ⟨by simp [blob, h, hu], rfl, by simp [greedy, hb]⟩

/-- C173 is violated by pairs in u: the number of exposures asked for is not used. -/
theorem C173_u_violated : ∃ (c : BlobCfg), c.uNexp = 2 ∧ (blob c "u" (some "g")).uSnaps = some 1 := ⟨{ demoBlob none with uNexp := 2 }, rfl, rfl⟩

/-! ### C174: lists of the caller -/

/-- C174, in part: a simple survey of pairs leaves the list of masks given to it as it was when it is not told to keep clear of twilight. -/
theorem C174_list_partial (nside : ℕ) (pairTime : ℚ) (b : String) (b2 : Option String) (given : Option (List Term)) :
    (simplePairs nside pairTime b b2 false given).2 = given
    ∧ ∀ bs masks, simpleMany nside pairTime false bs masks = bs.map fun q => (simplePairs nside pairTime q.1 q.2 false (some masks)).1 := by
  constructor
  · cases given <;> simp [simplePairs, pairMasks]
  · intro bs
    induction bs with
    | nil => intro masks; rfl
    | cons q bs ih =>
      intro masks
      obtain ⟨b, b2⟩ := q
      rw [simpleMany, List.map_cons, ih]
      simp [pairMasks]

/-- C174 is violated when it is told to: the list of the caller grows, and a survey in one band made after one in two needs twice its own time
before twilight. -/
theorem C174_list_violated :
    (simplePairs 32 30 "g" (some "r") true (some [.planets 32])).2 = some [.planets 32, .toTwilight 60]
    ∧ ((simpleMany 32 30 true [("g", some "r"), ("i", none)] [.planets 32])[1]?.map fun ts => decide ((Term.toTwilight 60, 0) ∈ ts)) = some true
    ∧ (Term.toTwilight 60, 0) ∉ (simplePairs 32 30 "i" none true (some [.planets 32])).1 := by
  decide +kernel

/-! ### C175: seasons of the Roman field -/

/-- C175: the two surveys of the Roman field are never both in their windows, and from the first to the last season there is always one within a day. -/
theorem C175_roman (c : Feas.Cond) :
    ¬ (Feas.inTimeWindow seasonsOn c = true ∧ Feas.inTimeWindow seasonsOff c = true)
    ∧ (∀ t, 619473 / 10 - 32 ≤ t → t ≤ 637732 / 10 + 32 → c.mjd = t →
      Feas.inTimeWindow seasonsOn c = true ∨ Feas.inTimeWindow seasonsOff c = true ∨ Feas.inTimeWindow seasonsOn { c with mjd := t - 1 } = true
        ∨ Feas.inTimeWindow seasonsOn { c with mjd := t + 1 } = true) := by
  have e1 : seasonsOn = [(619153 / 10, 619793 / 10), (622868 / 10, 623508 / 10), (626383 / 10, 627023 / 10), (630352 / 10, 630992 / 10), (633494 / 10, 634134 / 10), (637412 / 10, 638052 / 10)] := by
    decide +kernel
  have e2 : seasonsOff = [(619803 / 10, 622858 / 10), (623518 / 10, 626373 / 10), (627033 / 10, 630342 / 10), (631002 / 10, 633484 / 10), (634144 / 10, 637402 / 10)] := by
    decide +kernel
  have win : ∀ (l : List (ℚ × ℚ)) (c : Feas.Cond), Feas.inTimeWindow l c = true ↔ ∃ w ∈ l, min w.1 w.2 ≤ c.mjd ∧ c.mjd ≤ max w.1 w.2 := by
    intro l c
    unfold Feas.inTimeWindow
    have : ∀ (r : Bool), l.foldl (fun r w => if Feas.inWindow w c.mjd then true else r) r = true ↔ r = true ∨ ∃ w ∈ l, min w.1 w.2 ≤ c.mjd ∧ c.mjd ≤ max w.1 w.2 := by
      induction l with
      | nil => intro r; simp
      | cons w l ih =>
        intro r
        rw [List.foldl_cons, ih]
        by_cases h : Feas.inWindow w c.mjd = true
        · have h' := h
          simp only [Feas.inWindow, Bool.and_eq_true, decide_eq_true_eq] at h'
          simp only [h, if_true, true_or, true_iff]
          exact Or.inr ⟨w, List.mem_cons_self, h'⟩
        · have h' := h
          simp only [Feas.inWindow, Bool.and_eq_true, decide_eq_true_eq] at h'
          rw [if_neg h]
          simp only [List.mem_cons, exists_eq_or_imp, h', false_or]
    simpa using this false
  constructor
  · rintro ⟨h1, h2⟩
    rw [win, e1] at h1
    rw [win, e2] at h2
    obtain ⟨w, hw, a, b⟩ := h1
    obtain ⟨v, hv, c1, d⟩ := h2
    simp only [List.mem_cons, List.not_mem_nil, or_false] at hw hv
    rcases hw with rfl | rfl | rfl | rfl | rfl | rfl <;> rcases hv with rfl | rfl | rfl | rfl | rfl <;> norm_num at a b c1 d <;> linarith
  · intro t h1 h2 ht
    simp only [win, e1, e2, ht]
    simp only [List.mem_cons, List.not_mem_nil, or_false, exists_eq_or_imp, exists_eq_left]
    norm_num
    by_contra hcon
    simp only [not_or, not_and, not_le] at hcon
    obtain ⟨⟨a1, a2, a3, a4, a5, a6⟩, ⟨b1, b2, b3, b4, b5⟩, ⟨c1, c2, c3, c4, c5, c6⟩, d1, d2, d3, d4, d5, d6⟩ := hcon
    norm_num at h1 h2
    have s1 := a1 (by linarith)
    have s2 := c1 (by linarith)
    have s3 := b1 (by linarith)
    have s4 := d2 (by linarith)
    have s5 := a2 (by linarith)
    have s6 := c2 (by linarith)
    have s7 := b2 (by linarith)
    have s8 := d3 (by linarith)
    have s9 := a3 (by linarith)
    have t1 := c3 (by linarith)
    have t2 := b3 (by linarith)
    have t3 := d4 (by linarith)
    have t4 := a4 (by linarith)
    have t5 := c4 (by linarith)
    have t6 := b4 (by linarith)
    have t7 := d5 (by linarith)
    have t8 := a5 (by linarith)
    have t9 := c5 (by linarith)
    have u1 := b5 (by linarith)
    have u2 := d6 (by linarith)
    have u3 := a6 (by linarith)
    linarith

end Verif
