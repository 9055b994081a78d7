import Verif.Model.Reward
import Verif.Lemmas.Clear
import Verif.Props.Core
import Mathlib.Data.List.GetD
import Mathlib.Algebra.BigOperators.Ring.List
import Mathlib.Tactic.Linarith
import Mathlib.Tactic.Positivity

/-! C51, C94-C96: the reward of a survey. -/

namespace Verif

open Rew

variable {C Sv A : Type}

/-! ### C51 -/

theorem checkLoop_false (bs : List (Basis × ℚ)) : checkLoop bs = some false ↔ ∃ b ∈ bs, b.1.feasible = false := by
  induction bs with
  | nil => simp [checkLoop]
  | cons b bs ih =>
    unfold checkLoop
    by_cases hb : b.1.feasible = true
    · rw [if_pos hb]
      constructor
      · intro h
        have : checkLoop bs = some false := by
          rcases hc : checkLoop bs with _ | _ | _ <;> rw [hc] at h <;> simp_all
        obtain ⟨x, hx, hf⟩ := ih.1 this
        exact ⟨x, List.mem_cons_of_mem _ hx, hf⟩
      · rintro ⟨x, hx, hf⟩
        rcases List.mem_cons.1 hx with rfl | hx
        · rw [hb] at hf; cases hf
        · rw [ih.2 ⟨x, hx, hf⟩]; rfl
    · rw [if_neg hb]
      simp only [true_iff]
      exact ⟨b, List.mem_cons_self, by simpa using hb⟩

theorem checkLoop_true {bs : List (Basis × ℚ)} (hne : bs ≠ []) (h : ∀ b ∈ bs, b.1.feasible = true) :
    checkLoop bs = some true := by
  rcases hc : checkLoop bs with _ | _ | _
  · cases bs with
    | nil => exact absurd rfl hne
    | cons b bs => unfold checkLoop at hc; split_ifs at hc
  · obtain ⟨b, hb, hf⟩ := (checkLoop_false bs).1 hc
    rw [h b hb] at hf; cases hf
  · rfl

/-- C51: if one basis function of a survey is infeasible the reward is -inf, for every kind
of survey built on basis functions and whatever else is configured. -/
theorem C51_infeasible (kd : Kind) (bs : List (Basis × ℚ)) (h : ∃ b ∈ bs, b.1.feasible = false) :
    reward kd bs = some (.scalar .ninf) := by
  have hl := (checkLoop_false bs).2 h
  have hb : baseFeasible bs = false := by unfold baseFeasible; rw [hl]; rfl
  cases kd with
  | base => simp [reward, hb]
  | markov a k => simp [reward, markovFeasible, hl, rewardWith]
  | blob a k => simp [reward, markovFeasible, hl, rewardWith]
  | pairs a e k => simp [reward, pairsFeasible, hl, rewardWith]
  | field p => simp [reward, hb, rewardWith]
  | deep v x y => simp [reward, hb]

/-- C51: such a survey is never the one whose visits fill the queue. -/
theorem C51_never_selected (E : Env C Sv A) (s s' : Core C Sv A) (c : C) (ev : List Ev) (i j : ℕ) (tier : List Sv) (sv : Sv)
    (hc : s.conditions = some c) (h : s.fillQueue E = .ok (s', ev)) (hi : s.tiers[i]? = some tier) (hj : tier[j]? = some sv)
    (kd : Kind) (bs : List (Basis × ℚ)) (v : Val) (hv : reward kd bs = some v) (hr : (E.sv.reward sv c).1 = entries v)
    (hinf : ∃ b ∈ bs, b.1.feasible = false) : s'.surveyIndex ≠ (some i, some j) := by
  intro hix
  rw [C51_infeasible kd bs hinf] at hv
  cases hv
  rcases Core.fillQueue_spec hc h with ⟨_, _, h3, _⟩ | ⟨i', j', tier', sv', _, hi', hj', hix', _, hf, _⟩
  · rw [h3] at hix; cases hix
  · rw [hix'] at hix; cases hix
    rw [hi] at hi'; cases hi'
    rw [hj] at hj'; cases hj'
    obtain ⟨r, hr1, hr2⟩ := hf
    rw [hr] at hr1
    simp [entries] at hr1
    subst hr1
    simp [XReal.ltB] at hr2

/-- Two basis functions over three pixels, the second masks the last pixel. -/
def twoBases : List (Basis × ℚ) :=
  [(⟨true, .map [.fin 1, .fin 2, .fin 3]⟩, 1), (⟨true, .map [.fin 0, .fin 0, .nan]⟩, 0)]

example : reward .base (twoBases ++ [(⟨false, .scalar (.fin 0)⟩, 1)]) = some (.scalar .ninf) := by decide +kernel
example : reward (.field 1) twoBases = some (.scalar (.fin 2)) := by decide +kernel
example : reward (.deep none 7 1) twoBases = some (.scalar (.fin (7 / 2))) := by decide +kernel

/-! ### C95: the weighted sum -/

/-- The value a basis function (or reward) has at a pixel: its entry, or the one number it is
everywhere. -/
def valueAt (i : ℕ) : Val → XReal
  | .scalar x => x
  | .map l => l.getD i .nan

/-- The pixel is on the map. -/
def Covers (i : ℕ) : Val → Prop
  | .scalar _ => True
  | .map l => i < l.length

theorem valueAt_map {i : ℕ} {l : List XReal} (h : i < l.length) : valueAt i (.map l) = l[i] :=
  List.getD_eq_getElem _ _ h

theorem plus_at {u v w : Val} {i : ℕ} (h : plus u v = some w) (hc : Covers i w) :
    Covers i u ∧ Covers i v ∧ valueAt i w = XReal.add (valueAt i u) (valueAt i v) := by
  rcases u with x | l <;> rcases v with y | m <;> simp only [plus] at h
  · cases h; exact ⟨trivial, trivial, rfl⟩
  · cases h
    simp only [Covers, List.length_map] at hc
    refine ⟨trivial, hc, ?_⟩
    simp [valueAt, List.getD_eq_getElem _ _ hc, hc]
  · cases h
    simp only [Covers, List.length_map] at hc
    refine ⟨hc, trivial, ?_⟩
    simp [valueAt, List.getD_eq_getElem _ _ hc, hc]
  · split_ifs at h with hl
    cases h
    simp only [Covers, List.length_zipWith] at hc
    have h1 : i < l.length := by omega
    have h2 : i < m.length := by omega
    refine ⟨h1, h2, ?_⟩
    simp [valueAt, List.getD_eq_getElem _ _ h1, List.getD_eq_getElem _ _ h2, h1, h2]

theorem scale_at (w : ℚ) (v : Val) (i : ℕ) (hc : Covers i v) : valueAt i (scale w v) = XReal.smul w (valueAt i v) := by
  rcases v with x | l
  · rfl
  · simp only [Covers] at hc
    simp [valueAt, scale, hc]

theorem scale_covers (w : ℚ) (v : Val) (i : ℕ) : Covers i (scale w v) ↔ Covers i v := by
  rcases v with x | l <;> simp [Covers, scale]

theorem basicFrom_at (bs : List (Basis × ℚ)) : ∀ (acc r : Val) (i : ℕ), basicFrom acc bs = some r → Covers i r →
    Covers i acc ∧ (∀ b ∈ bs, Covers i (call b.1)) ∧
    valueAt i r = bs.foldl (fun a b => XReal.add a (XReal.smul b.2 (valueAt i (call b.1)))) (valueAt i acc) := by
  induction bs with
  | nil => intro acc r i h hc; cases h; exact ⟨hc, by simp, rfl⟩
  | cons b bs ih =>
    intro acc r i h hc
    unfold basicFrom at h
    rcases hp : plus acc (scale b.2 (call b.1)) with _ | v
    · rw [hp] at h; cases h
    · rw [hp] at h
      obtain ⟨h1, h2, h3⟩ := ih v r i h hc
      obtain ⟨h4, h5, h6⟩ := plus_at hp h1
      rw [scale_covers] at h5
      refine ⟨h4, ?_, ?_⟩
      · intro x hx
        rcases List.mem_cons.1 hx with rfl | hx
        · exact h5
        · exact h2 x hx
      · rw [h3, h6, scale_at _ _ _ h5]; rfl

theorem foldl_add_nan (f : Basis × ℚ → XReal) (bs : List (Basis × ℚ)) :
    bs.foldl (fun a b => XReal.add a (f b)) .nan = .nan := by
  induction bs with
  | nil => rfl
  | cons b bs ih => rw [List.foldl_cons]; simpa [XReal.add] using ih

theorem add_nan (x : XReal) : XReal.add x .nan = .nan := by cases x <;> rfl

theorem foldl_add_has_nan (f : Basis × ℚ → XReal) (bs : List (Basis × ℚ)) (a : XReal)
    (h : ∃ b ∈ bs, f b = .nan) : bs.foldl (fun a b => XReal.add a (f b)) a = .nan := by
  induction bs generalizing a with
  | nil => simp at h
  | cons b bs ih =>
    rw [List.foldl_cons]
    obtain ⟨x, hx, hf⟩ := h
    rcases List.mem_cons.1 hx with rfl | hx
    · rw [hf, add_nan]; exact foldl_add_nan f bs
    · exact ih _ ⟨x, hx, hf⟩

theorem foldl_add_fin (f : Basis × ℚ → XReal) (q : Basis × ℚ → ℚ) (bs : List (Basis × ℚ)) (a : ℚ)
    (h : ∀ b ∈ bs, f b = .fin (q b)) :
    bs.foldl (fun a b => XReal.add a (f b)) (.fin a) = .fin (a + (bs.map q).sum) := by
  induction bs generalizing a with
  | nil => simp
  | cons b bs ih =>
    rw [List.foldl_cons, h b List.mem_cons_self]
    have e : XReal.add (.fin a) (.fin (q b)) = .fin (a + q b) := rfl
    rw [e, ih _ (fun x hx => h x (List.mem_cons_of_mem _ hx))]
    simp [add_assoc]

/-- The surveys that keep a map of rewards. -/
def IsMapKind : Kind → Prop
  | .markov .. => True
  | .blob .. => True
  | .pairs .. => True
  | _ => False

/-- The smoothing option of a survey. -/
def kernel : Kind → Option (List XReal → List XReal)
  | .markov _ k => k
  | .blob _ k => k
  | .pairs _ _ k => k
  | _ => none

/-- A reward map is the smoothed weighted sum. -/
theorem reward_map {kd : Kind} (hk : IsMapKind kd) {bs : List (Basis × ℚ)} {l : List XReal}
    (h : reward kd bs = some (.map l)) : ∃ v, basic bs = some v ∧ smoothed (kernel kd) v = .map l := by
  have key : ∀ f tail, rewardWith f (kernel kd) tail bs = some (.map l) →
      (∀ v w, tail v = some (.map w) → v = .map w) → ∃ v, basic bs = some v ∧ smoothed (kernel kd) v = .map l := by
    intro f tail hr ht
    unfold rewardWith at hr
    rcases f with _ | _ | _
    · cases hr
    · cases hr
    · rcases hb : basic bs with _ | v
      · rw [hb] at hr; cases hr
      · rw [hb] at hr; exact ⟨v, rfl, ht _ _ hr⟩
  cases kd with
  | base => exact absurd hk id
  | field _ => exact absurd hk id
  | deep _ _ _ => exact absurd hk id
  | markov a k =>
    refine key _ _ h ?_
    intro v w hv
    unfold markovTail at hv
    rcases hq : a.required with _ | req <;> rw [hq] at hv
    · simpa using hv
    · rcases v with x | m
      · cases hv
      · dsimp only at hv; split_ifs at hv <;> cases hv <;> rfl
  | blob a k =>
    refine key _ _ h ?_
    intro v w hv
    unfold blobTail at hv
    rcases hq : a.required with _ | req <;> rw [hq] at hv
    · simpa using hv
    · rcases v with x | m
      · cases hv
      · dsimp only at hv
        rcases hp : peak m with _ | p <;> rw [hp] at hv
        · cases hv
        · dsimp only at hv; split_ifs at hv <;> cases hv <;> rfl
  | pairs a e k =>
    refine key _ _ h ?_
    intro v w hv
    simpa using hv

theorem reward_feasible {kd : Kind} {bs : List (Basis × ℚ)} {l : List XReal}
    (h : reward kd bs = some (.map l)) : ∀ b ∈ bs, b.1.feasible = true := by
  intro b hb
  by_contra hf
  rw [C51_infeasible kd bs ⟨b, hb, by simpa using hf⟩] at h
  cases h

/-- C95: without smoothing, the reward of a pixel is the weighted sum of the values of the
basis functions there, whenever these are ordinary numbers. -/
theorem C95_weighted_sum (kd : Kind) (bs : List (Basis × ℚ)) (l : List XReal) (i : ℕ) (q : Basis × ℚ → ℚ)
    (hk : IsMapKind kd) (hs : kernel kd = none) (h : reward kd bs = some (.map l)) (hi : i < l.length)
    (hq : ∀ b ∈ bs, valueAt i b.1.raw = .fin (q b)) : l[i] = .fin (bs.map (fun b => b.2 * q b)).sum := by
  obtain ⟨v, hv, hsm⟩ := reward_map hk h
  rw [hs] at hsm
  have hvl : v = .map l := by rcases v with x | m <;> exact hsm
  subst hvl
  have hfe := reward_feasible h
  obtain ⟨_, _, hval⟩ := basicFrom_at bs _ _ i hv hi
  have hcall : ∀ b ∈ bs, XReal.smul b.2 (valueAt i (call b.1)) = .fin (b.2 * q b) := by
    intro b hb
    unfold call
    rw [if_pos (hfe b hb), hq b hb]; rfl
  have h2 := foldl_add_fin (fun b => XReal.smul b.2 (valueAt i (call b.1))) (fun b => b.2 * q b) bs 0 hcall
  rw [show valueAt i (.scalar (.fin 0)) = .fin 0 from rfl, h2, zero_add] at hval
  rw [← hval, valueAt_map hi]

/-- C95: a pixel masked (nan) by any basis function is masked in the reward, whatever the
weights (zero included) and with or without smoothing. -/
theorem C95_masked (kd : Kind) (bs : List (Basis × ℚ)) (l : List XReal) (i : ℕ)
    (hk : IsMapKind kd) (h : reward kd bs = some (.map l)) (hi : i < l.length)
    (hm : ∃ b ∈ bs, valueAt i b.1.raw = .nan) : l[i] = .nan := by
  obtain ⟨v, hv, hsm⟩ := reward_map hk h
  have hfe := reward_feasible h
  have key : Covers i v → valueAt i v = .nan := by
    intro hc
    obtain ⟨_, _, hval⟩ := basicFrom_at bs _ _ i hv hc
    rw [hval]
    refine foldl_add_has_nan (fun b => XReal.smul b.2 (valueAt i (call b.1))) bs _ ?_
    obtain ⟨b, hb, hn⟩ := hm
    refine ⟨b, hb, ?_⟩
    unfold call
    rw [if_pos (hfe b hb), hn]; rfl
  rcases v with x | m
  · simp [smoothed] at hsm
  · unfold smoothed at hsm
    rcases hker : kernel kd with _ | f <;> rw [hker] at hsm <;> simp only [Val.map.injEq] at hsm <;> subst hsm
    · rw [← valueAt_map hi]; exact key hi
    · simp only [List.length_zipWith] at hi
      have h1 : i < m.length := by omega
      have := key h1
      rw [List.getElem_zipWith]
      rw [valueAt_map h1] at this
      rw [this]; rfl

example : reward (.markov ⟨none, 1, 1, fun _ _ => 0, 1, false⟩ none) twoBases = some (.map [.fin 1, .fin 2, .nan]) ∧
    (∀ b ∈ twoBases, ∃ q : ℚ, valueAt 1 b.1.raw = .fin q) ∧ (∃ b ∈ twoBases, valueAt 2 b.1.raw = .nan) := by
  refine ⟨by decide +kernel, ?_, ⟨_, List.mem_cons_of_mem _ List.mem_cons_self, rfl⟩⟩
  intro b hb
  simp only [twoBases, List.mem_cons, List.not_mem_nil, or_false] at hb
  rcases hb with rfl | rfl
  · exact ⟨2, rfl⟩
  · exact ⟨0, rfl⟩

/-! ### C94: the required area -/

/-- The first of the pixels with the largest reward. -/
def IsPeak (l : List XReal) (p : ℕ) : Prop :=
  ∃ m, l[p]? = some m ∧ m ≠ .nan ∧ (∀ x ∈ l, x = .nan ∨ XReal.leB x m = true) ∧
    ∀ i < p, ∀ x, l[i]? = some x → x ≠ m

/-- Square degrees of pixels that are not masked, within the radius of a pixel. -/
def areaAround (a : Area) (l : List XReal) (p : ℕ) : ℚ :=
  ((List.range l.length).filter (fun i => decide (l.getD i .nan ≠ .nan ∧ a.sep i p < a.radius))).length * a.pixDeg

/-- No separation is within the comparison tolerance of the radius. -/
def ClearRadius (a : Area) : Prop := ∀ (n p : ℕ), ClearOf a.radius ((List.range n).map (fun i => a.sep i p))

theorem peak_spec {l : List XReal} {p : ℕ} (h : peak l = some p) : IsPeak l p := by
  unfold peak at h
  rcases hm : XReal.nanmax l with _ | m <;> rw [hm] at h
  · cases h
  · dsimp only at h
    obtain ⟨⟨x, hx, hp⟩, hb⟩ := findIdx?_first h
    have hne : x ≠ .nan := by rintro rfl; simp [XReal.eqB] at hp
    have hxm : x = m := by cases x <;> simp_all [XReal.eqB]
    subst hxm
    refine ⟨x, hx, hne, ?_, ?_⟩
    · rcases XReal.nanmax_max hm with ⟨h1, _⟩ | ⟨_, _, h3⟩
      · exact absurd h1 hne
      · exact h3
    · intro i hi y hy he
      have := hb i hi y hy
      subst he
      cases y <;> simp_all [XReal.eqB]

theorem peak_exists {l : List XReal} (h : l.any XReal.isFinite = true) : ∃ p, peak l = some p := by
  rw [List.any_eq_true] at h
  obtain ⟨x, hx, hf⟩ := h
  unfold peak
  rcases hm : XReal.nanmax l with _ | m
  · rw [XReal.nanmax_none hm] at hx; simp at hx
  · dsimp only
    rcases hp : l.findIdx? (fun r => XReal.eqB r m) with _ | p
    · exfalso
      rw [List.findIdx?_eq_none_iff] at hp
      rcases XReal.nanmax_max hm with ⟨_, h2⟩ | ⟨h1, h2, _⟩
      · rw [h2 x hx] at hf; simp [XReal.isFinite] at hf
      · have := hp m h2
        cases m <;> simp_all [XReal.eqB]
    · exact ⟨p, rfl⟩

theorem validCount_eq (a : Area) (l : List XReal) (p : ℕ) :
    validCount l ((List.range l.length).map (fun i => decide (a.sep i p < a.radius))) * a.pixDeg = areaAround a l p := by
  unfold areaAround validCount
  congr 2
  have hl : l = (List.range l.length).map (fun i => l.getD i .nan) := by
    apply List.ext_getElem
    · simp
    · intro i h1 h2; simp [List.getElem?_eq_getElem h1]
  conv_lhs => rw [show l.zip ((List.range l.length).map (fun i => decide (a.sep i p < a.radius))) =
    ((List.range l.length).map (fun i => l.getD i .nan)).zip ((List.range l.length).map (fun i => decide (a.sep i p < a.radius))) by
      rw [← hl]]
  rw [List.zip_map', List.countP_map, List.countP_eq_length_filter]
  congr 1
  apply List.filter_congr
  intro i _
  simp only [Function.comp]
  rw [Bool.eq_iff_iff]
  rcases l.getD i .nan <;> simp [XReal.isNan]

theorem nearRounded_clear {a : Area} (h : ClearRadius a) (n p : ℕ) :
    nearRounded a n p = (List.range n).map (fun i => decide (a.sep i p < a.radius)) := by
  unfold nearRounded
  have := (cmp_clear _ _ (h n p)).1
  rw [List.map_map, List.map_map] at this
  exact this

/-- C94, blob surveys: a survey with a required area only has a reward map if the unmasked
pixels around the maximum of that map cover the area. -/
theorem C94_blob_partial (a : Area) (k : Option (List XReal → List XReal)) (bs : List (Basis × ℚ)) (l : List XReal) (req : ℚ)
    (hreq : a.required = some req) (hu : 0 < a.unit) (hcl : ClearRadius a)
    (h : reward (.blob a k) bs = some (.map l)) : ∃ p, IsPeak l p ∧ req ≤ areaAround a l p := by
  simp only [reward, rewardWith] at h
  rcases hmf : markovFeasible a bs with _ | _ | _ <;> rw [hmf] at h
  · cases h
  · cases h
  dsimp only at h
  rcases hb : basic bs with _ | v <;> rw [hb] at h
  · cases h
  dsimp only at h
  generalize smoothed k v = w at h
  unfold blobTail at h
  rw [hreq] at h
  rcases w with x | m
  · cases h
  dsimp only at h
  rcases hp : peak m with _ | p <;> rw [hp] at h
  · cases h
  dsimp only at h
  split_ifs at h with hlt
  · cases h
  cases h
  refine ⟨p, peak_spec hp, ?_⟩
  rw [nearRounded_clear hcl, ← mul_assoc, validCount_eq, mul_lt_mul_iff_left₀ hu] at hlt
  exact not_lt.1 hlt

/-- C94, blob surveys, the other way: with everything feasible and enough area around the
maximum the reward is the weighted sum. -/
theorem C94_blob_enough_partial (a : Area) (bs : List (Basis × ℚ)) (l : List XReal) (req : ℚ)
    (hreq : a.required = some req) (hr : 0 ≤ req) (hu : 0 < a.unit) (hu1 : a.unit ≤ 1) (hcl : ClearRadius a) (hsky : a.hasSky = true)
    (hne : bs ≠ []) (hf : ∀ b ∈ bs, b.1.feasible = true) (hb : basic bs = some (.map l)) (hfin : ∃ q, .fin q ∈ l)
    (harea : ∀ p, IsPeak l p → req ≤ areaAround a l p) : reward (.blob a none) bs = some (.map l) := by
  have hany : l.any XReal.isFinite = true := by
    obtain ⟨q, hq⟩ := hfin
    exact List.any_eq_true.2 ⟨_, hq, rfl⟩
  obtain ⟨p, hp⟩ := peak_exists hany
  have hA := harea p (peak_spec hp)
  have hloop := checkLoop_true hne hf
  have hm : markovFeasible a bs = some true := by
    unfold markovFeasible
    rw [hloop, if_neg (by simp)]
    unfold markovArea
    rw [hreq, hb]
    dsimp only
    unfold areaOk
    dsimp only
    rw [if_pos hany, if_pos hsky, hp]
    simp only [Option.map_some]
    have : ¬ ((validCount l (nearPlain a l.length p) : ℚ) * a.pixDeg < req * a.unit) := by
      unfold nearPlain
      rw [validCount_eq, not_lt]
      refine le_trans ?_ hA
      nlinarith
    rw [decide_eq_false this]
    rfl
  simp only [reward, rewardWith, hm, hb, smoothed, blobTail, hreq, hp]
  rw [if_neg]
  rw [nearRounded_clear hcl, ← mul_assoc, validCount_eq, mul_lt_mul_iff_left₀ hu]
  exact not_lt.2 hA

/-- C94, blob surveys, in the units of the code: with an area around the maximum, in square degrees, that is less than the one required, in steradians, the survey is not
feasible. -/
theorem C94_blob_unfit_partial (a : Area) (k : Option (List XReal → List XReal)) (bs : List (Basis × ℚ)) (l : List XReal) (req : ℚ)
    (hreq : a.required = some req) (hcheck : a.hasSky = true) (hb : basic bs = some (.map l))
    (harea : ∀ p, IsPeak l p → areaAround a l p < req * a.unit) : markovFeasible a bs = some false ∧ reward (.blob a k) bs = some (.scalar .ninf) := by
  have hm : markovFeasible a bs = some false := by
    unfold markovFeasible
    split_ifs with hl
    · rfl
    · unfold markovArea
      rw [hreq, hb]
      dsimp only
      unfold areaOk
      dsimp only
      by_cases hany : l.any XReal.isFinite = true
      · obtain ⟨p, hp⟩ := peak_exists hany
        rw [if_pos hany, if_pos hcheck, hp]
        simp only [Option.map_some]
        have : (validCount l (nearPlain a l.length p) : ℚ) * a.pixDeg < req * a.unit := by
          unfold nearPlain
          rw [validCount_eq]
          exact harea p (peak_spec hp)
        rw [decide_eq_true this]
        rfl
      · rw [if_neg hany]
  exact ⟨hm, by simp [reward, rewardWith, hm]⟩

/-- Four pixels of two square degrees in a row, five degrees apart, radius seven (taking
steradians at 1/3283 per square degree). -/
def sky4 (req : ℚ) (hasSky : Bool) : Area :=
  ⟨some req, 1/3283, 2, fun i j => 5 * |(i : ℚ) - j|, 7, hasSky⟩

/-- One basis function with a value on three of the four pixels. -/
def oneBasis : List (Basis × ℚ) := [(⟨true, .map [.fin 1, .fin 3, .fin 2, .nan]⟩, 1)]

example : reward (.blob (sky4 6 true) none) oneBasis = some (.map [.fin 1, .fin 3, .fin 2, .nan]) := by decide +kernel
example : reward (.blob (sky4 7 true) none) oneBasis = some (.scalar .ninf) := by decide +kernel
example : markovFeasible (sky4 20000 true) oneBasis = some false ∧ markovFeasible (sky4 19000 true) oneBasis = some true := by decide +kernel

/-- C94 fails for surveys without pixel positions (`GreedySurvey`): asking for an area raises
as soon as anything is left to observe. -/
theorem C94_greedy_violated (a : Area) (k : Option (List XReal → List XReal)) (bs : List (Basis × ℚ)) (l : List XReal) (req : ℚ)
    (hreq : a.required = some req) (hsky : a.hasSky = false)
    (hf : ∀ b ∈ bs, b.1.feasible = true) (hb : basic bs = some (.map l)) (hfin : ∃ q, .fin q ∈ l) :
    reward (.markov a k) bs = none := by
  have hany : l.any XReal.isFinite = true := by
    obtain ⟨q, hq⟩ := hfin
    exact List.any_eq_true.2 ⟨_, hq, rfl⟩
  have hloop : checkLoop bs ≠ some false := by
    intro h
    obtain ⟨b, hb, hbf⟩ := (checkLoop_false bs).1 h
    rw [hf b hb] at hbf; cases hbf
  simp [reward, rewardWith, markovFeasible, hloop, markovArea, hreq, hb, areaOk, hany, hsky]

example : basic oneBasis = some (.map [.fin 1, .fin 3, .fin 2, .nan]) ∧ reward (.markov (sky4 6 false) none) oneBasis = none := by
  decide +kernel

/-- C94 fails for `BlobPairsSurvey`: the pixel area is in square degrees and the requirement
in steradians, so a survey that asks for 1000 square degrees is content with 6. -/
theorem C94_pairs_violated : ∃ (a : Area) (l : List XReal) (bs : List (Basis × ℚ)), a.required = some 1000 ∧
    reward (.pairs a none none) bs = some (.map l) ∧ ∀ p, areaAround a l p ≤ 8 := by
  refine ⟨sky4 1000 true, [.fin 1, .fin 3, .fin 2, .nan], oneBasis, rfl, by decide +kernel, ?_⟩
  intro p
  unfold areaAround
  have h1 : ((List.range [XReal.fin 1, .fin 3, .fin 2, .nan].length).filter (fun i => decide
      ([XReal.fin 1, .fin 3, .fin 2, .nan].getD i .nan ≠ .nan ∧ (sky4 1000 true).sep i p < (sky4 1000 true).radius))).length ≤ 4 :=
    le_trans (List.length_filter_le _ _) (by simp)
  have h2 : (((List.range [XReal.fin 1, .fin 3, .fin 2, .nan].length).filter (fun i => decide
      ([XReal.fin 1, .fin 3, .fin 2, .nan].getD i .nan ≠ .nan ∧ (sky4 1000 true).sep i p < (sky4 1000 true).radius))).length : ℚ) ≤ 4 := by
    exact_mod_cast h1
  have h3 : (sky4 1000 true).pixDeg = 2 := rfl
  rw [h3]
  linarith

/-- C94 for `BlobPairsSurvey`, what is checked: the area in square degrees is at least the
requirement converted to steradians (about 1/3283 of it). -/
theorem C94_pairs_partial (a : Area) (k : Option (List XReal → List XReal)) (bs : List (Basis × ℚ)) (l : List XReal) (req : ℚ)
    (hreq : a.required = some req) (hcl : ClearRadius a) (hb : basic bs = some (.map l))
    (h : ∃ m, reward (.pairs a none k) bs = some (.map m)) : ∃ p, IsPeak l p ∧ req * a.unit ≤ areaAround a l p := by
  obtain ⟨m, h⟩ := h
  simp only [reward, rewardWith] at h
  rcases hpf : pairsFeasible a none bs with _ | _ | _ <;> rw [hpf] at h
  · cases h
  · cases h
  unfold pairsFeasible at hpf
  by_cases hl : checkLoop bs = some false
  · rw [if_pos hl] at hpf; cases hpf
  rw [if_neg hl] at hpf
  rcases hpa : pairsArea a bs (checkLoop bs) with _ | _ | _ <;> rw [hpa] at hpf
  · cases hpf
  · cases hpf
  unfold pairsArea at hpa
  rw [hreq, hb] at hpa
  dsimp only at hpa
  unfold areaOk at hpa
  dsimp only at hpa
  split_ifs at hpa with h1 h2
  case neg => cases hpa
  rcases hp : peak l with _ | p <;> rw [hp] at hpa
  · cases hpa
  · simp only [Option.map_some, Option.some.injEq, Bool.not_eq_true', decide_eq_false_iff_not, not_lt] at hpa
    rw [nearRounded_clear hcl, validCount_eq] at hpa
    exact ⟨p, peak_spec hp, hpa⟩

/-! ### C96: single fields -/

/-- C96: the reward of a field survey is the mean of the values of its basis functions at the
pixel of the field, as long as these are ordinary numbers. -/
theorem C96_field_mean (raws : List Basis) (pix : ℕ) (q : Basis → ℚ) (v : Val)
    (hf : ∀ b ∈ raws, b.feasible = true) (hq : ∀ b ∈ raws, valueAt pix b.raw = .fin (q b))
    (h : reward (.field pix) (raws.map (fun b => (b, 1 / (raws.length : ℚ)))) = some v) :
    v = .scalar (.fin ((raws.map q).sum / raws.length)) := by
  have hfe : baseFeasible (raws.map (fun b => (b, 1 / (raws.length : ℚ)))) = true := by
    unfold baseFeasible
    rcases hc : checkLoop (raws.map (fun b => (b, 1 / (raws.length : ℚ)))) with _ | _ | _
    · rfl
    · obtain ⟨b, hb, hbf⟩ := (checkLoop_false _).1 hc
      obtain ⟨x, hx, rfl⟩ := List.mem_map.1 hb
      rw [hf x hx] at hbf; cases hbf
    · rfl
  simp only [reward, rewardWith, hfe] at h
  rcases hb : basic (raws.map (fun b => (b, 1 / (raws.length : ℚ)))) with _ | w <;> rw [hb] at h
  · cases h
  have hw : ∀ (hc : Covers pix w), valueAt pix w = .fin ((raws.map q).sum / raws.length) := by
    intro hc
    obtain ⟨_, _, hval⟩ := basicFrom_at _ _ _ pix hb hc
    rw [hval]
    have := foldl_add_fin (fun b => XReal.smul b.2 (valueAt pix (call b.1))) (fun b => b.2 * q b.1)
      (raws.map (fun b => (b, 1 / (raws.length : ℚ)))) 0 (by
        intro b hb
        obtain ⟨x, hx, rfl⟩ := List.mem_map.1 hb
        dsimp only
        unfold call
        rw [if_pos (hf x hx), hq x hx]; rfl)
    rw [show valueAt pix (.scalar (.fin 0)) = .fin 0 from rfl, this, zero_add, List.map_map]
    congr 1
    have e : (raws.map q).sum / raws.length = (raws.map (fun b => 1 / (raws.length : ℚ) * q b)).sum := by
      rw [List.sum_map_mul_left, one_div, div_eq_inv_mul]
    rw [e]
    rfl
  rcases w with x | l
  · have := hw trivial
    simp only [smoothed, atField, Option.some.injEq] at h
    rw [← h]
    simp only [valueAt] at this
    rw [this]
  · simp only [smoothed, atField] at h
    rcases hl : l[pix]? with _ | x <;> rw [hl] at h
    · cases h
    · have hlt : pix < l.length := by
        rw [List.getElem?_eq_some_iff] at hl; exact hl.1
      have := hw hlt
      simp only [valueAt, List.getD_eq_getElem?_getD, hl, Option.getD_some] at this
      simp only [Option.map_some, Option.some.injEq] at h
      rw [← h, this]
      simp

example : reward (.field 1) ([⟨true, .map [.fin 1, .fin 5]⟩, ⟨true, .scalar (.fin 2)⟩].map (fun b => (b, 1 / 2))) =
    some (.scalar (.fin (7 / 2))) := by decide +kernel

/-- C96 fails for -inf: when a basis function rules the pixel out with -inf, the reward of the
field is +inf, the highest there is. -/
theorem C96_minus_infinity_violated : ∃ (pix : ℕ) (bs : List (Basis × ℚ)),
    (∃ b ∈ bs, valueAt pix b.1.raw = .ninf) ∧ (∀ b ∈ bs, valueAt pix b.1.raw = .ninf ∨ valueAt pix b.1.raw = .fin 1) ∧
    reward (.field pix) bs = some (.scalar .pinf) := by
  refine ⟨0, [(⟨true, .map [.fin 1, .fin 1]⟩, 1/2), (⟨true, .map [.ninf, .fin 1]⟩, 1/2)], ?_, ?_, by decide +kernel⟩
  · exact ⟨_, List.mem_cons_of_mem _ List.mem_cons_self, rfl⟩
  · intro b hb
    simp only [List.mem_cons, List.not_mem_nil, or_false] at hb
    rcases hb with rfl | rfl
    · right; rfl
    · left; rfl

end Verif
