import Verif.Model.MarkovSim
import Verif.Props.WholeIdle
import Verif.Props.WholeLimits

/-!
Property C255: only the ratios of the weights of basis functions matter to a simulation.
-/

namespace Verif

open XReal Rew

/-! ### A positive factor -/

section
variable {x : ℚ} (hx : 0 < x)

include hx in
theorem smul_isNan (a : XReal) : (smul x a).isNan = a.isNan := by
  cases a <;> simp [smul, isNan, hx, hx.ne']

include hx in
theorem smul_isFinite (a : XReal) : (smul x a).isFinite = a.isFinite := by
  cases a <;> simp [smul, isFinite, hx, hx.ne']

include hx in
theorem smul_ltB (a b : XReal) : ltB (smul x a) (smul x b) = ltB a b := by
  cases a <;> cases b <;> simp [smul, ltB, hx, hx.ne', mul_lt_mul_iff_right₀ hx]

include hx in
theorem smul_leB (a b : XReal) : leB (smul x a) (smul x b) = leB a b := by
  cases a <;> cases b <;> simp [smul, leB, hx, hx.ne', mul_le_mul_iff_right₀ hx]

include hx in
theorem smul_eqB (a b : XReal) : eqB (smul x a) (smul x b) = eqB a b := by
  cases a <;> cases b <;> simp [smul, eqB, hx, hx.ne']

include hx in
theorem smul_add (a b : XReal) : smul x (add a b) = add (smul x a) (smul x b) := by
  cases a <;> cases b <;> simp [smul, add, hx, hx.ne', mul_add]

include hx in
theorem smul_weight (w : ℚ) (a : XReal) : smul (x * w) a = smul x (smul w a) := by
  cases a
  · rfl
  · by_cases hw : w = 0
    · simp [smul, hw]
    · by_cases hp : 0 < w
      · simp [smul, hw, hx, hx.ne', hp]
      · have : ¬ 0 < x * w := by rw [mul_pos_iff_of_pos_left hx]; exact hp
        simp [smul, hw, hx, hx.ne', hp]
  · simp [smul, mul_assoc]
  · by_cases hw : w = 0
    · simp [smul, hw]
    · by_cases hp : 0 < w
      · simp [smul, hw, hx, hx.ne', hp]
      · have : ¬ 0 < x * w := by rw [mul_pos_iff_of_pos_left hx]; exact hp
        simp [smul, hw, hx, hx.ne', hp]

include hx in
theorem smul_grows : Grows (smul x) := ⟨rfl, by simp [smul, hx, hx.ne'], smul_ltB hx⟩

include hx in
theorem smul_mulX (a b : XReal) : mulX (smul x a) b = smul x (mulX a b) := by
  cases a
  · rfl
  · cases b
    · simp [smul, mulX, hx, hx.ne']
    · simp [smul, mulX, hx, hx.ne']
    · rename_i q
      rcases lt_trichotomy q 0 with h | h | h
      · simp [smul, mulX, hx, hx.ne', h.ne, h.not_gt]
      · simp [smul, mulX, hx, hx.ne', h]
      · simp [smul, mulX, hx, hx.ne', h.ne', h]
    · simp [smul, mulX, hx, hx.ne']
  · show smul (x * _) b = smul x (smul _ b)
    exact smul_weight hx _ b
  · cases b
    · simp [smul, mulX, hx, hx.ne']
    · simp [smul, mulX, hx, hx.ne']
    · rename_i q
      rcases lt_trichotomy q 0 with h | h | h
      · simp [smul, mulX, hx, hx.ne', h.ne, h.not_gt]
      · simp [smul, mulX, hx, hx.ne', h]
      · simp [smul, mulX, hx, hx.ne', h.ne', h]
    · simp [smul, mulX, hx, hx.ne']

/-! ### Rewards -/

/-- Weights multiplied by a factor. -/
def heavier (x : ℚ) (bs : List (Basis × ℚ)) : List (Basis × ℚ) := bs.map fun b => (b.1, x * b.2)

include hx in
theorem scale_weight (w : ℚ) (v : Val) : scale (x * w) v = scale x (scale w v) := by
  cases v with
  | scalar a => exact congrArg Val.scalar (smul_weight hx w a)
  | map l =>
    show Val.map _ = Val.map _
    rw [List.map_map]
    exact congrArg Val.map (List.map_congr_left fun a _ => smul_weight hx w a)

include hx in
theorem plus_scale (u v : Val) : plus (scale x u) (scale x v) = (plus u v).map (scale x) := by
  cases u with
  | scalar a =>
    cases v with
    | scalar b => simp [plus, scale, smul_add hx]
    | map l => simp [plus, scale, smul_add hx]
  | map l =>
    cases v with
    | scalar b => simp [plus, scale, smul_add hx]
    | map m =>
      unfold plus scale
      dsimp only
      rw [List.length_map, List.length_map]
      split_ifs
      · show some (Val.map _) = some (Val.map _)
        rw [List.map_zipWith, List.zipWith_map]
        simp only [smul_add hx]
      · rfl

include hx in
theorem basicFrom_heavier (bs : List (Basis × ℚ)) : ∀ acc, basicFrom (scale x acc) (heavier x bs) = (basicFrom acc bs).map (scale x) := by
  induction bs with
  | nil => intro acc; rfl
  | cons b bs ih =>
    intro acc
    show (match plus (scale x acc) (scale (x * b.2) (call b.1)) with | none => none | some v => basicFrom v (heavier x bs)) = _
    rw [scale_weight hx, plus_scale hx]
    show _ = Option.map (scale x) (match plus acc (scale b.2 (call b.1)) with | none => none | some v => basicFrom v bs)
    cases plus acc (scale b.2 (call b.1)) with
    | none => rfl
    | some v => exact ih v

include hx in
theorem basic_heavier (bs : List (Basis × ℚ)) : basic (heavier x bs) = (basic bs).map (scale x) := by
  have := basicFrom_heavier hx bs (.scalar (.fin 0))
  rw [show scale x (.scalar (.fin 0)) = .scalar (.fin 0) by simp [scale, smul]] at this
  exact this

theorem checkLoop_heavier (x : ℚ) (bs : List (Basis × ℚ)) : checkLoop (heavier x bs) = checkLoop bs := by
  induction bs with
  | nil => rfl
  | cons b bs ih =>
    show (if b.1.feasible then some ((checkLoop (heavier x bs)).getD true) else some false) = _
    rw [ih]
    rfl

include hx in
theorem peak_scale (l : List XReal) : peak (l.map (smul x)) = peak l := by
  unfold peak
  rw [(smul_grows hx).nanmax]
  cases XReal.nanmax l with
  | none => rfl
  | some m =>
    show (l.map (smul x)).findIdx? (fun r => eqB r (smul x m)) = _
    rw [List.findIdx?_map]
    congr 1
    funext r
    exact smul_eqB hx r m

include hx in
theorem validCount_scale (l : List XReal) (near : List Bool) : validCount (l.map (smul x)) near = validCount l near := by
  unfold validCount
  rw [List.zip_map_left, List.countP_map]
  congr 1
  funext y
  show (!(smul x y.1).isNan && y.2) = _
  rw [smul_isNan hx]

include hx in
theorem areaOk_scale (a : Area) (near : Area → ℕ → ℕ → List Bool) (req : ℚ) (v : Val) : areaOk a near req (scale x v) = areaOk a near req v := by
  cases v with
  | scalar y =>
    unfold areaOk scale
    dsimp only
    rw [smul_isFinite hx]
  | map l =>
    unfold areaOk scale
    dsimp only
    rw [peak_scale hx, List.length_map, List.any_map]
    have : (XReal.isFinite ∘ smul x) = XReal.isFinite := funext (smul_isFinite hx)
    rw [this]
    simp only [validCount_scale hx]

include hx in
theorem markovFeasible_heavier (a : Area) (bs : List (Basis × ℚ)) : markovFeasible a (heavier x bs) = markovFeasible a bs := by
  unfold markovFeasible markovArea
  rw [checkLoop_heavier, basic_heavier hx]
  cases basic bs with
  | none => rfl
  | some v =>
    dsimp only [Option.map_some]
    simp only [areaOk_scale hx]

include hx in
theorem timesV_scale (u v : Val) : timesV (scale x u) v = (timesV u v).map (scale x) := by
  cases u with
  | scalar a =>
    cases v with
    | scalar b => simp [timesV, scale, smul_mulX hx]
    | map l => simp [timesV, scale, smul_mulX hx]
  | map l =>
    cases v with
    | scalar b => simp [timesV, scale, smul_mulX hx]
    | map m =>
      unfold timesV scale
      dsimp only
      rw [List.length_map]
      split_ifs
      · show some (Val.map _) = some (Val.map _)
        rw [List.map_zipWith, List.zipWith_map_left]
        simp only [smul_mulX hx]
      · rfl

include hx in
theorem extraPass_scale (a : Area) (v : Val) (xs : List (ℚ × Basis)) : extraPass a (scale x v) xs = extraPass a v xs := by
  induction xs with
  | nil => rfl
  | cons y xs ih =>
    unfold extraPass
    rw [timesV_scale hx, ih]
    cases timesV v (call y.2) with
    | none => rfl
    | some u =>
      dsimp only [Option.map_some]
      rw [areaOk_scale hx]

include hx in
theorem pairsFeasible_heavier (a : Area) (extra : Option (List (ℚ × Basis))) (bs : List (Basis × ℚ)) : pairsFeasible a extra (heavier x bs) = pairsFeasible a extra bs := by
  unfold pairsFeasible pairsArea
  rw [checkLoop_heavier, basic_heavier hx]
  cases basic bs with
  | none => rfl
  | some v =>
    dsimp only [Option.map_some]
    simp only [areaOk_scale hx, extraPass_scale hx]

/-- Smoothing that gives a map multiplied by the factor for one multiplied by it. -/
def Homogeneous (x : ℚ) (k : Option (List XReal → List XReal)) : Prop := ∀ f, k = some f → ∀ l, f (l.map (smul x)) = (f l).map (smul x)

include hx in
theorem smoothed_scale {k : Option (List XReal → List XReal)} (hk : Homogeneous x k) (v : Val) : smoothed k (scale x v) = scale x (smoothed k v) := by
  cases v with
  | scalar a => rfl
  | map l =>
    cases k with
    | none => rfl
    | some f =>
      show Val.map (List.zipWith _ (l.map (smul x)) (f (l.map (smul x)))) = Val.map _
      rw [hk f rfl, List.zipWith_map, List.map_zipWith]
      congr 2
      funext a b
      rw [smul_isNan hx]
      split_ifs <;> rfl

include hx in
theorem scale_ninf : scale x (.scalar .ninf) = .scalar .ninf := congrArg Val.scalar (smul_grows hx).ninf

include hx in
theorem markovTail_scale (a : Area) (v : Val) : markovTail a (scale x v) = (markovTail a v).map (scale x) := by
  unfold markovTail
  cases a.required with
  | none => rfl
  | some req =>
    cases v with
    | scalar y => rfl
    | map l =>
      dsimp only [scale, Option.map_some]
      rw [List.countP_map]
      have : ((fun y : XReal => !y.isNan) ∘ smul x) = fun y => !y.isNan := funext fun y => by
        show (!(smul x y).isNan) = _
        rw [smul_isNan hx]
      rw [this]
      split_ifs
      · simp [(smul_grows hx).ninf]
      · rfl

include hx in
theorem blobTail_scale (a : Area) (v : Val) : blobTail a (scale x v) = (blobTail a v).map (scale x) := by
  unfold blobTail
  cases a.required with
  | none => rfl
  | some req =>
    cases v with
    | scalar y => rfl
    | map l =>
      dsimp only [scale]
      rw [peak_scale hx, List.length_map]
      cases peak l with
      | none => simp [scale_ninf hx]
      | some p =>
        dsimp only [Option.map_some]
        rw [validCount_scale hx]
        split_ifs
        · simp [scale_ninf hx]
        · rfl

include hx in
theorem rewardWith_scale {k : Option (List XReal → List XReal)} (hk : Homogeneous x k) (feas : Option Bool) {tail : Val → Option Val}
    (ht : ∀ v, tail (scale x v) = (tail v).map (scale x)) (bs : List (Basis × ℚ)) : rewardWith feas k tail (heavier x bs) = (rewardWith feas k tail bs).map (scale x) := by
  unfold rewardWith
  rw [basic_heavier hx]
  match feas with
  | none => rfl
  | some false => simp [scale_ninf hx]
  | some true =>
    dsimp only
    cases basic bs with
    | none => rfl
    | some v =>
      dsimp only [Option.map_some]
      rw [smoothed_scale hx hk, ht]

/-- The greedy and blob surveys, whose smoothing goes along with the factor. -/
inductive Weighed (x : ℚ) : Kind → Prop where
  | markov (a k) : Homogeneous x k → Weighed x (.markov a k)
  | blob (a k) : Homogeneous x k → Weighed x (.blob a k)
  | pairs (a extra k) : Homogeneous x k → Weighed x (.pairs a extra k)

include hx in
theorem reward_heavier {kd : Kind} (hk : Weighed x kd) (bs : List (Basis × ℚ)) : reward kd (heavier x bs) = (reward kd bs).map (scale x) := by
  cases hk with
  | markov a k h =>
    show rewardWith (markovFeasible a (heavier x bs)) _ _ _ = _
    rw [markovFeasible_heavier hx, rewardWith_scale hx h _ (markovTail_scale hx a)]
    rfl
  | blob a k h =>
    show rewardWith (markovFeasible a (heavier x bs)) _ _ _ = _
    rw [markovFeasible_heavier hx, rewardWith_scale hx h _ (blobTail_scale hx a)]
    rfl
  | pairs a extra k h =>
    show rewardWith (pairsFeasible a extra (heavier x bs)) _ _ _ = _
    rw [pairsFeasible_heavier hx, rewardWith_scale hx h _ (tail := some) (fun _ => rfl)]
    rfl

/-! ### Fields -/

open Blob

include hx in
theorem at_scale (m : List XReal) (i : ℕ) : at' (m.map (smul x)) i = smul x (at' m i) := by
  unfold at'
  rw [List.getD_eq_getElem?_getD, List.getD_eq_getElem?_getD, List.getElem?_map]
  cases m[i]? with
  | none => rfl
  | some y => rfl

include hx in
theorem sortLe_scale (a b : XReal) : sortLe (smul x a) (smul x b) = sortLe a b := by
  unfold sortLe
  rw [smul_isNan hx, smul_leB hx]

include hx in
theorem finitePixels_scale (m : List XReal) : finitePixels (m.map (smul x)) = finitePixels m := by
  unfold finitePixels
  rw [List.length_map]
  congr 1
  funext i
  rw [at_scale hx, smul_isFinite hx]

include hx in
theorem bestPixels_scale (m : List XReal) (n : ℕ) : bestPixels (m.map (smul x)) n = bestPixels m n := by
  unfold bestPixels descending
  simp only [List.length_map, at_scale hx, sortLe_scale hx, smul_isFinite hx]

include hx in
theorem fieldReward_scale (field : ℕ → ℕ) (m : List XReal) (f : ℕ) : fieldReward field (m.map (smul x)) f = smul x (fieldReward field m f) := by
  unfold fieldReward
  rw [finitePixels_scale hx]
  have : ∀ l : List ℕ, l.map (at' (m.map (smul x))) = (l.map (at' m)).map (smul x) := by
    intro l
    rw [List.map_map]
    exact List.map_congr_left fun i _ => at_scale hx m i
  rw [this, (smul_grows hx).nanmax]
  cases XReal.nanmax (((finitePixels m).filter fun i => field i == f).map (at' m)) with
  | none => rfl
  | some y => rfl

include hx in
theorem simpleSort_scale (field : ℕ → ℕ) (m : List XReal) (n : ℕ) : simpleSort field (m.map (smul x)) n = simpleSort field m n := by
  unfold simpleSort descending
  simp only [finitePixels_scale hx, fieldReward_scale hx, sortLe_scale hx]

include hx in
theorem pick_scale (m : List XReal) (cand : List ℕ) : pick (m.map (smul x)) cand = pick m cand := by
  unfold pick
  have : cand.map (at' (m.map (smul x))) = (cand.map (at' m)).map (smul x) := by
    rw [List.map_map]
    exact List.map_congr_left fun i _ => at_scale hx m i
  rw [this, (smul_grows hx).nanmax]
  cases XReal.nanmax (cand.map (at' m)) with
  | none => rfl
  | some v =>
    dsimp only [Option.map_some]
    simp only [at_scale hx, smul_eqB hx]

include hx in
theorem growLoop_scale (nb : ℕ → List ℕ) (m : List XReal) (k : ℕ) : ∀ sel, growLoop nb (m.map (smul x)) k sel = growLoop nb m k sel := by
  induction k with
  | zero => intro sel; rfl
  | succ k ih =>
    intro sel
    unfold growLoop
    rw [pick_scale hx]
    simp only [ih]

include hx in
theorem grow_scale (nb : ℕ → List ℕ) (m : List XReal) : grow nb (m.map (smul x)) = grow nb m := by
  unfold grow
  rw [peak_scale hx, List.countP_map]
  have : ((fun y : XReal => !y.isNan) ∘ smul x) = fun y => !y.isNan := funext fun y => by
    show (!(smul x y).isNan) = _
    rw [smul_isNan hx]
  rw [this]
  simp only [growLoop_scale hx]

include hx in
theorem blobFields_scale (nb : ℕ → List ℕ) (field : ℕ → ℕ) (g : Bool) (m : List XReal) (n : ℕ) : blobFields nb field g (m.map (smul x)) n = blobFields nb field g m n := by
  unfold blobFields
  simp only [grow_scale hx, simpleSort_scale hx]

include hx in
theorem passFields_scale (nb : ℕ → List ℕ) (a : Area) (field : ℕ → ℕ → ℕ) (g : Bool) (n : ℕ) (m : List XReal) (i : ℕ) :
    passFields nb a field g n (m.map (smul x)) i = passFields nb a field g n m i := by
  have hmap : passMap a (m.map (smul x)) i = (passMap a m i).map (List.map (smul x)) := by
    unfold passMap
    split_ifs
    · unfold maskFar
      rw [peak_scale hx, List.length_map, Option.map_map]
      congr 1
      funext p
      show _ = List.map (smul x) _
      rw [List.map_map]
      refine List.map_congr_left fun j _ => ?_
      show (if a.radius < a.sep j p then XReal.nan else _) = smul x (if a.radius < a.sep j p then XReal.nan else _)
      rw [at_scale hx]
      split_ifs <;> rfl
    · rfl
  unfold passFields
  rw [hmap]
  cases passMap a m i with
  | none => rfl
  | some m' => exact blobFields_scale hx nb (field i) g m' n

include hx in
theorem generate_scale (nb : ℕ → List ℕ) (a : Area) (field : ℕ → ℕ → ℕ) (g : Bool) (n : ℕ) (m : List XReal) (b1 b2 : String) (visits : ℕ) :
    generate nb a field g n (m.map (smul x)) b1 b2 visits = generate nb a field g n m b1 b2 visits := by
  have : ∀ count i, passesFrom nb a field g n (m.map (smul x)) b1 b2 count i = passesFrom nb a field g n m b1 b2 count i := by
    intro count
    induction count with
    | zero => intro i; rfl
    | succ count ih =>
      intro i
      unfold passesFrom
      rw [passFields_scale hx, ih]
  unfold generate
  rw [this]

/-! ### Surveys -/

section
variable {C F ι : Type}

/-- The survey with its weights multiplied by a factor. -/
def heavierCfg (x : ℚ) (cfg : Mrk.Cfg C F) : Mrk.Cfg C F := { cfg with basis := fun f c => (cfg.basis f c).map fun b => (b.1, x * b.2) }

theorem spin_heavier (x : ℚ) (cfg : Mrk.Cfg C F) (c : C) (s : Mrk.St F) : Mrk.spin (heavierCfg x cfg) c s = Mrk.spin cfg c s := rfl

theorem spins_heavier (x : ℚ) (cfg : Mrk.Cfg C F) (c : C) (k : ℕ) : ∀ s, Mrk.spins (heavierCfg x cfg) c k s = Mrk.spins cfg c k s := by
  induction k with
  | zero => intro s; rfl
  | succ k ih => intro s; exact ih _

include hx in
theorem rough_heavier (cfg : Mrk.Cfg C F) (s : Mrk.St F) (c : C) (m : List XReal) : Mrk.rough (heavierCfg x cfg) s c (m.map (smul x)) = Mrk.rough cfg s c m := by
  unfold Mrk.rough
  have hp : (heavierCfg x cfg).pick = cfg.pick := rfl
  rw [hp]
  cases cfg.pick with
  | greedy band block =>
    dsimp only
    unfold greedy
    rw [bestPixels_scale hx]
    rfl
  | blob nb a grow b1 b2 visits block order flush =>
    dsimp only
    simp only [spins_heavier, generate_scale hx]
    rfl

include hx in
theorem gen_heavier (cfg : Mrk.Cfg C F) (s : Mrk.St F) (c : C) (hk : Weighed x (cfg.kind s.feat c)) : Mrk.gen (heavierCfg x cfg) s c = Mrk.gen cfg s c := by
  unfold Mrk.gen
  have hr : reward ((heavierCfg x cfg).kind s.feat c) ((heavierCfg x cfg).basis s.feat c) = (reward (cfg.kind s.feat c) (cfg.basis s.feat c)).map (scale x) :=
    reward_heavier hx hk _
  rw [hr]
  cases reward (cfg.kind s.feat c) (cfg.basis s.feat c) with
  | none => rfl
  | some v =>
    cases v with
    | scalar y => rfl
    | map m =>
      show (if (Mrk.rough (heavierCfg x cfg) s c (m.map (smul x))).1 = [] then [] else _, (Mrk.rough (heavierCfg x cfg) s c (m.map (smul x))).2) = _
      rw [rough_heavier hx]
      rfl

include hx in
theorem mrk_reward_heavier (cfg : Mrk.Cfg C F) (s : Mrk.St F) (c : C) (hk : Weighed x (cfg.kind s.feat c)) :
    Mrk.reward (heavierCfg x cfg) s c = (Mrk.reward cfg s c).map (smul x) := by
  unfold Mrk.reward
  have hr : reward ((heavierCfg x cfg).kind s.feat c) ((heavierCfg x cfg).basis s.feat c) = (reward (cfg.kind s.feat c) (cfg.basis s.feat c)).map (scale x) :=
    reward_heavier hx hk _
  rw [hr]
  cases reward (cfg.kind s.feat c) (cfg.basis s.feat c) with
  | none => simp [(smul_grows hx).ninf]
  | some v => cases v <;> rfl

end

end

/-! ### Simulations -/

section
open Whole
variable {C F ι T A H K B : Type}

/-- C255: only the ratios of weights matter. When the weights of all basis functions of all greedy and blob surveys are multiplied by one positive number, and so are the
rewards of the other surveys, the simulation ends in the same way, at the same time, with the same visits, and leaves the observatory and the surveys in the same state.
Smoothing of a map has to go along with the factor, as it does where it is linear. -/
theorem C255_weights_partial (S : Obs.Site) (M : Obs.Kin K Obs) (fuel : ℕ) (conds : Obs.St K → C) (mount : K → B → K) (X : Rest H C B) (cfg : Sim.Cfg) (n : ℕ)
    (q : QEnv C A) (toos : C → Option (List (Int × Bool))) (cfgs : ι → Mrk.Cfg C F) (other : SurveyOps C T) (x : ℚ) (hx : 0 < x)
    (hk : ∀ i f c, Weighed x ((cfgs i).kind f c))
    (w : World (Core C ((ι × Mrk.St F) ⊕ T) A × H) K) (hfull : ∀ t ∈ w.sched.1.tiers, t ≠ []) (hsome : w.sched.1.tiers ≠ []) :
    let one := Sim.run (V := Obs.Visit Obs) (env S M fuel conds mount (coreSched { q := q, sv := Script.mixed (Mrk.ops cfgs) other, toos := toos } X)) cfg n w
    let two := Sim.run (V := Obs.Visit Obs) (env S M fuel conds mount (coreSched
      { q := q, toos := toos, sv := Script.mixed (Mrk.ops fun i => { cfgs i with basis := fun f c => ((cfgs i).basis f c).map fun b => (b.1, x * b.2) })
          { other with reward := fun s c => ((other.reward s c).1.map (smul x), (other.reward s c).2) } } X)) cfg n w
    two.kind = one.kind ∧ two.st.result = one.st.result ∧ two.st.mjd = one.st.mjd ∧ two.st.w.obs = one.st.w.obs ∧ two.st.w.raised = one.st.w.raised
      ∧ two.st.w.sched.1.tiers = one.st.w.sched.1.tiers := by
  dsimp only
  have key := C252_order S M fuel conds mount X cfg n { q := q, sv := Script.mixed (Mrk.ops cfgs) other, toos := toos } (fun _ => smul x) (fun _ => rfl)
    (fun _ => (smul_grows hx).ninf) (fun _ => smul_ltB hx) w hfull hsome
  have hops : Script.mixed (Mrk.ops fun i => { cfgs i with basis := fun f c => ((cfgs i).basis f c).map fun b => (b.1, x * b.2) })
        { other with reward := fun s c => ((other.reward s c).1.map (smul x), (other.reward s c).2) }
      = { Script.mixed (Mrk.ops cfgs) other with
          reward := fun s c => (((Script.mixed (Mrk.ops cfgs) other).reward s c).1.map (smul x), ((Script.mixed (Mrk.ops cfgs) other).reward s c).2) } := by
    have hr : ∀ i (s : Mrk.St F) c, Mrk.reward (heavierCfg x (cfgs i)) s c = (Mrk.reward (cfgs i) s c).map (smul x) := fun i s c => mrk_reward_heavier hx _ s c (hk i s.feat c)
    have hg : ∀ i (s : Mrk.St F) c, Mrk.gen (heavierCfg x (cfgs i)) s c = Mrk.gen (cfgs i) s c := fun i s c => gen_heavier hx _ s c (hk i s.feat c)
    have h1 : (fun (s : ι × Mrk.St F) (c : C) => (Mrk.reward (heavierCfg x (cfgs s.1)) s.2 c, s)) = fun s c => ((Mrk.reward (cfgs s.1) s.2 c).map (smul x), s) := by
      funext s c
      rw [hr]
    have h2 : (fun (s : ι × Mrk.St F) (c : C) => ((Mrk.gen (heavierCfg x (cfgs s.1)) s.2 c).1, (s.1, (Mrk.gen (heavierCfg x (cfgs s.1)) s.2 c).2)))
        = fun s c => ((Mrk.gen (cfgs s.1) s.2 c).1, (s.1, (Mrk.gen (cfgs s.1) s.2 c).2)) := by
      funext s c
      rw [hg]
    have h3 : Mrk.ops (fun i => { cfgs i with basis := fun f c => ((cfgs i).basis f c).map fun b => (b.1, x * b.2) })
        = { Mrk.ops cfgs with reward := fun s c => ((Mrk.reward (cfgs s.1) s.2 c).map (smul x), s) } := by
      show ({ reward := fun (s : ι × Mrk.St F) (c : C) => (Mrk.reward (heavierCfg x (cfgs s.1)) s.2 c, s)
              gen := fun (s : ι × Mrk.St F) (c : C) => ((Mrk.gen (heavierCfg x (cfgs s.1)) s.2 c).1, (s.1, (Mrk.gen (heavierCfg x (cfgs s.1)) s.2 c).2))
              addObs := (Mrk.ops cfgs).addObs, addArr := (Mrk.ops cfgs).addArr, update := (Mrk.ops cfgs).update, scheduled := (Mrk.ops cfgs).scheduled } : SurveyOps C (ι × Mrk.St F)) = _
      rw [h1, h2]
      rfl
    rw [h3]
    unfold Script.mixed
    dsimp only
    congr 1
    funext s c
    cases s <;> rfl
  rw [hops]
  exact key

end

/-! ### A small simulation -/

/-- Two greedy surveys, of one and of two basis functions. -/
def weighCfg (x : ℚ) (i : Bool) : Mrk.Cfg ToyC Unit where
  basis _ _ := if i then [(⟨true, .map [.fin 1, .fin 2, .nan]⟩, x * 3), (⟨true, .scalar (.fin 1)⟩, x * (-2))] else [(⟨true, .map [.fin 1, .fin 1, .fin 2]⟩, x * 1)]
  kind _ _ := .markov ⟨none, 1, 1, fun _ _ => 0, 0, false⟩ none
  tess _ := ⟨fun p => p, fun f => (f / 2, 0)⟩
  dither := .never
  night _ := 5
  pick := .greedy (if i then "r" else "g") 1
  note := "weigh"
  hear f _ := f
  hearAll f _ := f
  detail _ l := l

/-- The assumption of C255 is met, with every factor. -/
example (x y : ℚ) (i f c) : Weighed y ((weighCfg x i).kind f c) := .markov _ _ (fun _ h => by cases h)

/-- A smoothing that goes along with factors. -/
example (x : ℚ) (_ : 0 < x) : Homogeneous x (some fun l => l.map (smul (1 / 2))) := by
  rintro f ⟨⟩ l
  dsimp only
  rw [List.map_map, List.map_map]
  refine List.map_congr_left fun a _ => ?_
  show smul (1 / 2) (smul x a) = smul x (smul (1 / 2) a)
  rw [← smul_weight (by norm_num), ← smul_weight (by assumption), mul_comm]

def weighStart (r : ℚ) : Whole.World (Core ToyC ((Bool × Mrk.St Unit) ⊕ ToySv) Unit × Unit) ℚ :=
  ⟨⟨0, 0, 40⟩, (Core.init () [[.inl (false, { feat := () }), .inr ⟨[.fin r], [{ targetId := 0, band := "y" }], none⟩, .inl (true, { feat := () })]] 5 true [], ()), false⟩

/-- Bands of the visits of a simulation with weights multiplied by `x` and a survey of the fixed reward `r`. -/
def weighOut (x r : ℚ) : List (Option String) × Bool :=
  let o := Sim.run (V := Obs.Visit Obs) (Whole.env { toySite with downs := [] } wholeKin 20 (fun s => ⟨s.mjd, none⟩) (fun k _ => k)
    (Whole.coreSched { q := toyE.q, sv := Script.mixed (Mrk.ops (weighCfg x)) twiOther, toos := toyE.toos } wholeRest))
    { duration := 1 / 20, startSize := 2, appendSize := 2 } 20 (weighStart r)
  (o.st.result.map fun r => r.map fun v => v.target.band, o.st.w.raised)

/-- The same visits with other weights of the same ratios. -/
example : weighOut 1 3 = ([some "r", some "r", some "r"], false) ∧ weighOut (1 / 10) (3 / 10) = weighOut 1 3 := by
  decide +kernel

/-- C255 is violated for surveys of fixed reward, such as deep drilling surveys, in the same tier: their rewards do not go along with the weights. -/
theorem C255_fixed_violated : weighOut 1 3 = ([some "r", some "r", some "r"], false) ∧ weighOut (1 / 10) 3 = ([some "y", some "y", some "y"], false) := by
  decide +kernel

end Verif
