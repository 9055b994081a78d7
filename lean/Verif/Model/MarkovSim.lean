import Verif.Model.Core
import Verif.Model.Blob

/-!
Greedy and blob surveys as surveys of the core scheduler (`/repo/rubin_scheduler/scheduler/surveys/base_survey.py` 311-316, 732-765, `surveys.py` 81-107,
466-544).

The rewards are those of `Model/Reward`, the fields chosen those of `Model/Blob`. Left out: number and length of exposures, the camera angle of zero and
the size of a block in notes.
-/

namespace Verif.Mrk

variable {C F ι : Type}

/-- A tessellation of the sky, turned in some way: the field of a pixel (`hp2fields`) and the position of a field (base_survey.py 646-710). -/
structure Tess where
  field : ℕ → ℕ
  pos : ℕ → ℚ × ℚ

/-- `dither` (base_survey.py 604-606). -/
inductive Dither where
  | night
  | call
  | never

/-- Which fields are taken. -/
inductive Pick (C : Type) where
  /-- `GreedySurvey`: band and `block_size` -/
  | greedy (band : String) (block : ℕ)
  /-- `BlobSurvey`: neighbours, distances, `grow_blob`, the bands, `n_visits`, the size of the block, the order of visits (`order_observations`) and the time
  of expiry -/
  | blob (nb : ℕ → List ℕ) (a : Rew.Area) (grow : Bool) (b1 b2 : String) (visits : ℕ) (block : C → ℕ) (order : List ℕ → List ℕ) (flush : C → ℚ)

/-- What is given at construction. `basis` evaluates basis functions, with features `F`, under conditions. -/
structure Cfg (C F : Type) where
  basis : F → C → List (Rew.Basis × ℚ)
  kind : F → C → Rew.Kind
  /-- the tessellation for the position of `lon`, `lat` and `lon2` used last; `none` as it is given -/
  tess : Option (ℤ × ℕ) → Tess
  dither : Dither
  night : C → ℤ
  pick : Pick C
  note : String
  hear : F → Obs → F
  hearAll : F → List Obs → F
  detail : C → List Obs → List Obs

/-- Features, the turn of the tessellation in use, `night`, `current_night` and `call_num`. -/
structure St (F : Type) where
  feat : F
  turn : Option (ℤ × ℕ) := none
  night : ℤ := -1
  current : ℤ := 0
  calls : ℕ := 0

/-- The turn of the tessellation (base_survey.py 753-762). -/
def spin (cfg : Cfg C F) (c : C) (s : St F) : St F :=
  match cfg.dither with
  | .night => if cfg.night c = s.night then s else { s with turn := some (cfg.night c, 0), night := cfg.night c }
  | .call =>
    if cfg.night c = s.current then { s with turn := some (cfg.night c, s.calls), calls := s.calls + 1 }
    else { s with current := cfg.night c, turn := some (cfg.night c, 0), calls := 1 }
  | .never => s

/-- After some calls of `generate_observations_rough` of the base class. -/
def spins (cfg : Cfg C F) (c : C) : ℕ → St F → St F
  | 0, s => s
  | k + 1, s => spins cfg c k (spin cfg c s)

/-- The tessellation in use. -/
def tessOf (cfg : Cfg C F) (s : St F) : Tess := cfg.tess s.turn

/-- One visit of a field (surveys.py 96-102, 525-536). -/
def row (t : Tess) (band note : String) (flush : ℚ) (f : ℕ) : Verif.Obs :=
  { targetId := 0, ra := (t.pos f).1, dec := (t.pos f).2, band := band, flushBy := flush, schedulerNote := note }

/-- The visits of the passes of a blob, from pass `i` on (surveys.py 482-538). -/
def passRows (tess : ℕ → Tess) (note : String) (flush : ℚ) (order : List ℕ → List ℕ) : ℕ → List (String × List ℕ) → List Verif.Obs
  | _, [] => []
  | i, p :: ps => (order p.2).map (row (tess i) p.1 note flush) ++ passRows tess note flush order (i + 1) ps

/-- The visits for a map of rewards (surveys.py 81-107, 466-544). The base method turns the tessellation once for each pass; a blob without fields ends in its
first pass. A map where everything is masked raises in the code; here it gives no visits. -/
def rough (cfg : Cfg C F) (s : St F) (c : C) (m : List XReal) : List Verif.Obs × St F :=
  match cfg.pick with
  | .greedy band block => ((Blob.greedy (tessOf cfg (spin cfg c s)).field m block).map (row (tessOf cfg (spin cfg c s)) band cfg.note 0), spin cfg c s)
  | .blob nb a grow b1 b2 visits block order flush =>
    let t : ℕ → Tess := fun i => tessOf cfg (spins cfg c (i + 1) s)
    let ps := (Blob.generate nb a (fun i => (t i).field) grow (block c) m b1 b2 visits).getD []
    (passRows t cfg.note (flush c) order 0 ps, spins cfg c (if ps = [] then 1 else visits) s)

/-- `generate_observations` (base_survey.py 311-316): the reward is computed anew (751), the detailers see what there is. A reward that is no map raises
in the code; here it gives no visits. -/
def gen (cfg : Cfg C F) (s : St F) (c : C) : List Verif.Obs × St F :=
  match Rew.reward (cfg.kind s.feat c) (cfg.basis s.feat c) with
  | some (.map m) => (if (rough cfg s c m).1 = [] then [] else cfg.detail c (rough cfg s c m).1, (rough cfg s c m).2)
  | _ => ([], s)

/-- `calc_reward_function`; -inf where it raises. -/
def reward (cfg : Cfg C F) (s : St F) (c : C) : List XReal :=
  match Rew.reward (cfg.kind s.feat c) (cfg.basis s.feat c) with
  | some v => Rew.entries v
  | none => [.ninf]

/-- The surveys among those of a scheduler; `cfgs` has what each of them was made with. -/
def ops (cfgs : ι → Cfg C F) : SurveyOps C (ι × St F) where
  reward s c := (reward (cfgs s.1) s.2 c, s)
  gen s c := ((gen (cfgs s.1) s.2 c).1, (s.1, (gen (cfgs s.1) s.2 c).2))
  addObs s o := (s.1, { s.2 with feat := (cfgs s.1).hear s.2.feat o })
  addArr s l := (s.1, { s.2 with feat := (cfgs s.1).hearAll s.2.feat l })
  update s _ := s
  scheduled _ := none

end Verif.Mrk
