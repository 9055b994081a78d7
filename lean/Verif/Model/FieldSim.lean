import Verif.Model.Core
import Verif.Model.Reward
import Verif.Model.Field

/-!
Field and deep drilling surveys as surveys of the core scheduler (`/repo/rubin_scheduler/scheduler/surveys/base_survey.py` 165-200, 311-316,
`field_survey.py` 228-260, `dd_surveys.py` 144-173).

The rewards are those of `Model/Reward`, the sequences those of `Model/Field`. Left out: number and length of exposures of the visits handed out.
-/

namespace Verif.Fsm

variable {C F ι : Type}

/-- What is given at construction. `basis` evaluates basis functions, with features `F`, under conditions; `kind` is `Rew.Kind.field` or `Rew.Kind.deep` with
the counts of visits read off the features. -/
structure Cfg (C F : Type) where
  basis : F → C → List (Rew.Basis × ℚ)
  kind : F → Rew.Kind
  /-- a deep drilling survey, not a field survey -/
  deep : Bool
  /-- `self.observations` -/
  items : List Fld.Item
  read : ℚ
  change : ℚ
  pad : ℚ
  mjd : C → ℚ
  mounted : C → List String
  current : C → String
  hear : F → Obs → F
  hearAll : F → List Obs → F
  detail : C → List Obs → List Obs

/-- The row of a visit (field_survey.py 165-171, dd_surveys.py 89-98). -/
def row (x : Fld.Item) : Verif.Obs :=
  { targetId := 0, ra := x.ra, dec := x.dec, band := x.band, flushBy := x.flush, schedulerNote := x.note }

/-- `generate_observations_rough` (field_survey.py 248-260, dd_surveys.py 157-173). -/
def rough (cfg : Cfg C F) (f : F) (c : C) : List Fld.Item :=
  if cfg.deep then Fld.ddfRough (Rew.baseFeasible (cfg.basis f c)) (cfg.mjd c) (cfg.mounted c) (cfg.current c) cfg.read cfg.change cfg.pad cfg.items
  else Fld.fieldRough (Rew.baseFeasible (cfg.basis f c)) (cfg.mjd c) (cfg.mounted c) cfg.read cfg.change cfg.pad cfg.items

/-- `generate_observations` (base_survey.py 311-316): the detailers see what there is. -/
def gen (cfg : Cfg C F) (f : F) (c : C) : List Verif.Obs :=
  if rough cfg f c = [] then [] else cfg.detail c ((rough cfg f c).map row)

/-- `calc_reward_function` (field_survey.py 228-246, dd_surveys.py 144-155); -inf where it raises. -/
def reward (cfg : Cfg C F) (f : F) (c : C) : List XReal :=
  match Rew.reward (cfg.kind f) (cfg.basis f c) with
  | some v => Rew.entries v
  | none => [.ninf]

/-- The surveys among those of a scheduler; `cfgs` has what each of them was made with. A survey is its features. -/
def ops (cfgs : ι → Cfg C F) : SurveyOps C (ι × F) where
  reward s c := (reward (cfgs s.1) s.2 c, s)
  gen s c := (gen (cfgs s.1) s.2 c, s)
  addObs s o := (s.1, (cfgs s.1).hear s.2 o)
  addArr s l := (s.1, (cfgs s.1).hearAll s.2 l)
  update s _ := s
  scheduled _ := none

end Verif.Fsm
