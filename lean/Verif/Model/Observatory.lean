import Verif.Model.Downtime

/-!
Model of the simulated observatory's clock and of `observe`
(`/repo/rubin_scheduler/scheduler/model_observatory/model_observatory.py` 507-511, 583-795).

Times are exact rationals (days).  The telescope (`KinemModel`) and the filling in of visit
metadata are parameters here.
-/

namespace Verif.Obs

open Verif.Down (Iv)

/-- Ways in which a call does not return. -/
inductive Err where
  /-- numpy IndexError: outside the almanac -/
  | index
  /-- the camera rotation of the visit cannot be resolved (ValueError in 648-712) -/
  | rotation
  /-- the search has not ended within the fuel -/
  | fuel

instance : DecidableEq Err := fun a b => by
  cases a <;> cases b <;> first | exact .isTrue rfl | exact .isFalse (fun h => by cases h)

/-- The tables the clock depends on. -/
structure Site where
  /-- `cloud_data(time)` -/
  cloud : ℚ → ℚ
  /-- `cloud_limit` -/
  cloudLimit : ℚ
  /-- rows of `almanac.sunsets`: columns `starting_time_key`, `ending_time_key` -/
  nights : List (ℚ × ℚ)
  downs : List Iv
  mjdStart : ℚ
  /-- `park_after`, days -/
  parkAfter : ℚ

/-- `np.searchsorted(starts, mjd, side="right") - 1` for a table sorted by start: index of the
last row that starts at or before `mjd`, -1 if none. -/
def lastStarted (l : List (ℚ × ℚ)) (t : ℚ) : ℤ := ((l.takeWhile (fun r => r.1 ≤ t)).length : ℤ) - 1

/-- numpy indexing: negative indices count from the end. -/
def row (l : List (ℚ × ℚ)) (i : ℤ) : Except Err (ℚ × ℚ) :=
  let r := if 0 ≤ i then l[i.toNat]? else if -i ≤ (l.length : ℤ) then l[(l.length + i).toNat]? else none
  match r with
  | some x => .ok x
  | none => .error .index

/-- `check_up` (583-598). -/
def checkUp (S : Site) (t : ℚ) : Except Err (Bool × ℚ) :=
  let i := lastStarted S.downs t
  if 0 ≤ i then
    match row S.downs i with
    | .ok d => if t < d.2 then .ok (false, d.2) else .ok (true, t)
    | .error e => .error e
  else .ok (true, t)

/-- `cloud_skip / 60.0 / 24.0` with the default of 20 minutes (600, 626). -/
def cloudStep : ℚ := 20 / 60 / 24

/-- `while clouds > self.cloud_limit` (621-627), with fuel. -/
def skipClouds (S : Site) : ℕ → ℚ → Except Err ℚ
  | 0, t => if S.cloudLimit < S.cloud t then .error .fuel else .ok t
  | n + 1, t => if S.cloudLimit < S.cloud t then skipClouds S n (t + cloudStep) else .ok t

/-- The almanac part of `check_mjd` (628-635): outside the night the time does not pass, and the next
start of a night is to be tried. `p` and `t1` are the verdict and the time to try so far. -/
def nightPart (S : Site) (p : Bool) (t t1 : ℚ) : Except Err (Bool × ℚ) := do
  let i := lastStarted S.nights t
  let n ← row S.nights i
  let (p2, t2) ← if n.2 < t then (do let m ← row S.nights (i + 1); pure (false, m.1)) else pure (p, t1)
  if t < n.1 then (do let m ← row S.nights (i + 1); pure (false, m.1)) else pure (p2, t2)

/-- `check_mjd` up to the recursive call (615-639): does the time pass, and the time to try
next. -/
def screen (S : Site) (fuel : ℕ) (t : ℚ) : Except Err (Bool × ℚ) := do
  let t1 ← skipClouds S fuel t
  let (p3, t3) ← nightPart S (!decide (S.cloudLimit < S.cloud t)) t t1
  let u ← checkUp S t
  if u.1 then pure (p3, t3) else pure (false, u.2)

mutual
/-- `check_mjd` (600-646), with fuel. -/
def checkMjd (S : Site) : ℕ → ℚ → Except Err (Bool × ℚ)
  | 0, _ => .error .fuel
  | n + 1, t =>
    match screen S n t with
    | .error e => .error e
    | .ok (true, _) => .ok (true, t)
    | .ok (false, new) =>
      match search S n new with
      | .error e => .error e
      | .ok t' => .ok (false, t')

/-- `while not passed: passed, new_mjd = self.check_mjd(new_mjd)` (642-643). -/
def search (S : Site) : ℕ → ℚ → Except Err ℚ
  | 0, _ => .error .fuel
  | n + 1, t =>
    match checkMjd S n t with
    | .error e => .error e
    | .ok (true, t') => .ok t'
    | .ok (false, t') => search S n t'
end

/-- The methods of `KinemModel` used by `observe`. -/
structure Kin (K O : Type) where
  lastMjd : K → ℚ
  park : K → K
  /-- `observe`: slew time and visit time in seconds; a slew time that is not finite is
  `none`. -/
  observe : K → O → ℚ → K × Option ℚ × ℚ
  /-- `_update_rot_sky_pos` (648-712); `none` when it raises. -/
  prepare : K → ℚ → O → Option O

/-- The observatory: clock, telescope, next visit ID. -/
structure St (K : Type) where
  mjd : ℚ
  kin : K
  nextId : ℕ

/-- `night` (507-511). -/
def St.night {K : Type} (S : Site) (s : St K) : ℤ := ⌊s.mjd - S.mjdStart⌋

/-- A completed visit: what was observed, and the columns filled in by `observe` and
`observation_add_data` (513-581). -/
structure Visit (O : Type) where
  target : O
  mjd : ℚ
  night : ℤ
  ID : ℕ
  slewtime : ℚ
  visittime : ℚ

/-- After a long gap the telescope is parked, on a request for conditions (model_observatory.py 424-427) as before a visit (730-734). -/
def idle {K O : Type} (S : Site) (M : Kin K O) (s : St K) : St K :=
  { s with kin := if S.parkAfter < s.mjd - M.lastMjd s.kin then M.park s.kin else s.kin }

/-- `observe` (714-795): the new state, the completed visit if any, and whether a new night
was started. -/
def observe {K O : Type} (S : Site) (M : Kin K O) (fuel : ℕ) (s : St K) (o : O) :
    Except Err (St K × Option (Visit O) × Bool) :=
  match M.prepare s.kin s.mjd o with
  | none => .error .rotation
  | some o =>
    let k := if S.parkAfter < s.mjd - M.lastMjd s.kin then M.park s.kin else s.kin
    let r := M.observe k o s.mjd
    match r.2.1 with
    | none => .ok ({ s with kin := r.1 }, none, false)
    | some slew =>
      match checkMjd S fuel (s.mjd + (slew + r.2.2) / 24 / 3600) with
      | .error e => .error e
      | .ok (true, _) =>
        let s1 : St K := { s with kin := r.1, mjd := s.mjd + slew / 24 / 3600 }
        let v : Visit O := ⟨o, s1.mjd, s1.night S, s1.nextId, slew, r.2.2⟩
        .ok ({ s1 with nextId := s1.nextId + 1, mjd := s1.mjd + r.2.2 / 24 / 3600 }, some v, false)
      | .ok (false, new) =>
        let s1 : St K := { s with kin := M.park r.1, mjd := new }
        .ok (s1, none, decide (s1.night S ≠ s.night S))

/-- What a user does with the observatory. -/
inductive Op (O : Type) where
  | observe (o : O)
  /-- put the clock to a time -/
  | setClock (t : ℚ)

/-- A sequence of calls; the completed visits and the final state. It stops at the first call
that raises. -/
def run {K O : Type} (S : Site) (M : Kin K O) (fuel : ℕ) : St K → List (Op O) → St K × List (Visit O)
  | s, [] => (s, [])
  | s, .setClock t :: rest => run S M fuel { s with mjd := t } rest
  | s, .observe o :: rest =>
    match observe S M fuel s o with
    | .error _ => (s, [])
    | .ok (s', v, _) =>
      let r := run S M fuel s' rest
      (r.1, v.toList ++ r.2)

end Verif.Obs
