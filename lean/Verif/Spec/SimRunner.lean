import Verif.Model.SimRunner

/-!
What the simulation properties talk about: a record of every call the simulation makes to
the scheduler, the observatory and the band scheduler, and the clock contract.
-/

namespace Verif.Sim

/-- A call made by the simulation, with the observatory clock when it was made
(for the clock setter and `observe`: also after). -/
inductive Ev (V C B : Type) where
  | setClock (before x after : ℚ)
  | conds (t : ℚ) (c : C)
  | check (t arg : ℚ) (ok : Bool)
  | update (t : ℚ) (c : C)
  | request (t arg : ℚ) (r : Option V)
  | observe (t : ℚ) (v : V) (after : ℚ) (r : Option V) (newNight : Bool)
  | overhead (t : ℚ) (v : V) (sec : ℚ)
  | add (t : ℚ) (v : V)
  | bandAdd (t : ℚ) (v : V)
  | flush (t : ℚ)
  | bands (t : ℚ) (c : C) (b : B)
  | mount (t : ℚ) (b : B)

variable {W V C B : Type}

/-- The same objects with every call written down. -/
def Env.recorded (E : Env W V C B) : Env (W × List (Ev V C B)) V C B where
  clock w := E.clock w.1
  setClock w x := (E.setClock w.1 x, w.2 ++ [.setClock (E.clock w.1) x (E.clock (E.setClock w.1 x))])
  conds w := (((E.conds w.1).1, w.2 ++ [.conds (E.clock w.1) (E.conds w.1).2]), (E.conds w.1).2)
  hasConds w := E.hasConds w.1
  check w x := (((E.check w.1 x).1, w.2 ++ [.check (E.clock w.1) x (E.check w.1 x).2]), (E.check w.1 x).2)
  update w c := (E.update w.1 c, w.2 ++ [.update (E.clock w.1) c])
  request w x := (((E.request w.1 x).1, w.2 ++ [.request (E.clock w.1) x (E.request w.1 x).2]), (E.request w.1 x).2)
  observe w v := (((E.observe w.1 v).1, w.2 ++ [.observe (E.clock w.1) v (E.clock (E.observe w.1 v).1)
    (E.observe w.1 v).2.1 (E.observe w.1 v).2.2]), (E.observe w.1 v).2)
  overhead w v := (((E.overhead w.1 v).1, w.2 ++ [.overhead (E.clock w.1) v (E.overhead w.1 v).2]), (E.overhead w.1 v).2)
  add w v := (E.add w.1 v, w.2 ++ [.add (E.clock w.1) v])
  bandAdd w v := (E.bandAdd w.1 v, w.2 ++ [.bandAdd (E.clock w.1) v])
  flush w := (E.flush w.1, w.2 ++ [.flush (E.clock w.1)])
  bands w c := (((E.bands w.1 c).1, w.2 ++ [.bands (E.clock w.1) c (E.bands w.1 c).2]), (E.bands w.1 c).2)
  mount w b := (E.mount w.1 b, w.2 ++ [.mount (E.clock w.1) b])

/-- The clock behaves: setting it sets it, only `observe` moves it otherwise and never back. -/
structure Contract (E : Env W V C B) : Prop where
  set : ∀ w x, E.clock (E.setClock w x) = x
  conds : ∀ w, E.clock (E.conds w).1 = E.clock w
  check : ∀ w x, E.clock (E.check w x).1 = E.clock w
  update : ∀ w c, E.clock (E.update w c) = E.clock w
  request : ∀ w x, E.clock (E.request w x).1 = E.clock w
  observe : ∀ w v, E.clock w ≤ E.clock (E.observe w v).1
  overhead : ∀ w v, E.clock (E.overhead w v).1 = E.clock w ∧ 0 ≤ (E.overhead w v).2
  add : ∀ w v, E.clock (E.add w v) = E.clock w
  bandAdd : ∀ w v, E.clock (E.bandAdd w v) = E.clock w
  flush : ∀ w, E.clock (E.flush w) = E.clock w
  bands : ∀ w c, E.clock (E.bands w c).1 = E.clock w
  mount : ∀ w b, E.clock (E.mount w b) = E.clock w

/-- When a call was made (for the clock setter: the time it set). -/
def Ev.time : Ev V C B → ℚ
  | .setClock _ _ a => a
  | .conds t _ | .check t _ _ | .update t _ | .request t _ _ | .observe t _ _ _ _
  | .overhead t _ _ | .add t _ | .bandAdd t _ | .flush t | .bands t _ _ | .mount t _ => t

/-- The visits the observatory completed, in order. -/
def completedOf (l : List (Ev V C B)) : List V :=
  l.filterMap (fun e => match e with | .observe _ _ _ r _ => r | _ => none)
/-- The visits the scheduler was told of. -/
def toldOf (l : List (Ev V C B)) : List V :=
  l.filterMap (fun e => match e with | .add _ v => some v | _ => none)
/-- The visits the band scheduler was told of. -/
def bandToldOf (l : List (Ev V C B)) : List V :=
  l.filterMap (fun e => match e with | .bandAdd _ v => some v | _ => none)
/-- The clock after each rejected visit. -/
def rejectedAt (l : List (Ev V C B)) : List ℚ :=
  l.filterMap (fun e => match e with | .observe _ _ a none _ => some a | _ => none)
/-- The clock at each flush of the scheduler's queue. -/
def flushedAt (l : List (Ev V C B)) : List ℚ :=
  l.filterMap (fun e => match e with | .flush t => some t | _ => none)

end Verif.Sim

namespace Verif.Sim
variable {W V C B : Type}

/-- When a call was over. -/
def Ev.endTime : Ev V C B → ℚ
  | .observe _ _ a _ _ => a
  | e => e.time

/-- Forget the record. -/
def St.erase (s : St (W × List (Ev V C B)) V) : St W V := { s with w := s.w.1 }
/-- Forget the record. -/
def Pass.erase : Pass (W × List (Ev V C B)) V → Pass W V
  | .again s => .again s.erase
  | .brk s => .brk s.erase
  | .gaveUp s => .gaveUp s.erase
  | .indexError s => .indexError s.erase
/-- Forget the record. -/
def Out.erase : Out (W × List (Ev V C B)) V → Out W V
  | .finished s => .finished s.erase
  | .gaveUp s => .gaveUp s.erase
  | .indexError s => .indexError s.erase
  | .running s => .running s.erase

/-- Each request that was answered with "nothing" is followed at once by the clock being put
forward by exactly `step`. -/
def SkipsOK (step : ℚ) : List (Ev V C B) → Prop
  | [] => True
  | .request t _ none :: rest => (∃ post, rest = .setClock t (t + step) (t + step) :: post) ∧ SkipsOK step rest
  | _ :: rest => SkipsOK step rest

/-- The times at which requests were made, with the time given as argument. -/
def requestsOf (l : List (Ev V C B)) : List (ℚ × ℚ) :=
  l.filterMap (fun e => match e with | .request t a _ => some (t, a) | _ => none)

/-- Number of requests answered with "nothing". -/
def skipsOf (l : List (Ev V C B)) : ℕ :=
  (l.filter (fun e => match e with | .request _ _ none => true | _ => false)).length

end Verif.Sim

namespace Verif.Sim
variable {W V C B : Type}

/-- The record ends with a call saying that the scheduler can go on without new conditions
at time `t`, or with giving it the observatory's conditions of time `t`. -/
def EndsFresh (l : List (Ev V C B)) (t : ℚ) : Prop :=
  (∃ p, l = p ++ [.check t t true]) ∨ ∃ p c, l = p ++ [.conds t c, .update t c]

/-- The record ends with working out and mounting the bands for the conditions at `t`. -/
def EndsMounted (l : List (Ev V C B)) (t : ℚ) : Prop :=
  ∃ p c b, l = p ++ [.conds t c, .bands t c b, .mount t b]

end Verif.Sim
