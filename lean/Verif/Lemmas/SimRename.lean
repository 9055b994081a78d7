import Verif.Lemmas.SimProject
import Verif.Lemmas.SimRelate

/-!
Two simulations whose worlds and visits are translated into each other: if the calls agree after the translation, so do the simulations.
-/

namespace Verif.Sim
variable {W W' V V' C B : Type}

/-- The calls of `E` on translated worlds and visits are the translations of those of `E'`. -/
structure Rename (E' : Env W' V' C B) (E : Env W V C B) (π : W' → W) (ρ : V' → V) : Prop where
  clock : ∀ w, E.clock (π w) = E'.clock w
  set : ∀ w x, E.setClock (π w) x = π (E'.setClock w x)
  conds : ∀ w, E.conds (π w) = (π (E'.conds w).1, (E'.conds w).2)
  hasConds : ∀ w, E.hasConds (π w) = E'.hasConds w
  check : ∀ w x, E.check (π w) x = (π (E'.check w x).1, (E'.check w x).2)
  update : ∀ w c, E.update (π w) c = π (E'.update w c)
  request : ∀ w x, E.request (π w) x = (π (E'.request w x).1, (E'.request w x).2.map ρ)
  observe : ∀ w v, E.observe (π w) (ρ v) = (π (E'.observe w v).1, (E'.observe w v).2.1.map ρ, (E'.observe w v).2.2)
  overhead : ∀ w v, E.overhead (π w) (ρ v) = (π (E'.overhead w v).1, (E'.overhead w v).2)
  add : ∀ w v, E.add (π w) (ρ v) = π (E'.add w v)
  bandAdd : ∀ w v, E.bandAdd (π w) (ρ v) = π (E'.bandAdd w v)
  flush : ∀ w, E.flush (π w) = π (E'.flush w)
  bands : ∀ w c, E.bands (π w) c = (π (E'.bands w c).1, (E'.bands w c).2)
  mount : ∀ w b, E.mount (π w) b = π (E'.mount w b)

def St.rename (π : W' → W) (ρ : V' → V) (s : St W' V') : St W V :=
  { w := π s.w, mjd := s.mjd, endMjd := s.endMjd, lastFlush := s.lastFlush, buf := s.buf.map (Option.map ρ), counter := s.counter, nskip := s.nskip }

def Pass.rename (π : W' → W) (ρ : V' → V) : Pass W' V' → Pass W V
  | .again s => .again (s.rename π ρ)
  | .brk s => .brk (s.rename π ρ)
  | .gaveUp s => .gaveUp (s.rename π ρ)
  | .indexError s => .indexError (s.rename π ρ)

def Out.rename (π : W' → W) (ρ : V' → V) : Out W' V' → Out W V
  | .finished s => .finished (s.rename π ρ)
  | .gaveUp s => .gaveUp (s.rename π ρ)
  | .indexError s => .indexError (s.rename π ρ)
  | .running s => .running (s.rename π ρ)

variable {E' : Env W' V' C B} {E : Env W V C B} {π : W' → W} {ρ : V' → V}

theorem updateNow_rename (P : Rename E' E π ρ) (w : W') : updateNow E (π w) = π (updateNow E' w) := by
  unfold updateNow; simp only [P.conds, P.update]

theorem mountNow_rename (P : Rename E' E π ρ) (w : W') : mountNow E (π w) = π (mountNow E' w) := by
  unfold mountNow; simp only [P.conds, P.bands, P.mount]

theorem refresh_rename (P : Rename E' E π ρ) (cfg : Cfg) (w : W') : refresh E cfg (π w) = π (refresh E' cfg w) := by
  unfold refresh
  rw [P.hasConds]
  cases E'.hasConds w <;> dsimp only
  · simp only [Bool.false_eq_true, if_false, updateNow_rename P, P.clock, P.check]
    cases (E'.check (updateNow E' w) (E'.clock (updateNow E' w))).2 <;> cases cfg.updateEvery <;> simp [updateNow_rename P]
  · simp only [if_true, P.clock, P.check]
    cases (E'.check w (E'.clock w)).2 <;> cases cfg.updateEvery <;> simp [updateNow_rename P]

theorem endOfPass_rename (P : Rename E' E π ρ) (cfg : Cfg) (nn : Bool) (s : St W' V') :
    endOfPass E cfg nn (s.rename π ρ) = (endOfPass E' cfg nn s).rename π ρ := by
  unfold endOfPass
  have h : (if nn then mountNow E (s.rename π ρ).w else (s.rename π ρ).w) = π (if nn then mountNow E' s.w else s.w) := by
    cases nn
    · rfl
    · exact mountNow_rename P _
  dsimp only
  rw [h, P.clock]
  cases cfg.visitLimit with
  | none => rfl
  | some n =>
    dsimp only
    by_cases hc : (s.counter : ℤ) = n
    · rw [if_pos hc, if_pos (show ((s.rename π ρ).counter : ℤ) = n from hc)]; rfl
    · rw [if_neg hc, if_neg (show ¬ ((s.rename π ρ).counter : ℤ) = n from hc)]; rfl

theorem addOverhead_rename (P : Rename E' E π ρ) (cfg : Cfg) (w : W') (v : V') : addOverhead E cfg (π w) (ρ v) = π (addOverhead E' cfg w v) := by
  unfold addOverhead
  split_ifs
  · simp only [P.overhead, P.clock, P.set]
  · rfl

theorem store_rename (ρ : V' → V) (cfg : Cfg) (buf : List (Option V')) (n : ℕ) (v : V') :
    store cfg (buf.map (Option.map ρ)) n (ρ v) = (store cfg buf n v).map (List.map (Option.map ρ)) := by
  unfold store
  rw [List.length_map]
  have hset : (buf.map (Option.map ρ)).set n (some (ρ v)) = (buf.set n (some v)).map (Option.map ρ) := by rw [List.map_set]; rfl
  split_ifs with h1
  · dsimp only
    rw [hset, List.length_map]
    split_ifs
    · simp
    · rfl
  · rfl

theorem pass_rename (P : Rename E' E π ρ) (cfg : Cfg) (s : St W' V') : pass E cfg (s.rename π ρ) = (pass E' cfg s).rename π ρ := by
  unfold pass
  have h1 : refresh E cfg (s.rename π ρ).w = π (refresh E' cfg s.w) := refresh_rename P cfg s.w
  dsimp only
  rw [h1, P.clock, P.request]
  rcases E'.request (refresh E' cfg s.w) (E'.clock (refresh E' cfg s.w)) with ⟨u, _ | v⟩
  · dsimp only [Option.map_none]
    unfold skipPass
    simp only [P.clock, P.set, updateNow_rename P]
    show (if s.endMjd < _ then _ else _) = _
    split_ifs <;> rfl
  · dsimp only [Option.map_some]
    rw [P.observe]
    rcases E'.observe u v with ⟨x, _ | v', nn⟩
    · dsimp only [Option.map_none]
      unfold rejectedPass
      simp only [P.clock, P.flush]
      show (if _ = s.lastFlush then _ else _) = _
      split_ifs
      · rfl
      · exact endOfPass_rename P cfg nn { s with w := E'.flush x, lastFlush := E'.clock (E'.flush x) }
    · dsimp only [Option.map_some]
      unfold completedPass
      simp only [addOverhead_rename P, P.add, P.bandAdd]
      show (match store cfg (s.buf.map (Option.map ρ)) s.counter (ρ v') with | none => _ | some buf => _) = _
      rw [store_rename]
      cases store cfg s.buf s.counter v' with
      | none => rfl
      | some b => exact endOfPass_rename P cfg nn { s with w := E'.bandAdd (E'.add (addOverhead E' cfg x v') v') v', buf := b, counter := s.counter + 1 }

theorem loop_rename (P : Rename E' E π ρ) (cfg : Cfg) (n : ℕ) (s : St W' V') : loop E cfg n (s.rename π ρ) = (loop E' cfg n s).rename π ρ := by
  induction n generalizing s with
  | zero =>
    unfold loop
    show (if s.mjd < s.endMjd then _ else _) = _
    split_ifs <;> rfl
  | succ n ih =>
    unfold loop
    show (if s.mjd < s.endMjd then _ else _) = _
    split_ifs
    · rw [pass_rename P]
      cases pass E' cfg s with
      | again s' => exact ih s'
      | _ => rfl
    · rfl

/-- The simulations are translations of each other. -/
theorem run_rename (P : Rename E' E π ρ) (cfg : Cfg) (n : ℕ) (w : W') : run (V := V) E cfg n (π w) = (run (V := V') E' cfg n w).rename π ρ := by
  unfold run
  have h : start (V := V) E cfg (π w) = (start (V := V') E' cfg w).rename π ρ := by
    unfold start St.rename
    cases cfg.simStart with
    | none => simp only [P.clock, mountNow_rename P, List.map_replicate, Option.map_none]
    | some m => simp only [P.set, mountNow_rename P, List.map_replicate, Option.map_none]
  rw [h]
  exact loop_rename P cfg n _

theorem rename_kind (o : Out W' V') : (o.rename π ρ).kind = o.kind := by cases o <;> rfl

theorem rename_st (o : Out W' V') : (o.rename π ρ).st = o.st.rename π ρ := by cases o <;> rfl

theorem rename_result (s : St W' V') : (s.rename π ρ).result = s.result.map (Option.map ρ) := by
  unfold St.result St.rename
  rw [List.map_take]

end Verif.Sim
