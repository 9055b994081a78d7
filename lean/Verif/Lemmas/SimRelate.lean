import Verif.Lemmas.SimProject

/-!
Two simulations whose calls keep a relation between the worlds and give the same answers go the same way.
-/

namespace Verif.Sim
variable {W W' V C B : Type}

/-- Calls in related worlds give the same answers and lead to related worlds. -/
structure Relate (E' : Env W' V C B) (E : Env W V C B) (R : W' → W → Prop) : Prop where
  clock : ∀ {a b}, R a b → E'.clock a = E.clock b
  set : ∀ {a b} x, R a b → R (E'.setClock a x) (E.setClock b x)
  conds : ∀ {a b}, R a b → R (E'.conds a).1 (E.conds b).1 ∧ (E'.conds a).2 = (E.conds b).2
  hasConds : ∀ {a b}, R a b → E'.hasConds a = E.hasConds b
  check : ∀ {a b} x, R a b → R (E'.check a x).1 (E.check b x).1 ∧ (E'.check a x).2 = (E.check b x).2
  update : ∀ {a b}, R a b → R (E'.update (E'.conds a).1 (E'.conds a).2) (E.update (E.conds b).1 (E.conds b).2)
  request : ∀ {a b} x, R a b → R (E'.request a x).1 (E.request b x).1 ∧ (E'.request a x).2 = (E.request b x).2
  observe : ∀ {a b} v, R a b → R (E'.observe a v).1 (E.observe b v).1 ∧ (E'.observe a v).2 = (E.observe b v).2
  overhead : ∀ {a b} v, R a b → R (E'.overhead a v).1 (E.overhead b v).1 ∧ (E'.overhead a v).2 = (E.overhead b v).2
  add : ∀ {a b} v, R a b → R (E'.add a v) (E.add b v)
  bandAdd : ∀ {a b} v, R a b → R (E'.bandAdd a v) (E.bandAdd b v)
  flush : ∀ {a b}, R a b → R (E'.flush a) (E.flush b)
  bands : ∀ {a b} c, R a b → R (E'.bands a c).1 (E.bands b c).1 ∧ (E'.bands a c).2 = (E.bands b c).2
  mount : ∀ {a b} m, R a b → R (E'.mount a m) (E.mount b m)

variable {E' : Env W' V C B} {E : Env W V C B} {R : W' → W → Prop}

open Classical in
/-- Both simulations at once. -/
noncomputable def Relate.both (h : Relate E' E R) : Env { p : W' × W // R p.1 p.2 } V C B where
  clock p := E'.clock p.1.1
  setClock p x := ⟨(E'.setClock p.1.1 x, E.setClock p.1.2 x), h.set x p.2⟩
  conds p := (⟨((E'.conds p.1.1).1, (E.conds p.1.2).1), (h.conds p.2).1⟩, (E'.conds p.1.1).2)
  hasConds p := E'.hasConds p.1.1
  check p x := (⟨((E'.check p.1.1 x).1, (E.check p.1.2 x).1), (h.check x p.2).1⟩, (E'.check p.1.1 x).2)
  update p c := if hr : R (E'.update p.1.1 c) (E.update p.1.2 c) then ⟨(E'.update p.1.1 c, E.update p.1.2 c), hr⟩ else p
  request p x := (⟨((E'.request p.1.1 x).1, (E.request p.1.2 x).1), (h.request x p.2).1⟩, (E'.request p.1.1 x).2)
  observe p v := (⟨((E'.observe p.1.1 v).1, (E.observe p.1.2 v).1), (h.observe v p.2).1⟩, (E'.observe p.1.1 v).2)
  overhead p v := (⟨((E'.overhead p.1.1 v).1, (E.overhead p.1.2 v).1), (h.overhead v p.2).1⟩, (E'.overhead p.1.1 v).2)
  add p v := ⟨(E'.add p.1.1 v, E.add p.1.2 v), h.add v p.2⟩
  bandAdd p v := ⟨(E'.bandAdd p.1.1 v, E.bandAdd p.1.2 v), h.bandAdd v p.2⟩
  flush p := ⟨(E'.flush p.1.1, E.flush p.1.2), h.flush p.2⟩
  bands p c := (⟨((E'.bands p.1.1 c).1, (E.bands p.1.2 c).1), (h.bands c p.2).1⟩, (E'.bands p.1.1 c).2)
  mount p m := ⟨(E'.mount p.1.1 m, E.mount p.1.2 m), h.mount m p.2⟩

theorem Relate.kept (h : Relate E' E R) (p : { p : W' × W // R p.1 p.2 }) :
    R (E'.update (E'.conds p.1.1).1 (E'.conds p.1.1).2) (E.update (E.conds p.1.2).1 (E'.conds p.1.1).2) := by
  have := h.update p.2
  rwa [← (h.conds p.2).2] at this

open Classical in
theorem Relate.both_update (h : Relate E' E R) (p : { p : W' × W // R p.1 p.2 }) : h.both.update (h.both.conds p).1 (h.both.conds p).2
    = ⟨(E'.update (E'.conds p.1.1).1 (E'.conds p.1.1).2, E.update (E.conds p.1.2).1 (E'.conds p.1.1).2), h.kept p⟩ :=
  dif_pos (h.kept p)

theorem Relate.left (h : Relate E' E R) : Project h.both E' (fun p => p.1.1) where
  clock _ := rfl
  set _ _ := rfl
  conds _ := rfl
  hasConds _ := rfl
  check _ _ := rfl
  update p := by
    rw [h.both_update]
    rfl
  request _ _ := rfl
  observe _ _ := rfl
  overhead _ _ := rfl
  add _ _ := rfl
  bandAdd _ _ := rfl
  flush _ := rfl
  bands _ _ := rfl
  mount _ _ := rfl

theorem Relate.right (h : Relate E' E R) : Project h.both E (fun p => p.1.2) where
  clock p := (h.clock p.2).symm
  set _ _ := rfl
  conds p := Prod.ext rfl (h.conds p.2).2.symm
  hasConds p := (h.hasConds p.2).symm
  check p x := Prod.ext rfl (h.check x p.2).2.symm
  update p := by
    rw [h.both_update]
    rfl
  request p x := Prod.ext rfl (h.request x p.2).2.symm
  observe p v := Prod.ext rfl (h.observe v p.2).2.symm
  overhead p v := Prod.ext rfl (h.overhead v p.2).2.symm
  add _ _ := rfl
  bandAdd _ _ := rfl
  flush _ := rfl
  bands p c := Prod.ext rfl (h.bands c p.2).2.symm
  mount _ _ := rfl

/-- How a simulation ended, without the state. -/
def Out.kind : Out W V → ℕ
  | .finished _ => 0
  | .gaveUp _ => 1
  | .indexError _ => 2
  | .running _ => 3

/-- The simulations end in the same way, with the same visits and numbers, in related worlds. -/
theorem run_relate (h : Relate E' E R) (cfg : Cfg) (n : ℕ) {a : W'} {b : W} (hab : R a b) :
    (run (V := V) E' cfg n a).kind = (run (V := V) E cfg n b).kind
      ∧ (run (V := V) E' cfg n a).st.result = (run (V := V) E cfg n b).st.result
      ∧ (run (V := V) E' cfg n a).st.mjd = (run (V := V) E cfg n b).st.mjd
      ∧ R (run (V := V) E' cfg n a).st.w (run (V := V) E cfg n b).st.w := by
  have h1 := run_project (V := V) h.left cfg n ⟨(a, b), hab⟩
  have h2 := run_project (V := V) h.right cfg n ⟨(a, b), hab⟩
  dsimp only at h1 h2
  rw [h1, h2]
  cases hr : run (V := V) h.both cfg n ⟨(a, b), hab⟩ with
  | finished s => exact ⟨rfl, rfl, rfl, s.w.2⟩
  | gaveUp s => exact ⟨rfl, rfl, rfl, s.w.2⟩
  | indexError s => exact ⟨rfl, rfl, rfl, s.w.2⟩
  | running s => exact ⟨rfl, rfl, rfl, s.w.2⟩

end Verif.Sim
