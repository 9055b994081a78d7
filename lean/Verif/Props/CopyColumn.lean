import Verif.Model.CopyColumn
import Mathlib.Data.List.Forall2

/-!
Property C267: detailers that copy a column or set the angle on the sky.
-/

namespace Verif

open Cpy

section
variable {V : Type} {cast : String → V → V} {cols : List String}

/-- C267: copying keeps the rows and their order; in each row the destination gets the value the source had, converted to the type of the destination, and nothing else changes. It raises exactly when a column is missing. -/
theorem C267_copy (src dst : String) (rows : List (Row V)) :
    (copy cast cols src dst rows = none ↔ src ∉ cols ∨ dst ∉ cols)
      ∧ ∀ out, copy cast cols src dst rows = some out → List.Forall₂ (fun r r' => r' dst = cast dst (r src) ∧ ∀ k, k ≠ dst → r' k = r k) rows out := by
  unfold copy store
  by_cases hs : src ∈ cols
  · by_cases hd : dst ∈ cols
    · rw [if_pos hs, if_pos hd]
      refine ⟨⟨fun h => (by cases h), fun h => (h.elim (absurd hs) (absurd hd))⟩, fun out h => ?_⟩
      cases h
      rw [List.forall₂_map_right_iff, List.forall₂_same]
      exact fun r _ => ⟨if_pos rfl, fun k hk => if_neg hk⟩
    · rw [if_pos hs, if_neg hd]
      exact ⟨⟨fun _ => Or.inr hd, fun _ => rfl⟩, fun out h => by cases h⟩
  · rw [if_neg hs]
    exact ⟨⟨fun _ => Or.inl hs, fun _ => rfl⟩, fun out h => by cases h⟩

/-- C267: a second copy changes nothing, if a converted value stays the same when it is converted again. -/
theorem C267_again (hc : ∀ k v, cast k (cast k v) = cast k v) (src dst : String) (rows out : List (Row V)) (h : copy cast cols src dst rows = some out) :
    copy cast cols src dst out = some out := by
  unfold copy store at h ⊢
  split_ifs at h ⊢ with hs hd
  cases h
  rw [List.map_map]
  congr 1
  apply List.map_congr_left
  intro r _
  funext k
  show (if k = dst then cast dst (if src = dst then cast dst (r src) else r src) else if k = dst then cast dst (r src) else r k) = _
  split_ifs
  · rw [hc]
  · rfl
  · rfl

/-- C267: two copies may be made in either order, if neither writes what the other reads or writes. -/
theorem C267_order (s₁ d₁ s₂ d₂ : String) (hd : d₁ ≠ d₂) (h12 : d₁ ≠ s₂) (h21 : d₂ ≠ s₁) (rows : List (Row V)) :
    (copy cast cols s₁ d₁ rows).bind (copy cast cols s₂ d₂) = (copy cast cols s₂ d₂ rows).bind (copy cast cols s₁ d₁) := by
  unfold copy store
  by_cases a : s₁ ∈ cols <;> by_cases b : d₁ ∈ cols <;> by_cases c : s₂ ∈ cols <;> by_cases e : d₂ ∈ cols <;> simp only [a, b, c, e, if_true, if_false, Option.bind_some, Option.bind_none]
  rw [List.map_map, List.map_map]
  congr 1
  apply List.map_congr_left
  intro r _
  funext k
  simp only [Function.comp_apply]
  rw [if_neg (Ne.symm h12), if_neg (Ne.symm h21)]
  by_cases k1 : k = d₁
  · subst k1
    simp [hd, hd.symm]
  · by_cases k2 : k = d₂ <;> simp [k1, k2, hd, hd.symm]

/-- C267: a fixed angle on the sky is set in every row whatever earlier detailers set, nothing else changes, and a later one replaces it. -/
theorem C267_angle (angle : V) (rows : List (Row V)) (h : "rotSkyPos" ∈ cols) :
    (∃ out, fixAngle cast cols angle rows = some out ∧ List.Forall₂ (fun r r' => r' "rotSkyPos" = cast "rotSkyPos" angle ∧ ∀ k, k ≠ "rotSkyPos" → r' k = r k) rows out)
      ∧ ∀ earlier, (fixAngle cast cols earlier rows).bind (fixAngle cast cols angle) = fixAngle cast cols angle rows := by
  unfold fixAngle store
  rw [if_pos h]
  refine ⟨⟨_, rfl, ?_⟩, fun earlier => ?_⟩
  · rw [List.forall₂_map_right_iff, List.forall₂_same]
    exact fun r _ => ⟨if_pos rfl, fun k hk => if_neg hk⟩
  · rw [if_pos h]
    show (if "rotSkyPos" ∈ cols then some _ else none) = _
    rw [if_pos h, List.map_map]
    congr 1
    apply List.map_congr_left
    intro r _
    funext k
    simp only [Function.comp_apply]
    split_ifs <;> rfl

end

/-- Columns of integers for the test: those that begin with `n` hold tens. -/
def tens (k : String) (v : ℕ) : ℕ := if k = "n" then v / 10 * 10 else v

/-- The values of three columns. -/
def three (o : Option (List (Row ℕ))) : Option (List (List ℕ)) := o.map (List.map fun r => ["a", "n", "rotSkyPos"].map r)

/-- Two rows. -/
def angleRows : List (Row ℕ) := [fun k => if k = "a" then 17 else 3, fun k => if k = "a" then 25 else 4]

def threeCols : List String := ["a", "n", "rotSkyPos"]

/-- A copy into a column of tens, both orders of two copies where the second reads what the first writes, a missing column, and an angle. -/
example : three (copy tens threeCols "a" "n" angleRows) = some [[17, 10, 3], [25, 20, 4]]
    ∧ three ((copy tens threeCols "a" "n" angleRows).bind (copy tens threeCols "n" "rotSkyPos")) = some [[17, 10, 10], [25, 20, 20]]
    ∧ three ((copy tens threeCols "n" "rotSkyPos" angleRows).bind (copy tens threeCols "a" "n")) = some [[17, 10, 3], [25, 20, 4]]
    ∧ three (copy tens threeCols "a" "b" angleRows) = none ∧ three (fixAngle tens threeCols 9 angleRows) = some [[17, 3, 9], [25, 4, 9]] := by
  decide +kernel

example : ∀ k v, tens k (tens k v) = tens k v := by
  intro k v
  unfold tens
  split_ifs
  · omega
  · rfl

end Verif
