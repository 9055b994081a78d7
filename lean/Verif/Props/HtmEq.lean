import Verif.Model.HtmEq
import Verif.Props.HtmFind
import Verif.Props.HtmIds

/-!
Property C230: when half spaces and trixels compare equal.
-/

namespace Verif

open Htm Sph Real

theorem close_refl {atol : ℝ} (h : 0 ≤ atol) (a : ℝ) : Htm.close atol a a := by
  unfold Htm.close
  rw [sub_self, abs_zero]
  have := abs_nonneg a
  positivity

theorem closeV_refl {atol : ℝ} (h : 0 ≤ atol) (a : Vec) : closeV atol a a := ⟨close_refl h _, close_refl h _, close_refl h _⟩

/-- C230: every trixel equals itself, and trixels made from ids are equal exactly if they are made from the same id. -/
theorem C230_trixel (t : Trixel) : t.eq t ∧ ∀ i j s u, trixelFrom i = some s → trixelFrom j = some u → (s.eq u ↔ i = j) := by
  have hr : ∀ t : Trixel, t.eq t := fun t => ⟨rfl, rfl, closeV_refl (by norm_num) _, closeV_refl (by norm_num) _, closeV_refl (by norm_num) _⟩
  have hid : ∀ i s, trixelFrom i = some s → s.id = i := by
    intro i s h
    cases hl : levelFrom i with
    | none => rw [(C134_trixel i).2 hl] at h; cases h
    | some L =>
      obtain ⟨t, ht, e, _⟩ := (C134_trixel i).1 L hl
      rw [ht] at h
      cases h
      exact e
  refine ⟨hr t, fun i j s u hs hu => ⟨fun h => ?_, ?_⟩⟩
  · rw [← hid i s hs, ← hid j u hu]
    exact h.1
  · rintro rfl
    rw [hs] at hu
    cases hu
    exact hr s

/-- C230 fails for trixels made by hand: one equals the other and not the other way round. -/
theorem C230_symm_violated : ∃ s t : Trixel, s.eq t ∧ ¬ t.eq s := by
  refine ⟨⟨8, ⟨0.99999, 0, 0⟩, ⟨0, 0, 0⟩, ⟨0, 0, 0⟩⟩, ⟨8, ⟨1, 0, 0⟩, ⟨0, 0, 0⟩, ⟨0, 0, 0⟩⟩, ?_, ?_⟩
  · refine ⟨rfl, rfl, ⟨?_, ?_, ?_⟩, closeV_refl (by norm_num) _, closeV_refl (by norm_num) _⟩
    · norm_num [Htm.close, abs_of_nonpos]
    · exact close_refl (by norm_num) _
    · exact close_refl (by norm_num) _
  · rintro ⟨_, _, ⟨h, _, _⟩, _⟩
    norm_num [Htm.close, abs_of_nonneg] at h

/-- C230: a half space made from a vector that is not zero equals itself; equality goes both ways; and half spaces that are equal have centres on the sphere that are no
more than 0.0000142 apart and distances that differ by no more than 1e-10. -/
theorem C230_half_partial (h o : Half) (v w : Vec) (l m : ℝ) (hv : 0 < v.x ^ 2 + v.y ^ 2 + v.z ^ 2) (hw : 0 < w.x ^ 2 + w.y ^ 2 + w.z ^ 2)
    (hh : h = half v l) (ho : o = half w m) :
    h.eq h ∧ (h.eq o ↔ o.eq h) ∧ (h.eq o → chord h.v o.v ≤ 0.0000142 ∧ |l - m| ≤ 1 / 10 ^ 10) := by
  have uh : IsUnit3 h.v := by rw [hh]; obtain ⟨_, _, _, hu⟩ := unit_spec hv; exact hu
  have uo : IsUnit3 o.v := by rw [ho]; obtain ⟨_, _, _, hu⟩ := unit_spec hw; exact hu
  refine ⟨⟨?_, ?_⟩, ?_, ?_⟩
  · rw [sub_self, abs_zero]; norm_num
  · have : Htm.dot h.v h.v = 1 := by
      unfold IsUnit3 at uh
      unfold Htm.dot
      nlinarith [uh]
    rw [this, sub_self, abs_zero]; norm_num
  · unfold Half.eq
    rw [abs_sub_comm h.d o.d, show Htm.dot h.v o.v = Htm.dot o.v h.v by unfold Htm.dot; ring]
  · rintro ⟨h1, h2⟩
    constructor
    · unfold chord
      have e : (o.v.x - h.v.x) ^ 2 + (o.v.y - h.v.y) ^ 2 + (o.v.z - h.v.z) ^ 2 = 2 - 2 * Htm.dot h.v o.v := by
        unfold IsUnit3 at uh uo
        unfold Htm.dot
        nlinarith [uh, uo]
      rw [e]
      have h3 := (abs_le.1 (not_lt.1 h2)).1
      rw [Real.sqrt_le_left (by norm_num)]
      norm_num at h3 ⊢
      linarith
    · rw [hh, ho] at h1
      exact not_lt.1 h1

/-- C230 fails for half spaces: two that are equal do not contain the same points. -/
theorem C230_points_violated : ∃ h o : Half, ∃ p, h.eq o ∧ IsUnit3 h.v ∧ IsUnit3 o.v ∧ IsUnit3 p ∧ h.containsUnit p ∧ ¬ o.containsUnit p := by
  refine ⟨⟨⟨1, 0, 0⟩, 0⟩, ⟨⟨(1 - (1 / 10 ^ 6) ^ 2) / (1 + (1 / 10 ^ 6) ^ 2), 2 * (1 / 10 ^ 6) / (1 + (1 / 10 ^ 6) ^ 2), 0⟩, 0⟩,
    ⟨2 * (1 / 10 ^ 6) / (1 + (1 / 10 ^ 6) ^ 2), -((1 - (1 / 10 ^ 6) ^ 2) / (1 + (1 / 10 ^ 6) ^ 2)), 0⟩, ⟨?_, ?_⟩, ?_, ?_, ?_, ?_, ?_⟩
  · norm_num
  · rw [not_lt, abs_le]
    norm_num [Htm.dot]
  · norm_num [IsUnit3]
  · norm_num [IsUnit3]
  · norm_num [IsUnit3]
  · norm_num [Half.containsUnit, Htm.dot]
  · norm_num [Half.containsUnit, Htm.dot]

/-- C230 fails for chains: the first equals the second and the second the third, but the first does not equal the third. -/
theorem C230_trans_violated : ∃ a b c : Half, a.eq b ∧ b.eq c ∧ ¬ a.eq c := by
  refine ⟨⟨⟨1, 0, 0⟩, 0⟩, ⟨⟨1, 0, 0⟩, 1 / 10 ^ 10⟩, ⟨⟨1, 0, 0⟩, 2 / 10 ^ 10⟩, ⟨?_, ?_⟩, ⟨?_, ?_⟩, ?_⟩
  · norm_num [abs_of_nonpos]
  · norm_num [Htm.dot]
  · norm_num [abs_of_nonpos]
  · norm_num [Htm.dot]
  · rintro ⟨h, _⟩
    norm_num [abs_of_nonpos] at h

/-- Non-vacuity: the bases are trixels made from ids. -/
example : ∃ s u, trixelFrom 8 = some s ∧ trixelFrom 15 = some u :=
  let ⟨s, hs, _⟩ := (C134_trixel 8).1 1 (by decide +kernel)
  let ⟨u, hu, _⟩ := (C134_trixel 15).1 1 (by decide +kernel)
  ⟨s, u, hs, hu⟩

end Verif
