import Verif.Model.LongNames
import Verif.Props.FeasibleHistory
import Verif.Model.Detailers

/-! C198: the surveys that take pairs for long gaps take one block of pairs in a night. -/

namespace Verif

open Gen Feat Feas

theorem longGap_terms (c : LongCfg) : ∀ s ∈ longGapBlobs c, (Term.once longNames, (0 : ℚ)) ∈ s.terms := by
  intro s hs
  unfold longGapBlobs at hs
  obtain ⟨p, _, hp⟩ := List.mem_flatMap.1 hs
  have : s = longOne { c with names := longNames } (longReason c.shown none p.1 (some p.2)) p.1 (some p.2) := by
    simpa [blobForLong, longLoop] using hp
  rw [this]
  unfold longOne
  simp

theorem longGap_names (c : LongCfg) : (longGapBlobs c).map (fun s => (s.name, s.band1, s.band2)) =
    [("blob_long, gr", "g", some "r"), ("blob_long, ri", "r", some "i"), ("blob_long, iz", "i", some "z")] := by
  have : ∀ p : String × String, blobForLong { c with names := longNames } none [p.1] [some p.2] =
      [longOne { c with names := longNames } (longReason c.shown none p.1 (some p.2)) p.1 (some p.2)] := by
    intro p; rfl
  unfold longGapBlobs
  simp only [this]
  have e : longBands = [("g", "r"), ("r", "i"), ("i", "z")] := by decide +kernel
  rw [e]
  simp only [List.flatMap_cons, List.flatMap_nil, List.append_nil, List.singleton_append, List.map_cons, List.map_nil, longOne, letters]
  decide +kernel

/-- C198: take a visit of a block of pairs made by one of the surveys, first or second of its pair, in whichever order they are taken.
Each of the surveys records it, and as long as it is of the current night, none of the surveys may begin a block (each has a condition
that is not feasible). The current night is that of the latest visit. -/
theorem C198_once (c : LongCfg) {s s' : Survey} (hs : s ∈ longGapBlobs c) (hs' : s' ∈ longGapBlobs c) (band2 : String)
    (e : Option ℚ) (cur : String) (os : List Det.Obs) (ho : ∀ o ∈ os, o.note = s.name) :
    ∀ o ∈ Det.takeAsPairs band2 e cur os, (∀ i ∈ longIgnored, isIn i o.note = false) ∧
      ∃ notes, (Term.once notes, (0 : ℚ)) ∈ s'.terms ∧ ∀ (h : List Vis) (now : Cond), Chrono h → (∀ l, h.getLast? = some l → l.night = now.night) →
        (∃ v ∈ h, v.night = now.night ∧ v.note = o.note) → onceInNight notes h now = false := by
  intro o hm
  have hnote : ∃ t, (t = "a" ∨ t = "b") ∧ o.note = Script.cut (s.name ++ ", " ++ t) := by
    unfold Det.takeAsPairs at hm
    dsimp only at hm
    by_cases hc : cur = band2
    · rw [if_pos hc, if_pos hc] at hm
      rcases List.mem_append.1 hm with hm | hm
      · obtain ⟨x, hx, rfl⟩ := List.mem_map.1 hm
        exact ⟨"a", .inl rfl, by rw [← ho x hx]⟩
      · obtain ⟨x, hx, rfl⟩ := List.mem_map.1 hm
        exact ⟨"b", .inr rfl, by rw [← ho x hx]⟩
    · rw [if_neg hc, if_neg hc] at hm
      rcases List.mem_append.1 hm with hm | hm
      · obtain ⟨x, hx, rfl⟩ := List.mem_map.1 hm
        exact ⟨"a", .inl rfl, by rw [← ho x hx]⟩
      · obtain ⟨x, hx, rfl⟩ := List.mem_map.1 hm
        exact ⟨"b", .inr rfl, by rw [← ho x hx]⟩
  have hname : s.name ∈ ["blob_long, gr", "blob_long, ri", "blob_long, iz"] := by
    have := List.mem_map_of_mem (f := fun s : Survey => (s.name, s.band1, s.band2)) hs
    rw [longGap_names] at this
    simp only [List.mem_cons, Prod.mk.injEq, List.not_mem_nil, or_false] at this ⊢
    rcases this with h | h | h
    · exact .inl h.1
    · exact .inr (.inl h.1)
    · exact .inr (.inr h.1)
  obtain ⟨t, ht, en⟩ := hnote
  have key : ∀ n ∈ ["blob_long, gr", "blob_long, ri", "blob_long, iz"], ∀ t ∈ ["a", "b"],
      (Script.cut (n ++ ", " ++ t) ∈ longNames) ∧ ∀ i ∈ longIgnored, isIn i (Script.cut (n ++ ", " ++ t)) = false := by decide +kernel
  obtain ⟨k1, k2⟩ := key _ hname t (by rcases ht with rfl | rfl <;> simp)
  refine ⟨by rw [en]; exact k2, longNames, longGap_terms c s' hs', fun h now hc hl ⟨v, hv, hn, hvn⟩ => ?_⟩
  rw [← Bool.not_eq_true, C55_once_partial longNames h hc now hl]
  exact not_not.2 ⟨v, hv, hn, by rw [hvn, en]; exact k1⟩

/-- A pair taken by the first survey holds up the other two for the night. -/
example : ∃ o ∈ Det.takeAsPairs "r" none "g" [⟨0, "g", 30, "blob_long, gr", "", "", "", 0⟩], o.note = "blob_long, gr, a" ∧
    onceInNight longNames [visAt 60000.1 7 "blob_long, gr, a"] cond0 = false ∧ onceInNight longNames [visAt 60000.1 7 "blob, gr, a"] cond0 = true := by
  decide +kernel

/-- C198 does not say that a new night is free at once: until the first visit of the night of any kind, the surveys are held up
by the pairs of the night before. -/
theorem C198_next_night_violated : onceInNight longNames [visAt 59999.1 6 "blob_long, gr, a"] cond0 = false ∧
    ¬ ∃ v ∈ [visAt 59999.1 6 "blob_long, gr, a"], v.night = cond0.night := by decide +kernel

/-- The three surveys are there, in g and r, r and i, and i and z. -/
theorem C198_surveys (c : LongCfg) : (longGapBlobs c).map (fun s => (s.band1, s.band2)) = [("g", some "r"), ("r", some "i"), ("i", some "z")] := by
  have := congrArg (List.map (fun x : String × String × Option String => x.2)) (longGap_names c)
  rw [List.map_map] at this
  exact this

end Verif
