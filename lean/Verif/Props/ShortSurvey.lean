import Verif.Model.ShortSurvey
import Mathlib.Tactic.Ring
import Mathlib.Tactic.Linarith
import Mathlib.Tactic.NormNum
import Mathlib.Data.List.Forall2

/-! C215: short visits added to a list of visits. -/

namespace Verif
open Short

/-- A visit of the chosen band whose field has a pixel of the footprint with fewer short visits
than `g`. -/
def WantsShort (cfg : Cfg) (count : ℕ → ℚ) (g : ℚ) (o : Row) : Prop :=
  o.band = cfg.band ∧ ∃ p ∈ cfg.pixels o.ra o.dec, 0 < cfg.footprint p ∧ count p < g

open Classical in
/-- What stands for one visit in the new list: the visit, valid `t` days longer, and right after
it the short visits, if any are wanted: copies of it with their own exposure time and name. -/
def ShortBlock (cfg : Cfg) (count : ℕ → ℚ) (g t : ℚ) (o : Row) (b : List Row) : Prop :=
  ∃ o' shorts, b = o' :: shorts ∧ o' = { o with flush := o.flush + t } ∧
    shorts.length = (if WantsShort cfg count g o then cfg.nRepeat else 0) ∧
    ∀ s ∈ shorts, s.exptime = cfg.exptime ∧ s.nexp = 1 ∧ s.note = cfg.name ∧
      s.band = o.band ∧ s.ra = o.ra ∧ s.dec = o.dec ∧ s.rest = o.rest

theorem wanting_iff (cfg : Cfg) (count : ℕ → ℚ) (g : ℚ) (o : Row) :
    (wanting cfg count g o).length > 0 ↔ ∃ p ∈ cfg.pixels o.ra o.dec, 0 < cfg.footprint p ∧ count p < g := by
  unfold wanting
  rw [gt_iff_lt, List.length_pos_iff_exists_mem]
  simp only [List.mem_filter, decide_eq_true_eq]
  constructor
  · rintro ⟨p, ⟨h1, h2⟩, h3⟩; exact ⟨p, h1, h2, h3⟩
  · rintro ⟨p, h1, h2, h3⟩; exact ⟨p, ⟨h1, h2⟩, h3⟩

open Classical in
theorem extra_eq (cfg : Cfg) (count : ℕ → ℚ) (g : ℚ) (o : Row) :
    extra cfg count g o = if WantsShort cfg count g o then cfg.nRepeat else 0 := by
  unfold extra WantsShort
  by_cases hb : o.band = cfg.band
  · rw [if_pos hb]
    by_cases hw : (wanting cfg count g o).length > 0
    · rw [if_pos hw, if_pos ⟨hb, (wanting_iff _ _ _ _).1 hw⟩]
    · rw [if_neg hw, if_neg (fun h => hw ((wanting_iff _ _ _ _).2 h.2))]
  · rw [if_neg hb, if_neg (fun h => hb h.1)]

/-- The list with short visits, when the goal is `g`. -/
theorem short_blocks (cfg : Cfg) (count : ℕ → ℚ) (g T : ℚ) (l : List Row) :
    List.Forall₂ (ShortBlock cfg count g (T / 3600 / 24)) l (l.map (fun o => bump T o :: List.replicate (extra cfg count g o) (short cfg o))) := by
  rw [List.forall₂_map_right_iff]
  refine List.forall₂_same.2 (fun o _ => ⟨_, _, rfl, rfl, ?_, ?_⟩)
  · rw [List.length_replicate, extra_eq]
  · intro s hs
    rw [List.mem_replicate] at hs
    rw [hs.2]
    exact ⟨rfl, rfl, rfl, rfl, rfl, rfl, rfl⟩

theorem short_length (cfg : Cfg) (count : ℕ → ℚ) (g T : ℚ) (l : List Row) :
    ((l.flatMap (fun o => bump T o :: List.replicate (extra cfg count g o) (short cfg o))).length : ℚ) = l.length + (l.map (fun o => (extra cfg count g o : ℚ))).sum := by
  induction l with
  | nil => simp
  | cons o l ih =>
    rw [List.flatMap_cons, List.length_append, List.length_cons, List.length_replicate, List.map_cons, List.sum_cons, List.length_cons]
    push_cast
    rw [ih]
    ring

theorem added_eq (cfg : Cfg) (count : ℕ → ℚ) (g : ℚ) (l : List Row) :
    added cfg count g l = (l.map (fun o => (extra cfg count g o : ℚ))).sum * (cfg.exptime + cfg.readApprox) := by
  unfold added
  induction l with
  | nil => simp
  | cons o l ih => rw [List.map_cons, List.sum_cons, ih, List.map_cons, List.sum_cons]; ring

/-- C215: up to the last night, every visit is kept, in its place, and the short visits wanted
for its field come right after it; every old visit is valid longer by the time the new ones
take. `WantsShort` compares with `nobs`, whatever `time_scale` says.

Missing: the class can be made (`C215_construct_violated`), the short visits are valid longer too
(`C215_flush_violated`), and with `time_scale` the number wanted grows over the nights
(`C215_scale_violated`) -/
theorem C215_added_partial (cfg : Cfg) (count : ℕ → ℚ) (night : ℕ) (l out : List Row) (h : call cfg count night l = some out)
    (hn : ∀ m, cfg.nightMax = some m → night ≤ m) (hpos : cfg.timeScale = true → 0 < night) :
    ∃ blocks, out = blocks.flatten ∧
      List.Forall₂ (ShortBlock cfg count cfg.nobs (((out.length : ℚ) - l.length) * (cfg.exptime + cfg.readApprox) / 86400)) l blocks := by
  have key : ∀ g, goal cfg night = some g → g = cfg.nobs := by
    intro g hg
    unfold goal at hg
    cases hts : cfg.timeScale with
    | false => rw [hts] at hg; rw [if_neg (by simp)] at hg; exact (Option.some.inj hg).symm
    | true =>
      rw [hts, if_pos rfl] at hg
      cases hm : cfg.nightMax with
      | none => rw [hm] at hg; cases hg
      | some m =>
        rw [hm] at hg
        dsimp only at hg
        by_cases h0 : m = 0
        · rw [if_pos h0] at hg; cases hg
        · rw [if_neg h0] at hg
          have hle := hn m hm
          have hp := hpos hts
          have hmq : (0 : ℚ) < m := by exact_mod_cast Nat.pos_of_ne_zero h0
          have hc : ⌈(night : ℚ) / m⌉ = 1 := by
            rw [Int.ceil_eq_iff]
            constructor
            · have : (0 : ℚ) < night := by exact_mod_cast hp
              push_cast
              have := div_pos this hmq
              linarith
            · push_cast
              rw [div_le_one hmq]
              exact_mod_cast hle
          rw [hc] at hg
          have := Option.some.inj hg
          rw [← this]; push_cast; ring
  have main : ∃ g, goal cfg night = some g ∧ out = l.flatMap (fun o => bump (added cfg count g l) o :: List.replicate (extra cfg count g o) (short cfg o)) := by
    unfold call at h
    cases hm : cfg.nightMax with
    | none =>
      rw [hm] at h
      dsimp only at h
      cases hg : goal cfg night with
      | none => rw [hg] at h; cases h
      | some g => rw [hg] at h; exact ⟨g, rfl, (Option.some.inj h).symm⟩
    | some m =>
      rw [hm] at h
      dsimp only at h
      rw [if_neg (by have := hn m hm; omega)] at h
      cases hg : goal cfg night with
      | none => rw [hg] at h; cases h
      | some g => rw [hg] at h; exact ⟨g, rfl, (Option.some.inj h).symm⟩
  obtain ⟨g, hg, ho⟩ := main
  have hgn := key g hg
  subst hgn
  refine ⟨l.map (fun o => bump (added cfg count cfg.nobs l) o :: List.replicate (extra cfg count cfg.nobs o) (short cfg o)), ?_, ?_⟩
  · rw [ho, List.flatMap_def]
  · have e : ((out.length : ℚ) - l.length) * (cfg.exptime + cfg.readApprox) / 86400 = added cfg count cfg.nobs l / 3600 / 24 := by
      rw [ho, short_length, added_eq]
      ring
    rw [e]
    exact short_blocks cfg count cfg.nobs _ l

/-- C215: after the last night the list comes back as it was. -/
theorem C215_after (cfg : Cfg) (count : ℕ → ℚ) (night m : ℕ) (l : List Row) (hm : cfg.nightMax = some m) (h : m < night) :
    call cfg count night l = some l := by
  unfold call
  rw [hm]
  dsimp only
  rw [if_pos h]

/-- A detailer for the witnesses: a field has the pixel of its right ascension, all pixels are in
the footprint. -/
def shortCfg : Cfg := { footprint := fun _ => 1, pixels := fun ra _ => [ra.num.toNat] }

/-- C215 fails at the start: the feature the constructor asks for does not exist (it is
called `NObservations`), so no such detailer can be made; the same holds for `PlanAheadSurvey`. -/
theorem C215_construct_violated : (∀ cfg, new exported cfg = none) ∧ planNew exported = none ∧ (new ("N_observations" :: exported) shortCfg).isSome = true := by
  refine ⟨fun cfg => ?_, by decide, rfl⟩
  have : attr exported "N_observations" = none := by decide
  unfold new
  rw [this]
  rfl

/-- C215 fails for the times of the short visits: the visit is valid for longer, its short copy,
which comes after it, is not. -/
theorem C215_flush_violated : call shortCfg (fun _ => 0) 0 [⟨"r", 3, 0, 30, 2, "a", 60000, 0⟩] =
    some [⟨"r", 3, 0, 30, 2, "a", 60000 + 3 / 86400, 0⟩, ⟨"r", 3, 0, 1, 1, "short", 60000, 0⟩] := by
  decide +kernel

/-- C215 fails for `time_scale`: the number wanted is zero in night 0 and does not grow from night 1
to the last one; without a last night the call raises. -/
theorem C215_scale_violated (n : ℚ) (m night : ℕ) (h0 : 0 < night) (h : night ≤ m) :
    goal { shortCfg with nobs := n, timeScale := true, nightMax := some m } night = some n ∧
    goal { shortCfg with nobs := n, timeScale := true, nightMax := some m } 0 = some 0 ∧
    call { shortCfg with nobs := n, timeScale := true } (fun _ => 0) night [] = none := by
  have hm : m ≠ 0 := by omega
  have hmq : (0 : ℚ) < m := by exact_mod_cast Nat.pos_of_ne_zero hm
  have hc : ⌈(night : ℚ) / m⌉ = 1 := by
    rw [Int.ceil_eq_iff]
    constructor
    · have : (0 : ℚ) < night := by exact_mod_cast h0
      push_cast
      have := div_pos this hmq
      linarith
    · push_cast
      rw [div_le_one hmq]
      exact_mod_cast h
  refine ⟨?_, ?_, rfl⟩
  · unfold goal
    dsimp only
    rw [if_pos rfl, if_neg hm, hc]
    simp
  · unfold goal
    dsimp only
    rw [if_pos rfl, if_neg hm]
    simp

/-- C215: visits that cover the same pixel are each followed by short visits, although one would be
enough: what was added for the first is not counted for the second. -/
theorem C215_twice_violated : (call { shortCfg with nobs := 1 } (fun _ => 0) 0 [⟨"r", 3, 0, 30, 2, "a", 0, 0⟩, ⟨"r", 3, 0, 30, 2, "b", 0, 0⟩]).map
    (fun out => (out.filter (fun o => o.note == "short")).length) = some 2 := by
  decide +kernel

/-- Non-vacuity: three visits, one in another band and one with enough short visits. -/
example : (call { shortCfg with nRepeat := 2, timeScale := true, nightMax := some 365 } (fun p => if p = 5 then 2 else 1) 10
      [⟨"r", 3, 0, 30, 2, "a", 0, 0⟩, ⟨"g", 3, 0, 30, 2, "b", 0, 0⟩, ⟨"r", 5, 0, 30, 2, "c", 0, 0⟩]).map (fun out => out.map (fun o => (o.note, o.exptime))) =
    some [("a", 30), ("short", 1), ("short", 1), ("b", 30), ("c", 30)] := by
  decide +kernel

end Verif
