import Verif.Props.Skybright
import Verif.Props.Spots
import Verif.Props.Summit
import Verif.Props.TooSurvey

/-!
Further parts of C52, C85, C115 and C167.
-/

namespace Verif

/-- C115: the maps left in memory by a question are those the answer was read from, whatever was in memory before. -/
theorem C115_memory (files : List Skb.File) (S : Skb.Sun) (len : ℚ) (s s' : Skb.Loaded) (bad t : ℚ) (pix : ℕ) (v : XReal)
    (h : Skb.mags files S len s bad t pix = .ok (s', v)) : Skb.value S s' bad t pix = .ok v := by
  unfold Skb.mags at h
  cases he : Skb.ensure files len s t with
  | error e => rw [he] at h; cases h
  | ok s1 =>
    rw [he] at h
    dsimp only at h
    cases hv : Skb.value S s1 bad t pix with
    | error e => rw [hv] at h; cases h
    | ok x =>
      rw [hv] at h
      cases h
      exact hv

/-- C167: a year of 365.2422 days has one more sidereal day than it has days, to two minutes in the year. -/
theorem C167_sidereal : |Spot.sidereal * 366.2422 - 365.2422| < 1 / 720 := by
  unfold Spot.sidereal
  rw [abs_lt]
  constructor <;> norm_num

section
variable {C Sv A : Type}

/-- C52: a visit handed out is taken, while it is pending, to be made at the time of the conditions it was asked for with; its number stays. -/
theorem C52_time (E : Env C Sv A) (F : FillIn C) (w w' : Summit C Sv A) (m : Option ℚ) (o : Obs) (h : Summit.request E F w m = some (w', o)) :
    ∃ c p, w.cond = some c ∧ w'.pend = w.pend ++ [p] ∧ p.mjd = E.q.mjdOf c ∧ p.targetId = o.targetId ∧ p.ra = o.ra ∧ p.dec = o.dec ∧ p.band = o.band := by
  unfold Summit.request at h
  cases hc : w.cond with
  | none => rw [hc] at h; cases h
  | some c =>
    rw [hc] at h
    dsimp only at h
    split at h
    · cases h
    · cases h
    · cases h
      exact ⟨c, _, rfl, rfl, rfl, rfl, rfl, rfl, rfl⟩
    · cases h

/-- Two visits asked for with conditions of two times. -/
example : ((Summit.run (aheadE 0) (fun _ _ => 0) (Summit.init (aheadS [0, 1])) [.update ⟨60000, []⟩, .request none, .update ⟨60001, []⟩, .request none]).map
    fun r => r.1.pend.map fun p => (p.mjd, p.targetId)) = some [(60000, 0), (60001, 1)] := by
  decide +kernel

end

/-- C85: an alert that would be followed raises when no visit is configured for it: when no band is given for any of its times, or no repeat. -/
theorem C85_nothing_configured (cfg : Too.Cfg) (idOf : String → Option ℕ) (s : Too.S) (a : Too.Alert) (now : ℚ) (pts : ℕ → ℕ → List (ℚ × ℚ))
    (hp : Too.pointings cfg a = some (some pts)) (h : (∀ b ∈ cfg.bands, b = []) ∨ ∀ n ∈ cfg.nvis, n = 0) : Too.follow cfg idOf s a now = none := by
  have h0 : Too.slots cfg = 0 := by
    unfold Too.slots
    rw [List.sum_eq_zero_iff]
    intro x hx
    obtain ⟨q, hq, rfl⟩ := List.mem_map.1 hx
    obtain ⟨t, b, n, e⟩ := q
    have h1 := (List.of_mem_zip hq).2
    have h2 := List.of_mem_zip h1
    have h3 := List.of_mem_zip h2.2
    rcases h with h | h
    · simp [h b h2.1]
    · simp [h n h3.1]
  unfold Too.follow
  rw [hp]
  dsimp only
  cases Too.mjd0 cfg a now with
  | none => rfl
  | some t0 =>
    dsimp only
    rw [if_pos h0]

/-- Without bands an alert raises; with them it does not. -/
example : tooNotes { tooCfg with bands := tooCfg.bands.map fun _ => [] } [.update 1 (some [alert 1 0 none])] = none ∧ (tooNotes tooCfg [.update 1 (some [alert 1 0 none])]).isSome = true
    ∧ (∃ pts, Too.pointings { tooCfg with bands := tooCfg.bands.map fun _ => [] } (alert 1 0 none) = some (some pts)) ∧ tooCfg.bands ≠ [] := by
  refine ⟨by decide +kernel, by decide +kernel, ?_, by decide +kernel⟩
  exact ⟨_, rfl⟩

/-- An answer read from maps that had to be loaded first. -/
example : (match Skb.mags [fiveMaps] noSun 10 (partOf fiveMaps 0 1) 0 (3 / 200) 7 with | .ok r => some (r.2, r.1.a, r.1.b) | .error _ => none) = some (.fin (43 / 2), 1, 4) := by
  decide +kernel

end Verif
