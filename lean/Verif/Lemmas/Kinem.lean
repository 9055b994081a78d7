import Verif.Model.Kinem
import Verif.Lemmas.Angles

namespace Verif.Kinem

open Ang

variable {α : Type} [Field α] [LinearOrder α] [IsStrictOrderedRing α] [FloorRing α]

theorem inWrap_iff {C : Cfg α} {x : α} : inWrap C x = true ↔ C.azMin ≤ x ∧ x ≤ C.azMax := by
  simp [inWrap]

/-- All ways to reach an azimuth differ by whole turns. -/
theorem deltas {T a b x y : α} (hx : SameAngle T (a + x) b) (hy : SameAngle T (a + y) b) : ∃ k : ℤ, y = x + k * T := by
  obtain ⟨k, hk⟩ := hy.trans hx.symm
  exact ⟨k, by linarith⟩

/-- The azimuth distance with a full circle: it leads to the target, the accumulated azimuth stays
within its limits, and no other way to do so is shorter. -/
theorem azFull_spec {C : Cfg α} (hT : 0 < C.T) {cum a b d : α} (h : azFull C cum a b = some d) :
    SameAngle C.T (a + d) b ∧ C.azMin ≤ cum + d ∧ cum + d ≤ C.azMax ∧
    ∀ d', SameAngle C.T (a + d') b → C.azMin ≤ cum + d' → cum + d' ≤ C.azMax → |d| ≤ |d'| := by
  obtain ⟨h1, h2, h3⟩ := smallestSigned_spec hT a b
  set sh := smallestSigned C.T a b with hsh
  -- the long way
  set lo := if sh < 0 then C.T + sh else sh - C.T with hlo
  have hlong : SameAngle C.T (a + lo) b := by
    obtain ⟨k, hk⟩ := h1
    rw [hlo]; split
    · exact ⟨k + 1, by push_cast; linarith⟩
    · exact ⟨k - 1, by push_cast; linarith⟩
  have habs : |sh| + |lo| = C.T ∧ |sh| ≤ C.T / 2 := by
    rw [hlo]; split
    · rename_i h
      rw [abs_of_neg h, abs_of_pos (by linarith)]; constructor <;> linarith
    · rename_i h
      rw [not_lt] at h
      rw [abs_of_nonneg h, abs_of_nonpos (by linarith)]; constructor <;> linarith
  -- other ways
  have hother : ∀ d', SameAngle C.T (a + d') b → d' = sh ∨ d' = lo ∨ C.T ≤ |d'| := by
    intro d' hd'
    obtain ⟨k, hk⟩ := deltas h1 hd'
    by_cases hk0 : k = 0
    · left; rw [hk, hk0]; simp
    right
    by_cases hs : sh < 0
    · by_cases hk1 : k = 1
      · left; rw [hlo, if_pos hs, hk, hk1]; simp; ring
      · right
        rcases lt_or_gt_of_ne hk0 with h' | h'
        · have : (k : α) ≤ -1 := by exact_mod_cast (by omega : k ≤ -1)
          rw [abs_of_neg (by nlinarith)]; nlinarith
        · have : (2 : α) ≤ k := by exact_mod_cast (by omega : 2 ≤ k)
          rw [abs_of_nonneg (by nlinarith)]; nlinarith
    · by_cases hk1 : k = -1
      · left; rw [hlo, if_neg hs, hk, hk1]; push_cast; ring
      · right
        rw [not_lt] at hs
        rcases lt_or_gt_of_ne hk0 with h' | h'
        · have : (k : α) ≤ -2 := by exact_mod_cast (by omega : k ≤ -2)
          rw [abs_of_nonpos (by nlinarith)]; nlinarith
        · have : (1 : α) ≤ k := by exact_mod_cast (by omega : 1 ≤ k)
          rw [abs_of_nonneg (by nlinarith)]; nlinarith
  have hsabs := abs_nonneg sh
  have hlabs := abs_nonneg lo
  unfold azFull at h
  dsimp only at h
  rw [← hsh, ← hlo] at h
  by_cases hin : inWrap C (sh + cum) = true
  · by_cases hil : inWrap C (lo + cum) = true
    · rw [if_pos hin, if_pos hil] at h
      rw [inWrap_iff] at hin hil
      by_cases hlt : |sh| < |lo|
      · simp only [hlt, if_true, Option.some.injEq] at h
        subst h
        refine ⟨h1, by linarith, by linarith, fun d' hd' _ _ => ?_⟩
        rcases hother d' hd' with e | e | e
        · rw [e]
        · rw [e]; exact hlt.le
        · linarith
      · simp only [hlt, if_false, Option.some.injEq] at h
        subst h
        rw [not_lt] at hlt
        refine ⟨hlong, by linarith, by linarith, fun d' hd' _ _ => ?_⟩
        rcases hother d' hd' with e | e | e
        · rw [e]; exact hlt
        · rw [e]
        · linarith
    · rw [if_pos hin, if_neg hil] at h
      simp only [Option.some.injEq] at h
      subst h
      rw [inWrap_iff] at hin
      refine ⟨h1, by linarith, by linarith, fun d' hd' _ _ => ?_⟩
      rcases hother d' hd' with e | e | e
      · rw [e]
      · rw [e]; linarith
      · linarith
  · by_cases hil : inWrap C (lo + cum) = true
    · rw [if_neg hin, if_pos hil] at h
      simp only [Option.some.injEq] at h
      subst h
      rw [inWrap_iff] at hil hin
      refine ⟨hlong, by linarith, by linarith, fun d' hd' k1 k2 => ?_⟩
      rcases hother d' hd' with e | e | e
      · rw [e] at k1 k2
        exact absurd ⟨by linarith, by linarith⟩ hin
      · rw [e]
      · linarith
    · rw [if_neg hin, if_neg hil] at h
      simp at h

/-- With a full circle, from inside the limits every azimuth can be reached. -/
theorem azFull_some {C : Cfg α} (hT : 0 < C.T) (hr : C.T ≤ C.azMax - C.azMin) {cum : α} (h1 : C.azMin ≤ cum)
    (h2 : cum ≤ C.azMax) (a b : α) : ∃ d, azFull C cum a b = some d := by
  obtain ⟨-, h3, h4⟩ := smallestSigned_spec hT a b
  unfold azFull
  dsimp only
  set sh := smallestSigned C.T a b with hsh
  by_cases hin : inWrap C (sh + cum) = true
  · rw [if_pos hin]
    split
    · split <;> exact ⟨_, rfl⟩
    · exact ⟨_, rfl⟩
    · rename_i h; simp at h
  · have : inWrap C ((if sh < 0 then C.T + sh else sh - C.T) + cum) = true := by
      rw [inWrap_iff] at hin ⊢
      rw [not_and_or, not_le, not_le] at hin
      split <;> rename_i hs
      · rcases hin with h | h
        · constructor <;> linarith
        · constructor <;> linarith
      · rw [not_lt] at hs
        rcases hin with h | h
        · constructor <;> linarith
        · constructor <;> linarith
    rw [if_neg hin, if_pos this]
    exact ⟨_, rfl⟩

/-- Everything an accepted slew says. -/
theorem slew_some {C : Cfg α} {s s' : Tel α} {r : Req α} {mjd t : α} {lax sw : Bool}
    (h : slew C s r mjd lax sw = some (t, s')) :
    r.band ∈ s.mounted ∧
    ∃ d rotSky rotTel, rotTarget C r (C.altaz r.ra r.dec mjd).2.2 = (rotSky, rotTel) ∧ (if fullCircle C then azFull C s.cum (position C s mjd).2.1 (C.altaz r.ra r.dec mjd).2.1
        else azRestricted C (position C s mjd).2.1 (C.altaz r.ra r.dec mjd).2.1) = some d ∧
      (C.rotMin ≤ rotTel ∧ rotTel ≤ C.rotMax) ∧
      (C.altMin ≤ (C.altaz r.ra r.dec mjd).1 ∧ (C.altaz r.ra r.dec mjd).1 ≤ C.altMax) ∧
      t = addChanges C s r.band sw |(C.altaz r.ra r.dec mjd).1 - (position C s mjd).1|
        (max (max (max s.overhead (telTime C |(C.altaz r.ra r.dec mjd).1 - (position C s mjd).1| d))
          (domeTime C lax |(C.altaz r.ra r.dec mjd).1 - (position C s mjd).1|
            |smallestSigned C.T (position C s mjd).2.1 (C.altaz r.ra r.dec mjd).2.1|))
          (rotatorTime C s r.band (position C s mjd).2.2 rotTel)) ∧
      s' = { s with
          track := some (r.ra, r.dec, rotSky), lastRot := rotTel, lastAz := (C.altaz r.ra r.dec mjd).2.1,
          lastAlt := (C.altaz r.ra r.dec mjd).1,
          cum := if fullCircle C then s.cum + d else (C.altaz r.ra r.dec mjd).2.1,
          band := r.band, lastMjd := mjd } := by
  unfold slew at h
  split at h
  · cases h
  · rename_i hb
    rw [not_not] at hb
    refine ⟨hb, ?_⟩
    dsimp only at h
    split at h
    · cases h
    · rename_i d hd
      split at h
      · cases h
      · rename_i hrot
        split at h
        · cases h
        · rename_i halt
          simp only [Option.some.injEq, Prod.mk.injEq] at h
          rw [not_or, not_lt, not_lt] at hrot halt
          exact ⟨d, _, _, rfl, hd, hrot, ⟨halt.2, halt.1⟩, h.1.symm, h.2.symm⟩

end Verif.Kinem
