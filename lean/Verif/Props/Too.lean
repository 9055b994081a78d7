import Verif.Model.Too
import Verif.Props.ScriptedHistory
import Verif.Props.Core

/-!
Properties C43, C84 and C85: targets of opportunity.
-/

namespace Verif

open Too

/-! ### C43 -/

/-- The window of an alert contains the time; alerts without a duration last three days. -/
def ActiveAt (t : ℚ) (a : Alert) : Prop := a.start < t ∧ t < a.start + a.duration.getD 3

instance (t : ℚ) : DecidablePred (ActiveAt t) := fun a => by unfold ActiveAt; infer_instance

/-- **C43.** The server gives the active alerts, in order, and `None` if there are none. -/
theorem C43_window (as : List Alert) (t : ℚ) :
    (serve as t = none ↔ ∀ a ∈ as, ¬ ActiveAt t a) ∧
    (∀ l, serve as t = some l → l ≠ [] ∧ l = as.filter (fun a => decide (ActiveAt t a))) := by
  have hstop : ∀ a : Alert, a.stop = a.start + a.duration.getD 3 := by
    intro a; unfold Alert.stop; cases a.duration <;> rfl
  have hf : as.filter (fun a => decide (a.start < t) && decide (t < a.stop)) = as.filter (fun a => decide (ActiveAt t a)) := by
    apply List.filter_congr
    intro a _
    rw [hstop, ← Bool.decide_and]; rfl
  unfold serve
  rw [hf]
  constructor
  · cases h : as.filter (fun a => decide (ActiveAt t a)) with
    | nil =>
      refine ⟨fun _ a ha => ?_, fun _ => rfl⟩
      have := List.filter_eq_nil_iff.1 h a ha
      simpa using this
    | cons b l =>
      refine ⟨fun e => (by cases e), fun h' => ?_⟩
      have : b ∈ as.filter (fun a => decide (ActiveAt t a)) := by rw [h]; simp
      obtain ⟨h1, h2⟩ := List.mem_filter.1 this
      exact absurd (by simpa using h2) (h' b h1)
  · intro l hl
    cases h : as.filter (fun a => decide (ActiveAt t a)) with
    | nil => rw [h] at hl; cases hl
    | cons b l' =>
      rw [h] at hl
      cases hl
      exact ⟨by simp, rfl⟩

/-- An alert for the examples. -/
def alert (id : Int) (start : ℚ) (duration : Option ℚ) : Alert := ⟨id, some "GW", start, duration, none, true, 20, [some 0, some 1, none]⟩

example : ((serve [alert 1 10 (some 5), alert 2 11 none, alert 3 12 (some 1)] 13).map (List.map Alert.id)) = some [1, 2] ∧
    (serve [alert 1 10 (some 5)] 10).isNone ∧ (serve [alert 1 10 (some 5)] 15).isNone := by decide +kernel

/-! ### C84 -/

/-- Part of the footprint is above the altitude limit of the alert. -/
def PartUp (a : Alert) (alts : List ℚ) : Prop :=
  ∃ (i : ℕ) (v alt : ℚ), a.footprint[i]? = some (some v) ∧ alts[i]? = some alt ∧ 0 < v ∧ a.altLimit ≤ alt

theorem foldl_max_spec (l : List ℚ) (a : ℚ) : a ≤ l.foldl max a ∧ (∀ x ∈ l, x ≤ l.foldl max a) ∧ (l.foldl max a = a ∨ l.foldl max a ∈ l) := by
  induction l generalizing a with
  | nil => simp
  | cons b l ih =>
    obtain ⟨i1, i2, i3⟩ := ih (max a b)
    rw [List.foldl_cons]
    refine ⟨le_trans (le_max_left _ _) i1, ?_, ?_⟩
    · intro x hx
      rcases List.mem_cons.1 hx with rfl | hx
      · exact le_trans (le_max_right _ _) i1
      · exact i2 x hx
    · rcases i3 with h | h
      · rcases le_total a b with hab | hab
        · right; rw [h, max_eq_right hab]; simp
        · left; rw [h, max_eq_left hab]
      · right; exact List.mem_cons_of_mem _ h

/-- The high pixels of the footprint. -/
theorem mem_highPixels (a : Alert) (alts : List ℚ) (v : ℚ) : v ∈ highPixels a alts ↔
    ∃ (i : ℕ) (o : Option ℚ) (alt : ℚ), a.footprint[i]? = some o ∧ alts[i]? = some alt ∧ a.altLimit ≤ alt ∧ o.getD 0 = v := by
  unfold highPixels
  rw [List.mem_map]
  constructor
  · rintro ⟨⟨o, alt⟩, h1, h2⟩
    obtain ⟨h3, h4⟩ := List.mem_filter.1 h1
    obtain ⟨i, hi⟩ := List.mem_iff_getElem?.1 h3
    rw [List.getElem?_zip_eq_some] at hi
    exact ⟨i, o, alt, hi.1, hi.2, by simpa using h4, h2⟩
  · rintro ⟨i, o, alt, h1, h2, h3, h4⟩
    refine ⟨(o, alt), List.mem_filter.2 ⟨?_, by simpa using h3⟩, h4⟩
    exact List.mem_of_getElem? (List.getElem?_zip_eq_some.2 ⟨h1, h2⟩)

/-- **C84 (partial).** An alert asks for the queue to be emptied exactly if it is marked as
urgent and its centre, if known, or else part of its footprint is above its altitude limit. Without a known centre this needs some
pixel of the map above the limit, or else it raises. -/
theorem C84_visible_partial (a : Alert) (altOf : ℚ × ℚ → ℚ) (alts : List ℚ) (hlen : alts.length = a.footprint.length)
    (hpos : ∀ v, some v ∈ a.footprint → 0 ≤ v) :
    (a.interrupt = false → shouldFlush a altOf alts = some false) ∧
    (a.interrupt = true → ∀ p, a.center = some p → ∃ b, shouldFlush a altOf alts = some b ∧ (b = true ↔ a.altLimit ≤ altOf p)) ∧
    (a.interrupt = true → a.center = none → (∃ alt ∈ alts, a.altLimit ≤ alt) →
      ∃ b, shouldFlush a altOf alts = some b ∧ (b = true ↔ PartUp a alts)) ∧
    (a.interrupt = true → a.center = none → (¬ ∃ alt ∈ alts, a.altLimit ≤ alt) → shouldFlush a altOf alts = none) := by
  unfold shouldFlush
  refine ⟨fun h => by rw [if_pos h], fun h p hp => ?_, fun h hc hex => ?_, fun h hc hno => ?_⟩
  · rw [if_neg (by simp [h]), hp]
    exact ⟨_, rfl, by simp⟩
  · rw [if_neg (by simp [h]), hc]
    dsimp only
    obtain ⟨alt, h1, h2⟩ := hex
    obtain ⟨i, hi⟩ := List.mem_iff_getElem?.1 h1
    have hil : i < a.footprint.length := by
      rw [← hlen]; exact (List.getElem?_eq_some_iff.1 hi).1
    have hne : highPixels a alts ≠ [] := by
      have := (mem_highPixels a alts (a.footprint[i].getD 0)).2 ⟨i, a.footprint[i], alt, List.getElem?_eq_getElem hil, hi, h2, rfl⟩
      intro e; rw [e] at this; simp at this
    have hnn : ∀ v ∈ highPixels a alts, 0 ≤ v := by
      intro v hv
      obtain ⟨i, o, alt, h1, _, _, h4⟩ := (mem_highPixels a alts v).1 hv
      cases o with
      | none => simp at h4; exact h4.le
      | some w => simp at h4; rw [← h4]; exact hpos w (List.mem_of_getElem? h1)
    have hup : PartUp a alts ↔ ∃ v ∈ highPixels a alts, v ≠ 0 := by
      constructor
      · rintro ⟨i, v, alt, h1, h2, h3, h4⟩
        exact ⟨v, (mem_highPixels a alts v).2 ⟨i, some v, alt, h1, h2, h4, rfl⟩, h3.ne'⟩
      · rintro ⟨v, h1, h2⟩
        obtain ⟨i, o, alt, h3, h4, h5, h6⟩ := (mem_highPixels a alts v).1 h1
        cases o with
        | none => simp at h6; exact absurd h6.symm h2
        | some w =>
          simp at h6; subst h6
          exact ⟨i, w, alt, h3, h4, lt_of_le_of_ne (hpos w (List.mem_of_getElem? h3)) h2.symm, h5⟩
    rw [hup]
    generalize highPixels a alts = l at *
    cases l with
    | nil => exact absurd rfl hne
    | cons v vs =>
      refine ⟨_, rfl, ?_⟩
      obtain ⟨m1, m2, m3⟩ := foldl_max_spec vs v
      rw [decide_eq_true_iff]
      constructor
      · intro hm
        rcases m3 with e | e
        · exact ⟨v, by simp, e ▸ hm⟩
        · exact ⟨_, List.mem_cons_of_mem _ e, hm⟩
      · rintro ⟨w, hw, hw0⟩ e
        rw [e] at m1 m2
        have : w ≤ 0 := by
          rcases List.mem_cons.1 hw with rfl | hw
          · exact m1
          · exact m2 w hw
        exact hw0 (le_antisymm this (hnn w hw))
  · rw [if_neg (by simp [h]), hc]
    dsimp only
    cases hh : highPixels a alts with
    | nil => rfl
    | cons v vs =>
      obtain ⟨i, o, alt, _, h2, h3, _⟩ := (mem_highPixels a alts v).1 (by rw [hh]; simp)
      exact absurd ⟨alt, List.mem_of_getElem? h2, h3⟩ hno

example : shouldFlush (alert 1 0 none) (fun _ => 0) [80, 30, 50] = some true ∧ shouldFlush (alert 1 0 none) (fun _ => 0) [80, 10, 50] = some false ∧
    PartUp (alert 1 0 none) [80, 30, 50] := by
  refine ⟨by decide +kernel, by decide +kernel, 1, 1, 30, by decide +kernel, by decide +kernel, by decide +kernel, by decide +kernel⟩

/-- **C84 fails** if no pixel is above the limit: the test raises. -/
theorem C84_raises : shouldFlush { alert 1 0 none with altLimit := 89 } (fun _ => 0) [80, 30, 50] = none := by decide +kernel

/-- **C84 fails** for an alert that is not visible when first seen: it does not empty the queue later, when it is
visible, although the scheduler had never done so for it. -/
theorem C84_late_violated {C Sv A : Type} (E : Env C Sv A) (a : A) (tiers : List (List Sv)) (n : Int)
    (d : List (String × String)) (s : Core C Sv A) (ops : List (Core.Op C)) (outs : List Obs) (evs : List Ev) (c0 c : C) (id : Int)
    (h : Core.run E (Core.init a tiers n true d) ops = .ok (s, outs, evs))
    (h0 : Core.Op.update c0 ∈ ops) (hseen : E.toos c0 = some [(id, false)]) (hnow : E.toos c = some [(id, true)]) :
    (s.update E c).qm = s.qm := by
  refine ((C11_flush_iff_new E a tiers n d s ops outs evs c h).2 ?_).1
  rintro ⟨i, hi, hno⟩
  rw [hnow] at hi
  simp at hi
  subst hi
  apply hno _ h0
  simp [alertIds, hseen]

/-- Such a history: two visits stay in the queue. -/
theorem C84_late_witness : digest (Core.run toyE toyS [.update ⟨60000, some [(1, false)]⟩, .request none false, .update ⟨60000, some [(1, true)]⟩])
      = some ([7], [.assigned 7, .assigned 8], 9, [(7, true), (8, true)]) := by decide +kernel

end Verif
