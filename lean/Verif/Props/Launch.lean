import Mathlib.Tactic.Linarith
import Mathlib.Tactic.NormNum
import Mathlib.Tactic.Ring
import Mathlib.Tactic.Positivity
import Mathlib.Tactic.FieldSimp
import Verif.Model.Launch
import Verif.Model.Feasible
import Verif.Lemmas.IntRounded
import Verif.Props.Spots

/-!
C176-C182: the parts of an example scheduler, its saved table, the next sunset and random alerts.
-/

namespace Verif

open Lau

/-! ### C176: dates and resolutions -/

/-- All parts begin at one date. -/
def AllStart (t : ℚ) (s : Starts) : Prop := s.scheduler = t ∧ s.rolling = t ∧ s.goodSeeing = t ∧ s.templates = t ∧ s.drilling = t

/-- All parts have one resolution. -/
def AllGrids (n : ℕ) (g : Grids) : Prop := g.scheduler = n ∧ g.footprint = n ∧ g.roman = n ∧ g.pairs = n

/-- C176, in part: asked for the usual date and resolution, all parts of the example scheduler have them. Missing: all others. -/
theorem C176_usual_partial :
    AllStart surveyStart (starts (baseline 32 surveyStart)) ∧ AllStart surveyStart (starts (example_ surveyStart none 32)) ∧ AllGrids 32 (grids (baseline 32 surveyStart)) := by
  refine ⟨⟨?_, ?_, ?_, ?_, ?_⟩, ⟨?_, ?_, ?_, ?_, ?_⟩, ⟨?_, ?_, ?_, ?_⟩⟩ <;> simp [starts, baseline, example_, grids, defaultNside]

/-- C176 is violated for every other date: the date asked for is not used. -/
theorem C176_date_violated (nside : ℕ) (start : ℚ) (h : start ≠ surveyStart) :
    (starts (baseline nside start)).scheduler = surveyStart ∧ ¬ AllStart start (starts (baseline nside start)) ∧ ¬ AllStart start (starts (example_ start none nside)) := by
  have e : (starts (baseline nside start)).scheduler = surveyStart := by simp [starts, baseline]
  exact ⟨e, fun x => h (x.1.symm.trans e), fun x => h (x.1.symm.trans e)⟩

/-- C176 is violated on the command line too: a shift of the date does not reach the templates and the deep drilling visits. -/
theorem C176_shift_violated (nside : ℕ) (plus : ℚ) (h : plus ≠ 0) : ∀ t, ¬ AllStart t (starts ⟨nside, plus, none⟩) := by
  rintro t ⟨h1, _, _, h4, _⟩
  simp only [starts] at h1 h4
  exact h (by linarith)

/-- C176 is violated by every other resolution. -/
theorem C176_grid_violated (nside : ℕ) (start : ℚ) (h : nside ≠ 32) : ¬ AllGrids nside (grids (baseline nside start)) := fun x => h x.2.2.1.symm

example : (61000 : ℚ) ≠ surveyStart := by norm_num [surveyStart]

/-! ### C177: nights of visits near the sun -/

/-- C177: for any pattern of nights, on each night either visits near the sun or short pairs are allowed, and not both; with the pattern in use the
visits near the sun have every fourth night. -/
theorem C177_nights (pattern : List Bool) (hp : pattern ≠ []) (c : Feas.Cond) :
    ((Feas.nightModulo pattern c = some true ∧ Feas.nightModulo (reversed pattern) c = some false)
      ∨ (Feas.nightModulo pattern c = some false ∧ Feas.nightModulo (reversed pattern) c = some true))
    ∧ (Feas.nightModulo eiPattern c = some true ↔ (4 : ℤ) ∣ c.night) := by
  constructor
  · unfold Feas.nightModulo reversed
    have hl : 0 < (pattern.length : ℤ) := by
      have := List.length_pos_iff.2 hp
      omega
    have h1 := Int.emod_nonneg c.night (ne_of_gt hl)
    have h2 := Int.emod_lt_of_pos c.night hl
    have hlt : (c.night % (pattern.length : ℤ)).toNat < pattern.length := by omega
    rw [List.length_map, List.getElem?_map, List.getElem?_eq_getElem hlt]
    cases pattern[(c.night % (pattern.length : ℤ)).toNat] <;> simp
  · unfold Feas.nightModulo eiPattern
    have h1 := Int.emod_nonneg c.night (b := 4) (by norm_num)
    have h2 := Int.emod_lt_of_pos c.night (b := 4) (by norm_num)
    rw [Int.dvd_iff_emod_eq_zero]
    show [true, false, false, false][(c.night % 4).toNat]? = some true ↔ _
    have : c.night % 4 = 0 ∨ c.night % 4 = 1 ∨ c.night % 4 = 2 ∨ c.night % 4 = 3 := by omega
    rcases this with h | h | h | h <;> rw [h] <;> simp

/-! ### C178: the saved table -/

/-- The file holds what its source gives. -/
def Honest {D F R K A : Type} (digest : F → D) (compute : Source F R K → A) (ok : F → Prop) (r : R) : Option (Saved D K A) → Prop
  | none => True
  | some f => ∃ files, ok files ∧ f.digest = digest files ∧ f.table = compute ⟨files, r, f.kwargs⟩

/-- C178, in part: in every history of calls, with any arguments, any versions of the two files of code that differ in their checksums, and any choices of whether
to save, each call gives the table computed from its own code and arguments. Missing: other code and data must not change. -/
theorem C178_table_partial {D F R K A : Type} [DecidableEq D] [DecidableEq K] (digest : F → D) (compute : Source F R K → A) (r : R) (history : List (Bool × Source F R K))
    (hr : ∀ q ∈ history, q.2.rest = r) (hd : ∀ a ∈ history, ∀ b ∈ history, digest a.2.files = digest b.2.files → a.2.files = b.2.files) :
    ddfRun digest compute history none = history.map fun q => compute q.2 := by
  have main : ∀ (rest : List (Bool × Source F R K)) (file : Option (Saved D K A)), (∀ q ∈ rest, q ∈ history) →
      Honest digest compute (fun f => ∃ q ∈ history, q.2.files = f) r file → ddfRun digest compute rest file = rest.map fun q => compute q.2 := by
    intro rest
    induction rest with
    | nil => intro file _ _; rfl
    | cons q rest ih =>
      intro file hsub hh
      obtain ⟨save, src⟩ := q
      have hq := hsub _ List.mem_cons_self
      have hsrc : src.rest = r := hr _ hq
      have hsub' : ∀ q ∈ rest, q ∈ history := fun q hq => hsub q (List.mem_cons_of_mem _ hq)
      have step : (ddfTable digest compute save src file).1 = compute src ∧ Honest digest compute (fun f => ∃ q ∈ history, q.2.files = f) r (ddfTable digest compute save src file).2 := by
        unfold ddfTable
        cases hf : file.filter (serves digest src) with
        | none =>
          refine ⟨rfl, ?_⟩
          cases save with
          | false => exact hh
          | true => exact ⟨src.files, ⟨_, hq, rfl⟩, rfl, by rw [← hsrc]⟩
        | some f =>
          rw [Option.filter_eq_some_iff] at hf
          obtain ⟨rfl, hs⟩ := hf
          refine ⟨?_, hh⟩
          obtain ⟨files, ⟨p, hp, hpf⟩, h1, h2⟩ := hh
          simp only [serves, Bool.and_eq_true, decide_eq_true_eq] at hs
          have e : p.2.files = src.files := hd p hp _ hq (by rw [hpf, ← h1, hs.1])
          show f.table = compute src
          rw [h2, ← hpf, e, hs.2, ← hsrc]
      rw [ddfRun, List.map_cons, step.1, ih _ hsub' step.2]
  exact main history none (fun q h => h) trivial

/-- C178 is violated when other code or data changes: the old table is given again. -/
theorem C178_stale_violated : ∃ (history : List (Bool × Source ℕ ℕ ℕ)),
    ddfRun (D := ℕ) (fun f => f) (fun s => (s.files, s.rest, s.kwargs)) history none ≠ history.map fun q => (q.2.files, q.2.rest, q.2.kwargs) :=
  ⟨[(true, ⟨1, 1, 1⟩), (true, ⟨1, 2, 1⟩)], by decide +kernel⟩

example : ddfRun (D := ℕ) (fun f => f) (fun s => (s.files, s.rest, s.kwargs)) [(true, ⟨1, 5, 1⟩), (false, ⟨2, 5, 1⟩), (true, ⟨1, 5, 1⟩)] none = [((1 : ℕ), (5 : ℕ), (1 : ℕ)), (2, 5, 1), (1, 5, 1)] := by
  decide +kernel

/-! ### C179: the next sunset -/

theorem searchRight_spec (l : List ℚ) (x : ℚ) (hs : l.Pairwise (· ≤ ·)) :
    (∀ i, ∀ h : i < l.length, i < searchRight l x → l[i] ≤ x) ∧ (∀ i, ∀ h : i < l.length, searchRight l x ≤ i → x < l[i]) ∧ searchRight l x ≤ l.length := by
  induction l with
  | nil => simp [searchRight]
  | cons a l ih =>
    rw [List.pairwise_cons] at hs
    obtain ⟨h1, h2, h3⟩ := ih hs.2
    by_cases ha : a ≤ x
    · have e : searchRight (a :: l) x = searchRight l x + 1 := by simp [searchRight, List.takeWhile_cons, ha]
      rw [e]
      refine ⟨?_, ?_, by simpa using h3⟩
      · intro i h hi
        cases i with
        | zero => simpa using ha
        | succ i => simpa using h1 i (by simpa using h) (by omega)
      · intro i h hi
        cases i with
        | zero => omega
        | succ i => simpa using h2 i (by simpa using h) (by omega)
    · have e : searchRight (a :: l) x = 0 := by simp [searchRight, List.takeWhile_cons, ha]
      rw [e]
      refine ⟨fun i _ hi => absurd hi (by omega), ?_, by simp⟩
      intro i h _
      cases i with
      | zero => simpa using ha
      | succ i =>
        have := hs.1 _ (List.getElem_mem (by simpa using h : i < l.length))
        simp only [List.getElem_cons_succ]
        exact lt_of_lt_of_le (not_le.1 ha) this

/-- C179, in part: the time is moved to the first sunset that is not past. Missing: times before the first sunset known. -/
theorem C179_sunset_partial (sunsets : List ℚ) (mjd : ℚ) (hs : sunsets.Pairwise (· ≤ ·)) (h1 : ∃ s ∈ sunsets, s ≤ mjd) (h2 : ∃ s ∈ sunsets, mjd ≤ s) :
    ∃ t, nextSunset sunsets mjd = some t ∧ t ∈ sunsets ∧ mjd ≤ t ∧ ∀ s ∈ sunsets, mjd ≤ s → t ≤ s := by
  obtain ⟨a, b, c⟩ := searchRight_spec sunsets mjd hs
  obtain ⟨s, hsm, hsle⟩ := h1
  obtain ⟨i, hi, rfl⟩ := List.mem_iff_getElem.1 hsm
  have hpos : 0 < searchRight sunsets mjd := by
    by_contra h
    have := b i hi (by omega)
    linarith
  obtain ⟨k, hk⟩ : ∃ k, searchRight sunsets mjd = k + 1 := ⟨searchRight sunsets mjd - 1, by omega⟩
  have hkl : k < sunsets.length := by omega
  have get : ∀ j : ℕ, Det.pyGet sunsets (j : ℤ) = sunsets[j]? := by
    intro j
    unfold Det.pyGet
    simp
  unfold nextSunset
  have hi' : ((searchRight sunsets mjd : ℕ) : ℤ) - 1 = (k : ℤ) := by omega
  simp only [hi', get, List.getElem?_eq_getElem hkl]
  have hle := a k hkl (by omega)
  by_cases hlt : sunsets[k] < mjd
  · rw [if_pos hlt]
    have hk1 : ((k : ℤ) + 1) = ((k + 1 : ℕ) : ℤ) := by push_cast; ring
    obtain ⟨s', hs', hle'⟩ := h2
    obtain ⟨j, hj, rfl⟩ := List.mem_iff_getElem.1 hs'
    have hjk : k + 1 ≤ j := by
      by_contra h
      have : sunsets[j] ≤ sunsets[k] := by
        rcases lt_or_eq_of_le (by omega : j ≤ k) with h' | h'
        · exact List.pairwise_iff_getElem.1 hs j k hj hkl h'
        · subst h'; exact le_rfl
      linarith
    have hk1l : k + 1 < sunsets.length := by omega
    rw [hk1, get, List.getElem?_eq_getElem hk1l]
    refine ⟨_, rfl, List.getElem_mem _, (b (k + 1) hk1l (by omega)).le, ?_⟩
    intro s hsm hms
    obtain ⟨m, hm, rfl⟩ := List.mem_iff_getElem.1 hsm
    have : k + 1 ≤ m := by
      by_contra h
      have : sunsets[m] ≤ sunsets[k] := by
        rcases lt_or_eq_of_le (by omega : m ≤ k) with h' | h'
        · exact List.pairwise_iff_getElem.1 hs m k hm hkl h'
        · subst h'; exact le_rfl
      linarith
    rcases lt_or_eq_of_le this with h' | h'
    · exact List.pairwise_iff_getElem.1 hs _ _ hk1l hm h'
    · subst h'; exact le_rfl
  · rw [if_neg hlt]
    have e : sunsets[k] = mjd := le_antisymm hle (not_lt.1 hlt)
    exact ⟨_, rfl, List.getElem_mem _, e.ge, fun s _ h => e ▸ h⟩

/-- C179 is violated before the first sunset known: the time is moved to the last. -/
theorem C179_first_violated : nextSunset [61000, 61001, 61002, 64000] 60999 = some 64000 := by decide +kernel

example : nextSunset [61000, 61001, 61002] 61001 = some 61001 ∧ nextSunset [61000, 61001, 61002] (122001 / 2) = some 61001 := by decide +kernel

/-! ### C180: random alerts -/

open Real

/-- Random numbers are from 0 up to 1. -/
def DrawOk (d : Draw) : Prop := (0 ≤ d.ra ∧ d.ra < 1) ∧ (0 ≤ d.dec ∧ d.dec < 1) ∧ 0 ≤ d.time ∧ d.time < 1

/-- C180: an alert of a merger or a neutrino is at a place of the sky, in its period, and lasts three days; a region of mergers has its area. -/
theorem C180_row (first last radius : ℝ) (h : first ≤ last) (label : String) (d : Draw) (hd : DrawOk d) :
    let e := row first last label radius d
    (0 ≤ e.ra ∧ e.ra < 2 * π) ∧ IsLat e.dec ∧ (first ≤ e.start ∧ e.start ≤ last) ∧ e.expires = e.start + 3 ∧ e.label = label ∧ e.radius = radius := by
  have hp := pi_pos
  obtain ⟨⟨a1, a2⟩, ⟨b1, b2⟩, c1, c2⟩ := hd
  refine ⟨⟨?_, ?_⟩, ⟨?_, ?_⟩, ⟨?_, ?_⟩, rfl, rfl, rfl⟩
  · show 0 ≤ d.ra * π * 2; positivity
  · show d.ra * π * 2 < 2 * π; nlinarith
  · show -(π / 2) ≤ arccos (2 * d.dec - 1) - π / 2
    have := arccos_nonneg (2 * d.dec - 1); linarith
  · show arccos (2 * d.dec - 1) - π / 2 ≤ π / 2
    have := arccos_le_pi (2 * d.dec - 1); linarith
  · show first ≤ d.time * (last - first) + first
    have := mul_nonneg c1 (sub_nonneg.2 h); linarith
  · show d.time * (last - first) + first ≤ last
    nlinarith [sub_nonneg.2 h]

theorem C180_area (area : ℝ) (h : 0 ≤ area) : π * (radiusOf area * 180 / π) ^ 2 = area := by
  have hp := pi_pos
  have e : radiusOf area * 180 / π = √(area / π) := by unfold radiusOf; field_simp
  rw [e, sq_sqrt (by positivity)]
  field_simp

/-- C180: the alerts are the rows of the table in order of time, each for its whole duration, and numbered from 0. -/
theorem C180_order (rows : List Event) :
    (alerts (eventTable rows)).Pairwise (fun a b => a.start ≤ b.start)
    ∧ (alerts (eventTable rows)).map Alert.id = List.range rows.length
    ∧ ((alerts (eventTable rows)).map fun a => (a.start, a.duration, a.kind, a.ra, a.dec)).Perm (rows.map fun e => (e.start, e.expires - e.start, e.label, e.ra, e.dec)) := by
  classical
  have hperm : (eventTable rows).Perm rows := List.perm_insertionSort _ _
  have hsort : (eventTable rows).Pairwise (fun a b => a.start ≤ b.start) := by
    haveI : Std.Total (fun a b : Event => a.start ≤ b.start) := ⟨fun a b => le_total a.start b.start⟩
    haveI : IsTrans Event (fun a b : Event => a.start ≤ b.start) := ⟨fun a b c => le_trans⟩
    exact List.pairwise_insertionSort _ _
  have hmap : ∀ (l : List Event) (k : ℕ) {β : Type} (f : Event → β), (l.zipIdx k).map (fun q => f q.1) = l.map f := by
    intro l
    induction l with
    | nil => intro k β f; rfl
    | cons a l ih => intro k β f; rw [List.zipIdx_cons, List.map_cons, List.map_cons, ih]
  refine ⟨?_, ?_, ?_⟩
  · have e : (alerts (eventTable rows)).map Alert.start = (eventTable rows).map Event.start := by
      unfold alerts
      rw [List.map_map]
      exact hmap _ 0 Event.start
    have hs : ((eventTable rows).map Event.start).Pairwise (· ≤ ·) := List.pairwise_map.2 hsort
    rw [← e] at hs
    exact List.pairwise_map.1 hs
  · have hid : ∀ (l : List Event) (k : ℕ), (l.zipIdx k).map Prod.snd = List.range' k l.length := by
      intro l k
      rw [List.zipIdx_map_snd]
    unfold alerts
    rw [List.map_map]
    show (List.map Prod.snd (eventTable rows).zipIdx) = _
    rw [hid, hperm.length_eq, List.range_eq_range']
  · unfold alerts
    rw [List.map_map]
    have e := hmap (eventTable rows) 0 (fun e => (e.start, e.expires - e.start, e.label, e.ra, e.dec))
    have e' : ((fun a : Alert => (a.start, a.duration, a.kind, a.ra, a.dec)) ∘ fun q : Event × ℕ => (⟨q.2, q.1.start, q.1.expires - q.1.start, q.1.label, q.1.ra, q.1.dec⟩ : Alert))
        = fun q => (q.1.start, q.1.expires - q.1.start, q.1.label, q.1.ra, q.1.dec) := rfl
    rw [e', e]
    exact hperm.map _

/-- The random numbers of all alerts are such, and the nights chosen for solar system alerts are in the period (C181). -/
structure Fair (first last : ℝ) (d : Draws) : Prop where
  gw : ∀ x ∈ d.gw, DrawOk x
  bbh : ∀ x ∈ d.bbh, DrawOk x
  bns : ∀ x ∈ d.bns, DrawOk x
  neutrino : ∀ x ∈ d.neutrino, DrawOk x
  twilight : ∀ x ∈ d.twilight, first ≤ x.1 ∧ x.1 ≤ last
  night : ∀ x ∈ d.night, first ≤ x.1 ∧ x.1 ≤ last

theorem merger_mem {first last : ℝ} {rows : List (String × ℝ)} {draws : List Draw} {e : Event} (h : e ∈ mergers first last rows draws) :
    ∃ q ∈ rows, ∃ d ∈ draws, e = row first last q.1 q.2 d := by
  obtain ⟨q, hq, rfl⟩ := List.mem_map.1 h
  exact ⟨q.1, (List.of_mem_zip hq).1, q.2, (List.of_mem_zip hq).2, rfl⟩

/-- C180, in part: all alerts begin in the period asked for and last three days, when that period has the whole run of the detectors of mergers in it or mergers are left
out. -/
theorem C180_period_partial (scale : ℚ) (gw nu ss : Bool) (first last : ℝ) (h : first ≤ last) (d : Draws) (hd : Fair first last d)
    (ho : gw = true → first ≤ 61557 ∧ 62502 ≤ last) :
    ∀ e ∈ allRows scale gw nu ss first last d, (first ≤ e.start ∧ e.start ≤ last) ∧ e.expires = e.start + 3 := by
  have o5 : o5Start ≤ o5End := by norm_num [o5Start, o5End]
  intro e he
  unfold allRows at he
  rcases List.mem_append.1 he with he | he
  · rcases List.mem_append.1 he with he | he
    · cases gw with
      | false => simp at he
      | true =>
        obtain ⟨f1, f2⟩ := ho rfl
        have f1 : first ≤ o5Start := by unfold o5Start; exact f1
        have f2 : o5End ≤ last := by unfold o5End; exact f2
        simp only [if_true] at he
        have fin : ∀ (rows : List (String × ℝ)) (draws : List Draw), (∀ x ∈ draws, DrawOk x) → e ∈ mergers o5Start o5End rows draws →
            (first ≤ e.start ∧ e.start ≤ last) ∧ e.expires = e.start + 3 := by
          intro rows draws hu hm
          obtain ⟨q, _, x, hx, rfl⟩ := merger_mem hm
          obtain ⟨_, _, h3, h4, _⟩ := C180_row o5Start o5End q.2 o5 q.1 x (hu x hx)
          exact ⟨⟨le_trans f1 h3.1, le_trans h3.2 f2⟩, h4⟩
        rcases List.mem_append.1 he with he | he
        · rcases List.mem_append.1 he with he | he
          · exact fin _ _ hd.gw he
          · exact fin _ _ hd.bbh he
        · exact fin _ _ hd.bns he
    · cases nu with
      | false => simp at he
      | true =>
        simp only [if_true] at he
        obtain ⟨x, hx, rfl⟩ := List.mem_map.1 he
        obtain ⟨_, _, h3, h4, _⟩ := C180_row first last (0 * π / 180) h "neutrino" x (hd.neutrino x hx)
        exact ⟨h3, h4⟩
  · cases ss with
    | false => simp at he
    | true =>
      simp only [if_true] at he
      rcases List.mem_append.1 he with he | he
      · obtain ⟨x, hx, rfl⟩ := List.mem_map.1 he
        exact ⟨hd.twilight x hx, rfl⟩
      · obtain ⟨x, hx, rfl⟩ := List.mem_map.1 he
        exact ⟨hd.night x hx, rfl⟩

/-- C180 is violated by mergers: they do not come in the period asked for. -/
theorem C180_period_violated : ∃ (first last : ℝ) (d : Draws), first ≤ last ∧ Fair first last d ∧ ∃ e ∈ allRows 1 true true true first last d, last < e.start := by
  refine ⟨61000, 61100, ⟨[⟨0, 0, 0⟩], [], [], [], [], []⟩, by norm_num, ⟨?_, by simp, by simp, by simp, by simp, by simp⟩, ?_⟩
  · intro x hx
    rw [List.mem_singleton] at hx
    subst hx
    norm_num [DrawOk]
  · refine ⟨row o5Start o5End "GW_case_A" (radiusOf ((30 : ℚ) : ℝ)) ⟨0, 0, 0⟩, ?_, ?_⟩
    · have hr : caseRows "GW" gwCases (3 * 1) = ("GW_case_A", radiusOf ((30 : ℚ) : ℝ)) :: (caseRows "GW" gwCases (3 * 1)).tail := by
        have e : ⌊((9 : ℕ) : ℚ) * (3 * 1)⌋.toNat = 26 + 1 := by decide +kernel
        simp only [caseRows, gwCases, List.flatMap_cons, e, List.replicate_succ, List.cons_append, List.tail_cons]
        rfl
      simp only [allRows, if_true]
      refine List.mem_append_left _ (List.mem_append_left _ (List.mem_append_left _ (List.mem_append_left _ ?_)))
      unfold mergers
      rw [hr]
      simp
    · simp only [row, o5Start, o5End]
      norm_num

/-! ### C181: how many solar system alerts -/

/-- C181, in part: for a span of any length there are as many solar system alerts as 900 in ten years make, near the sun at most three quarters of them, and enough nights
for each of them to have its own. -/
theorem C181_sso_partial (days : ℚ) (h : 0 ≤ days) :
    |(ssoNumber days : ℚ) - 900 * days / (7305 / 2)| ≤ 1 / 2 ∧ 0 ≤ ssoInner days ∧ (ssoInner days : ℚ) ≤ 3 / 4 * ssoNumber days ∧ ssoInner days ≤ innerNights days
    ∧ ssoNumber days - ssoInner days ≤ otherNights days := by
  have near := roundHalfEven_near (900 / (7305 / 2) * days)
  have e1 : (ssoNumber days : ℚ) = (roundHalfEven (900 / (7305 / 2) * days) : ℚ) := rfl
  rw [← e1] at near
  have hn0 : 0 ≤ ssoNumber days := by
    have := roundHalfEven_mono (show ((0 : ℤ) : ℚ) ≤ 900 / (7305 / 2) * days by push_cast; positivity)
    rwa [roundHalfEven_int] at this
  have hn0' : (0 : ℚ) ≤ ssoNumber days := by exact_mod_cast hn0
  have near' := near
  rw [abs_le] at near'
  have i1 : (ssoInner days : ℚ) ≤ ssoNumber days * (3 / 4) := Int.floor_le _
  have i2 : (ssoNumber days : ℚ) * (3 / 4) < ssoInner days + 1 := Int.lt_floor_add_one _
  have f1 : days < (⌊days⌋ : ℚ) + 1 := Int.lt_floor_add_one _
  have c1 : (⌊days⌋ : ℚ) / 4 ≤ innerNights days := Int.le_ceil _
  have f0 : (0 : ℤ) ≤ ⌊days⌋ := Int.floor_nonneg.2 h
  refine ⟨by rw [show 900 * days / (7305 / 2) = 900 / (7305 / 2) * days by ring]; exact near, Int.floor_nonneg.2 (by positivity), by linarith, ?_, ?_⟩
  · by_contra hcon
    have hcon' : innerNights days + 1 ≤ ssoInner days := by omega
    have hq : (innerNights days : ℚ) + 1 ≤ ssoInner days := by exact_mod_cast hcon'
    have c0 : (0 : ℚ) ≤ innerNights days := le_trans (by have : (0 : ℚ) ≤ ⌊days⌋ := by exact_mod_cast f0
                                                         linarith) c1
    linarith
  · by_contra hcon
    unfold otherNights at hcon
    have hcon' : ⌊days⌋ + 1 ≤ ssoNumber days - ssoInner days := by omega
    have hq : (⌊days⌋ : ℚ) + 1 ≤ ssoNumber days - ssoInner days := by exact_mod_cast hcon'
    by_cases hf : 2 ≤ ⌊days⌋
    · have : (2 : ℚ) ≤ ⌊days⌋ := by exact_mod_cast hf
      linarith
    · have hf' : ⌊days⌋ ≤ 1 := by omega
      have hf'' : (⌊days⌋ : ℚ) ≤ 1 := by exact_mod_cast hf'
      have hlt : (ssoNumber days : ℚ) < 1 := by linarith
      have : ssoNumber days < 1 := by exact_mod_cast hlt
      have hz : ssoNumber days = 0 := by omega
      have hi : 0 ≤ ssoInner days := Int.floor_nonneg.2 (by positivity)
      omega

/-- C181 is violated by neutrinos: ten days have as many alerts as ten years. -/
theorem C181_neutrino_violated : neutrinoNumber (7305 / 2) = 160 ∧ ∀ days : ℚ, days < 3600 → 1 / 2 < |(neutrinoNumber days : ℚ) - 160 * days / (7305 / 2)| := by
  refine ⟨rfl, fun days h => ?_⟩
  rw [lt_abs]
  left
  show (1 : ℚ) / 2 < ((160 : ℤ) : ℚ) - 160 * days / (7305 / 2)
  push_cast
  linarith

example : ssoNumber (7305 / 2) = 900 ∧ ssoInner (7305 / 2) = 675 ∧ innerNights (7305 / 2) = 913 := by decide +kernel

/-! ### C182: surveys for alerts -/

/-- The types of the alerts made. -/
def madeKinds : List String :=
  ["GW_case_A", "GW_case_B", "GW_case_C", "GW_case_D", "GW_case_E", "BBH_case_A", "BBH_case_B", "BBH_case_C", "lensed_BNS_case_A", "lensed_BNS_case_B", "neutrino", "SSO_twilight", "SSO_night"]

theorem made_kinds (scale : ℚ) (gw nu ss : Bool) (first last : ℝ) (d : Draws) : ∀ e ∈ allRows scale gw nu ss first last d, e.label ∈ madeKinds := by
  intro e he
  unfold allRows at he
  have cs : ∀ (kind : String) (cases : List (String × ℚ × ℕ)) (draws : List Draw) (s : ℚ), (∀ c ∈ cases, kind ++ "_case_" ++ c.1 ∈ madeKinds) →
      e ∈ mergers o5Start o5End (caseRows kind cases s) draws → e.label ∈ madeKinds := by
    intro kind cases draws s hc hm
    obtain ⟨q, hq, x, _, rfl⟩ := merger_mem hm
    obtain ⟨c, hcm, hq⟩ := List.mem_flatMap.1 hq
    rw [List.eq_of_mem_replicate hq]
    exact hc c hcm
  rcases List.mem_append.1 he with he | he
  · rcases List.mem_append.1 he with he | he
    · cases gw with
      | false => simp at he
      | true =>
        simp only [if_true] at he
        rcases List.mem_append.1 he with he | he
        · rcases List.mem_append.1 he with he | he
          · exact cs _ _ _ _ (by decide +kernel) he
          · exact cs _ _ _ _ (by decide +kernel) he
        · exact cs _ _ _ _ (by decide +kernel) he
    · cases nu with
      | false => simp at he
      | true =>
        simp only [if_true] at he
        obtain ⟨x, _, rfl⟩ := List.mem_map.1 he
        show "neutrino" ∈ madeKinds
        decide +kernel
  · cases ss with
    | false => simp at he
    | true =>
      simp only [if_true] at he
      rcases List.mem_append.1 he with he | he
      · obtain ⟨x, _, rfl⟩ := List.mem_map.1 he
        show "SSO_twilight" ∈ madeKinds
        decide +kernel
      · obtain ⟨x, _, rfl⟩ := List.mem_map.1 he
        show "SSO_night" ∈ madeKinds
        decide +kernel

/-- A survey takes up an alert when one of its kinds is part of the label. -/
theorem takes_iff (f : Follow) (k : String) : takes f k = true ↔ ∃ t ∈ f.kinds, t.toList <:+: k.toList := by
  unfold takes Feat.isIn
  simp only [List.any_eq_true, decide_eq_true_eq]

/-- C182: every alert made is taken up by exactly one of the surveys (one of its kinds is part of the label), whose plan has as many numbers of visits, exposure times and choices of bands as times and has visits
in it. -/
theorem C182_taken (scale : ℚ) (gw nu ss : Bool) (first last : ℝ) (d : Draws) (e : Event) (he : e ∈ allRows scale gw nu ss first last d) :
    ∃ f, (tooSurveys.filter (fun f => takes f e.label) = [f] ∧ ∀ g, takes g e.label = true ↔ ∃ t ∈ g.kinds, t.toList <:+: e.label.toList) ∧ f.bands.length = f.times.length ∧ f.nvis.length = f.times.length ∧ f.exptimes.length = f.times.length
      ∧ f.times ≠ [] ∧ ∀ n ∈ f.nvis, 0 < n := by
  have key : ∀ k ∈ madeKinds, (tooSurveys.filter (fun f => takes f k)).length = 1 := by decide +kernel
  obtain ⟨f, hf⟩ := List.length_eq_one_iff.1 (key _ (made_kinds scale gw nu ss first last d e he))
  have hm : f ∈ tooSurveys := List.mem_of_mem_filter (p := fun f => takes f e.label) (by rw [hf]; exact List.mem_singleton_self f)
  have all : ∀ f ∈ tooSurveys, f.bands.length = f.times.length ∧ f.nvis.length = f.times.length ∧ f.exptimes.length = f.times.length ∧ f.times.length ≠ 0 ∧ ∀ n ∈ f.nvis, 0 < n := by
    decide +kernel
  obtain ⟨a1, a2, a3, a4, a5⟩ := all f hm
  exact ⟨f, ⟨hf, fun g => takes_iff g e.label⟩, a1, a2, a3, fun h => a4 (by rw [h]; rfl), a5⟩

end Verif
