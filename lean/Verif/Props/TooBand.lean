import Verif.Model.TooBand
import Verif.Props.TooSurvey

/-!
C238: the bands of the visits for an alert.
-/

namespace Verif

open Too

/-- The bands documented for mergers of black holes (example/too_surveys.py 156-161): dark time is when at most half of the moon is lit, and near is nearer than 2200 Mpc. -/
def bbhDocumented (moon distance : ℚ) : List String :=
  if 50 < moon then ["r", "z", "i"] else if distance < 2200 * 1000 then ["u", "g", "i"] else ["r", "g", "i"]

/-- A visit without its note. -/
def unnoted (e : Script.Entry) : Script.Entry := { e with note := "" }

theorem plan_bands (cfg : Too.Cfg) (f : String → String) (a : Too.Alert) (t0 : ℚ) (pts : ℕ → ℕ → List (ℚ × ℚ)) :
    (plan { cfg with bands := cfg.bands.map fun l => l.map f } a t0 pts).map unnoted = (plan cfg a t0 pts).map fun e => unnoted { e with band := f e.band } := by
  have key : ∀ (T : List ℚ) (Bs : List (List String)) (N : List ℕ) (X : List ℚ) (k : ℕ),
      (((T.zip ((Bs.map fun l => l.map f).zip (N.zip X))).zipIdx k).flatMap fun q =>
        (List.range q.1.2.2.1).flatMap fun i => q.1.2.1.flatMap fun band => (pts q.2 i).map fun p => unnoted (Too.visit cfg a t0 q.2 q.1.1 q.1.2.2.2 band p))
      = ((T.zip (Bs.zip (N.zip X))).zipIdx k).flatMap fun q =>
        (List.range q.1.2.2.1).flatMap fun i => q.1.2.1.flatMap fun band =>
          (pts q.2 i).map fun p => unnoted { Too.visit cfg a t0 q.2 q.1.1 q.1.2.2.2 band p with band := f band } := by
    intro T
    induction T with
    | nil => intros; rfl
    | cons t T ih =>
      intro Bs N X k
      cases Bs with
      | nil => rfl
      | cons b Bs =>
        cases N with
        | nil => rfl
        | cons n N =>
          cases X with
          | nil => rfl
          | cons x X =>
            simp only [List.map_cons, List.zip_cons_cons, List.zipIdx_cons, List.flatMap_cons, ih, List.flatMap_map]
            rfl
  unfold plan
  simp only [List.map_flatMap, List.map_map]
  exact key cfg.times cfg.bands cfg.nvis cfg.exptimes 0

/-- The condition under which a detailer changes bands. -/
def Pick.Applies (P : Pick) (K : Known) : Prop :=
  ∃ d, K.distance = some d ∧ ¬(P.dark = true ∧ 50 < K.moon) ∧ d < P.limit ∧ (P.check = true → P.stop ∈ K.mounted)

open Classical in
theorem pick_apply (P : Pick) (K : Known) (l : List Planned) : P.apply K l
    = l.map fun p => { p with e := { p.e with band := if Pick.Applies P K ∧ p.e.band = P.start then P.stop else p.e.band } } := by
  have same : ¬ Pick.Applies P K → l = l.map fun p => { p with e := { p.e with band := if Pick.Applies P K ∧ p.e.band = P.start then P.stop else p.e.band } } := by
    intro h
    conv_lhs => rw [← List.map_id l]
    apply List.map_congr_left
    intro p _
    rw [if_neg fun hh => h hh.1]
    rfl
  unfold Pick.apply
  cases hd : K.distance with
  | none => exact same fun ⟨d, h, _⟩ => by rw [hd] at h; cases h
  | some d =>
    dsimp only
    by_cases h1 : P.dark = true ∧ 50 < K.moon
    · rw [if_pos h1]
      exact same fun ⟨_, _, h, _⟩ => h h1
    · rw [if_neg h1]
      by_cases h2 : d < P.limit
      · rw [if_pos h2]
        by_cases h3 : P.check = true → P.stop ∈ K.mounted
        · rw [if_pos]
          · apply List.map_congr_left
            intro p _
            have ha : Pick.Applies P K := ⟨d, hd, h1, h2, h3⟩
            by_cases hb : p.e.band = P.start
            · rw [if_pos hb, if_pos ⟨ha, hb⟩]
            · rw [if_neg hb, if_neg fun h => hb h.2]
          · cases hc : P.check with
            | false => rfl
            | true => rw [if_pos rfl]; exact List.contains_iff_mem.2 (h3 hc)
        · rw [if_neg]
          · exact same fun ⟨_, _, _, _, h⟩ => h3 h
          · intro h
            apply h3
            intro hc
            rw [hc, if_pos rfl] at h
            exact List.contains_iff_mem.1 h
      · rw [if_neg h2]
        exact same fun ⟨d', hd', _, h, _⟩ => by rw [hd] at hd'; cases hd'; exact h2 h

/-- C238 (bands): when the distance is known and both u and g are mounted as the alert comes in, the visits for a merger of black holes are those
of a plan in the documented bands, but for their notes. -/
theorem C238_bands_partial (cfg : Too.Cfg) (hb : cfg.bands = bbhBands) (n nU : ℕ) (moon d : ℚ) (hd : d < 300000000000) (mounted : List String)
    (hu : "u" ∈ mounted) (hg : "g" ∈ mounted) (a : Too.Alert) (t0 : ℚ) (pts : ℕ → ℕ → List (ℚ × ℚ)) :
    (plannedWith cfg n nU bbhPicks ⟨moon, mounted, some d⟩ a t0 pts).map (fun p => unnoted p.e)
      = (plan { cfg with bands := List.replicate 5 (bbhDocumented moon d) } a t0 pts).map unnoted := by
  classical
  have e1 : (Pick.Applies ⟨"z", "g", 300000000000, true, true⟩ ⟨moon, mounted, some d⟩) ↔ ¬ 50 < moon :=
    ⟨fun ⟨_, _, h, _⟩ hm => h ⟨rfl, hm⟩, fun h => ⟨d, rfl, fun hh => h hh.2, hd, fun _ => hg⟩⟩
  have e2 : (Pick.Applies ⟨"r", "u", 2200000, true, true⟩ ⟨moon, mounted, some d⟩) ↔ ¬ 50 < moon ∧ d < 2200000 :=
    ⟨fun ⟨d', hd', h, h', _⟩ => by cases hd'; exact ⟨fun hm => h ⟨rfl, hm⟩, h'⟩, fun h => ⟨d, rfl, fun hh => h.1 hh.2, h.2, fun _ => hu⟩⟩
  let f : String → String := fun b =>
    let b := if ¬ 50 < moon ∧ b = "z" then "g" else b
    if (¬ 50 < moon ∧ d < 2200000) ∧ b = "r" then "u" else b
  have hf : (cfg.bands.map fun l => l.map f) = List.replicate 5 (bbhDocumented moon d) := by
    rw [hb]
    unfold bbhDocumented bbhBands
    have : (2200 * 1000 : ℚ) = 2200000 := by norm_num
    rw [this]
    by_cases hm : 50 < moon
    · rw [if_pos hm]; simp [f, hm]
    · by_cases hn : d < 2200000
      · rw [if_neg hm, if_pos hn]; simp [f, hm, hn]
      · rw [if_neg hm, if_neg hn]; simp [f, hm, hn]
  rw [← hf, plan_bands cfg f a t0 pts]
  unfold plannedWith applyAll bbhPicks planned
  simp only [List.foldl_cons, List.foldl_nil, pick_apply, List.map_map]
  apply List.map_congr_left
  intro e _
  simp only [Function.comp, e1, e2]
  rfl

theorem applyAll_bands (Ps : List Pick) (K : Known) (l : List Planned) :
    ∃ g : String → String, applyAll Ps K l = l.map fun p => { p with e := { p.e with band := g p.e.band } } := by
  classical
  induction Ps generalizing l with
  | nil => exact ⟨id, by simp [applyAll]⟩
  | cons P Ps ih =>
    obtain ⟨g, hg⟩ := ih (P.apply K l)
    refine ⟨fun b => g (if Pick.Applies P K ∧ b = P.start then P.stop else b), ?_⟩
    change applyAll Ps K (P.apply K l) = _
    rw [hg, pick_apply, List.map_map]
    rfl

/-- A visit without its band. -/
def unbanded (e : Script.Entry) : Script.Entry := { e with band := "" }

theorem tagAll_unbanded (k : ℕ) (l : List Script.Entry) : (Script.tagAll k l).map unbanded = Script.tagAll k (l.map unbanded) := by
  induction l generalizing k with
  | nil => rfl
  | cons e l ih => simp only [Script.tagAll, List.map_cons, ih]; rfl

/-- Scripts of entries that differ in their bands only. -/
theorem setScript_unbanded (idOf : String → Option ℕ) (s : Script.St) (l l' : List Script.Entry) (h : l.map unbanded = l'.map unbanded) :
    (Script.setScript idOf s l true true = none ∧ Script.setScript idOf s l' true true = none)
    ∨ ∃ t t', Script.setScript idOf s l true true = some t ∧ Script.setScript idOf s l' true true = some t'
      ∧ t = { t' with script := t.script } ∧ ∃ m m', t.script = s.script ++ m ∧ t'.script = s.script ++ m' ∧ m.map unbanded = m'.map unbanded := by
  have ht : (Script.tagAll s.idStart l).map unbanded = (Script.tagAll s.idStart l').map unbanded := by rw [tagAll_unbanded, tagAll_unbanded, h]
  have hlen : l.length = l'.length := by simpa using congrArg List.length h
  have col : ∀ {β : Type} (c : Script.Entry → β), (∀ e, c (unbanded e) = c e) → (Script.tagAll s.idStart l).map c = (Script.tagAll s.idStart l').map c := by
    intro β c hc
    have := congrArg (List.map c) ht
    rw [List.map_map, List.map_map] at this
    have ec : c ∘ unbanded = c := funext hc
    rwa [ec] at this
  have hn := col Script.Entry.note fun _ => rfl
  have hm := col Script.Entry.mjd fun _ => rfl
  unfold Script.setScript
  simp only [if_true, List.map_append, hn, hm, hlen]
  by_cases hd : (s.script.map Script.Entry.note ++ (Script.tagAll s.idStart l').map Script.Entry.note).Nodup
  · right
    rw [if_pos hd, if_pos hd]
    exact ⟨_, _, rfl, rfl, rfl, _, _, rfl, rfl, ht⟩
  · left
    rw [if_neg hd, if_neg hd]
    exact ⟨rfl, rfl⟩

/-- C238 (the rest): whatever the detailers for bands, an alert is followed as without them, with the same visits in other bands; visits
planned before keep their bands. -/
theorem C238_rest (cfg : Too.Cfg) (Ps : List Pick) (K : Known) (idOf : String → Option ℕ) (now : ℚ) (s : Too.S) (a : Too.Alert) :
    (newEventWith cfg Ps K idOf now s a = none ∧ newEvent cfg idOf now s a = none)
    ∨ ∃ t t', newEventWith cfg Ps K idOf now s a = some t ∧ newEvent cfg idOf now s a = some t' ∧ t.seen = t'.seen ∧ t.base = { t'.base with script := t.base.script }
      ∧ ∃ old m m', (∀ e ∈ old, e ∈ s.base.script) ∧ t.base.script = old ++ m ∧ t'.base.script = old ++ m' ∧ m.map unbanded = m'.map unbanded := by
  have hold : ∀ b, flushScript idOf s.base now = some b → ∀ e ∈ b.script, e ∈ s.base.script := by
    intro b hb e he
    unfold flushScript at hb
    split_ifs at hb with h
    · cases hb
      cases he
    · unfold Script.setScript at hb
      dsimp only at hb
      rw [if_neg Bool.false_ne_true] at hb
      generalize Script.allSome _ = ids at hb
      cases ids with
      | none => cases hb
      | some ids =>
        dsimp only at hb
        rw [if_neg Bool.false_ne_true] at hb
        split_ifs at hb
        cases hb
        exact (List.mem_filter.1 he).1
  unfold newEventWith newEvent
  cases hb : flushScript idOf s.base now with
  | none => exact Or.inl ⟨rfl, rfl⟩
  | some b =>
    dsimp only
    cases follows cfg a with
    | none => exact Or.inl ⟨rfl, rfl⟩
    | some f =>
      dsimp only
      have hb := hold b hb
      by_cases hf : (f && !s.seen.contains a.id) = true
      · rw [if_pos hf, if_pos hf]
        unfold followWith follow
        cases pointings cfg a with
        | none => exact Or.inl ⟨rfl, rfl⟩
        | some pts =>
          cases pts with
          | none => exact Or.inr ⟨_, _, rfl, rfl, rfl, rfl, b.script, [], [], hb, by simp, by simp, rfl⟩
          | some pts =>
            dsimp only
            cases mjd0 cfg a now with
            | none => exact Or.inl ⟨rfl, rfl⟩
            | some t0 =>
              dsimp only
              by_cases hs : slots cfg = 0
              · rw [if_pos hs, if_pos hs]
                exact Or.inl ⟨rfl, rfl⟩
              · rw [if_neg hs, if_neg hs]
                have hp : ((plannedWith cfg 1 1 Ps K a t0 pts).map Planned.e).map unbanded = (plan cfg a t0 pts).map unbanded := by
                  obtain ⟨g, hg⟩ := applyAll_bands Ps K (planned cfg 1 1 a t0 pts)
                  unfold plannedWith
                  rw [hg]
                  unfold planned
                  rw [List.map_map, List.map_map, List.map_map]
                  rfl
                rcases setScript_unbanded idOf b _ _ hp with ⟨h1, h2⟩ | ⟨t, t', h1, h2, h3, m, m', h4, h5, h6⟩
                · left
                  rw [h1, h2]
                  exact ⟨rfl, rfl⟩
                · right
                  rw [h1, h2]
                  exact ⟨_, _, rfl, rfl, rfl, h3, b.script, m, m', hb, h4, h5, h6⟩
      · rw [if_neg hf, if_neg hf]
        exact Or.inr ⟨_, _, rfl, rfl, rfl, rfl, b.script, [], [], hb, by simp, by simp, rfl⟩

/-- Settings for mergers of black holes (example/too_surveys.py 185-208), at one pointing. -/
def bbhCfg : Too.Cfg :=
  { tooCfg with kinds := ["BBH_case_A"], times := bbhTimes, bands := bbhBands, nvis := List.replicate 5 1, exptimes := List.replicate 5 30, name := "ToO, BBH" }

/-- The visits at two of the times for a near merger in dark time, with one exposure in u and two in other bands. -/
def bbhPlan : List Planned := (plannedWith bbhCfg 2 1 bbhPicks ⟨20, ["u", "g", "r", "i"], some 1000000⟩ ⟨7, some "BBH_case_A", 0, none, none, true, 20, []⟩ 0 (fun _ _ => [(1, 2)])).take 6

/-- C238 is violated by notes and exposures: the visits in u and g have the notes of r and z, and u has the exposures of other bands. -/
theorem C238_note_violated : (bbhPlan.take 3).map (fun p => (p.e.band, p.e.note, p.nexp)) =
    [("u", "ToO, BBH, r, 7, i0", 2), ("g", "ToO, BBH, z, 7, i0", 2), ("i", "ToO, BBH, i, 7, i0", 2)] ∧ snaps 2 1 "u" = 1 := by
  decide +kernel

/-- A moon that is dark when the alert comes in and bright ten days later. -/
def waxing (t : ℚ) : ℚ := 20 + 8 * t

/-- C238 is violated by later visits: the moon at the time of the alert decides for all times, so that visits are planned in u and g in bright time. -/
theorem C238_later_violated : waxing 0 = 20 ∧
    ((plannedWith bbhCfg 2 1 bbhPicks ⟨waxing 0, ["u", "g", "r", "i"], some 1000000⟩ ⟨7, some "BBH_case_A", 0, none, none, true, 20, []⟩ 0 (fun _ _ => [(1, 2)])).filter
      fun p => decide (50 < waxing p.e.mjd)).map (fun p => (p.e.mjd, p.e.band)) = [(7, "u"), (7, "g"), (7, "i"), (9, "u"), (9, "g"), (9, "i"), (39, "u"), (39, "g"), (39, "i")]
    ∧ bbhDocumented (waxing 7) 1000000 = ["r", "z", "i"] := by
  decide +kernel

/-- So the first theorem speaks of a plan of fifteen visits, and the second of an alert that is followed. -/
example : (plannedWith bbhCfg 2 1 bbhPicks ⟨20, ["u", "g"], some 3000000⟩ ⟨7, some "BBH_case_A", 0, none, none, true, 20, []⟩ 0 (fun _ _ => [(1, 2)])).map (fun p => p.e.band)
    = (List.replicate 5 ["r", "g", "i"]).flatten
    ∧ ((newEventWith bbhCfg bbhPicks ⟨20, ["u", "g"], some 3000000⟩ idOf0 1 ⟨Script.init 0, []⟩ ⟨7, some "BBH_case_A", 0, none, none, true, 20, []⟩).map fun s => s.base.script.length) = some 15 := by
  decide +kernel

end Verif
