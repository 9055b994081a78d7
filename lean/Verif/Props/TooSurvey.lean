import Verif.Props.Too

/-!
Property C85: the survey that follows targets of opportunity.
-/

namespace Verif

open Too
open Verif.Script (Entry)

/-- The alert is of a type that the survey follows. -/
def Followed (cfg : Too.Cfg) (a : Alert) : Prop := ∃ k, a.kind = some k ∧ ∃ t ∈ cfg.kinds, Feat.isIn t k = true

instance (cfg : Too.Cfg) : DecidablePred (Followed cfg) := fun a => by
  unfold Followed
  cases a.kind with
  | none => exact isFalse (by simp)
  | some k => exact decidable_of_iff (∃ t ∈ cfg.kinds, Feat.isIn t k = true) (by simp)

/-- The alerts among those shown that are followed and not yet known, each once. -/
def fresh (cfg : Too.Cfg) : List Int → List Alert → List Alert
  | _, [] => []
  | known, a :: as => if Followed cfg a ∧ a.id ∉ known then a :: fresh cfg (known ++ [a.id]) as else fresh cfg known as

/-- The positions to observe for an alert in visit `i` of time `k`: those that cover the part of the alert's footprint in the
survey's; if there is none, the centre if that is in the survey's footprint. -/
def Position (cfg : Too.Cfg) (a : Alert) (k i : ℕ) (p : ℚ × ℚ) : Prop :=
  (cfg.fields a none ≠ [] ∧ p ∈ cfg.fields a (if cfg.ditherPerVisit then some (k, i) else none)) ∨
  (cfg.fields a none = [] ∧ a.center = some p ∧ cfg.inside p = true)

/-- A visit to be planned for an alert when it is first seen: for one of the times, one of the
repeats and one of the bands for that time, and a position. -/
def ToPlan (cfg : Too.Cfg) (a : Alert) (now : ℚ) (e : Entry) : Prop :=
  ∃ (k : ℕ) (time exptime : ℚ) (bands : List String) (n i : ℕ) (band : String) (p : ℚ × ℚ) (t0 : ℚ),
    cfg.times[k]? = some time ∧ cfg.bands[k]? = some bands ∧ cfg.nvis[k]? = some n ∧ cfg.exptimes[k]? = some exptime ∧
    i < n ∧ band ∈ bands ∧ Position cfg a k i p ∧ t0 = (if cfg.updateMjd0 then now else a.start) ∧
    e = { note := Script.cut (cfg.name ++ ", " ++ band ++ ", " ++ toString a.id ++ ", i" ++ toString k)
          band := band, exptime := exptime, mjd := t0 + time, tol := cfg.tol, flush := t0 + time + cfg.flushtime
          ra := p.1, dec := p.2, altMin := cfg.altMin, altMax := cfg.altMax, haMax := cfg.haMax, haMin := cfg.haMin
          sunMax := 0, moonMin := 0, observed := false }

theorem fresh_cons (cfg : Too.Cfg) (known : List Int) (a : Alert) (as : List Alert) : fresh cfg known (a :: as) =
    if Followed cfg a ∧ a.id ∉ known then a :: fresh cfg (known ++ [a.id]) as else fresh cfg known as := rfl

/-- The plan for an alert first seen now. -/
def planAt (cfg : Too.Cfg) (now : ℚ) (a : Alert) : List Entry :=
  match pointings cfg a, mjd0 cfg a now with
  | some (some pts), some t0 => plan cfg a t0 pts
  | _, _ => []

/-- Still to be done: not observed and not past its last time. -/
def StillWanted (now : ℚ) (e : Entry) : Prop := e.observed = false ∧ now < e.flush

instance (now : ℚ) : DecidablePred (StillWanted now) := fun e => by unfold StillWanted; infer_instance

/-- Visits tagged with an index. -/
def Tagged (es ps : List Entry) : Prop := List.Forall₂ (fun e p => ∃ k, e = { p with note := Script.tag p.note k }) es ps

theorem stillWanted_eq (now : ℚ) : wanted now = fun e => decide (StillWanted now e) := by
  funext e
  unfold wanted
  rw [Bool.eq_iff_iff, decide_eq_true_iff]
  unfold StillWanted
  cases e.observed <;> simp

theorem tagAll_tagged (es : List Entry) (k : ℕ) : Tagged (Script.tagAll k es) es := by
  induction es generalizing k with
  | nil => exact List.Forall₂.nil
  | cons e es ih => exact List.Forall₂.cons ⟨k, rfl⟩ (ih (k + 1))

theorem tagged_mem {es ps : List Entry} (h : Tagged es ps) {e : Entry} (he : e ∈ es) :
    ∃ p ∈ ps, ∃ k, e = { p with note := Script.tag p.note k } := by
  induction h with
  | nil => simp at he
  | cons hd _ ih =>
    rcases List.mem_cons.1 he with rfl | he
    · exact ⟨_, by simp, hd⟩
    · obtain ⟨p, hp, hk⟩ := ih he
      exact ⟨p, List.mem_cons_of_mem _ hp, hk⟩

theorem tagged_wanted {now : ℚ} {es ps : List Entry} (h : Tagged es ps) :
    Tagged (es.filter (fun e => decide (StillWanted now e))) (ps.filter (fun e => decide (StillWanted now e))) := by
  induction h with
  | nil => exact List.Forall₂.nil
  | @cons e p es ps hd _ ih =>
    obtain ⟨k, hk⟩ := hd
    have : StillWanted now e ↔ StillWanted now p := by rw [hk]; rfl
    by_cases hw : StillWanted now p
    · rw [List.filter_cons_of_pos (by simpa using this.2 hw), List.filter_cons_of_pos (by simpa using hw)]
      exact List.Forall₂.cons ⟨k, hk⟩ ih
    · rw [List.filter_cons_of_neg (by simpa using fun h => hw (this.1 h)), List.filter_cons_of_neg (by simpa using hw)]
      exact ih

theorem flushScript_some {idOf : String → Option ℕ} {s s' : Script.St} {now : ℚ} (h : flushScript idOf s now = some s') :
    s'.script = s.script.filter (fun e => decide (StillWanted now e)) := by
  unfold flushScript at h
  rw [stillWanted_eq] at h
  by_cases hn : s.script.filter (fun e => decide (StillWanted now e)) = []
  · rw [if_pos hn] at h; cases h; rw [hn]; rfl
  · rw [if_neg hn] at h
    obtain ⟨added, k, e, _, _, h2⟩ := setScript_some h
    rw [e, h2 rfl]; rfl

theorem follows_some {cfg : Too.Cfg} {a : Alert} {f : Bool} (h : follows cfg a = some f) : f = true ↔ Followed cfg a := by
  unfold follows at h
  unfold Followed
  cases hk : a.kind with
  | none =>
    rw [hk] at h; dsimp only at h
    split at h
    · cases h; simp
    · cases h
  | some k =>
    rw [hk] at h; dsimp only at h
    cases h
    simp

theorem newEvent_spec {cfg : Too.Cfg} {idOf : String → Option ℕ} {now : ℚ} {s s' : S} {a : Alert}
    (h : newEvent cfg idOf now s a = some s') :
    (Followed cfg a ∧ a.id ∉ s.seen → s'.seen = s.seen ++ [a.id] ∧ ∃ added,
      s'.base.script = s.base.script.filter (fun e => decide (StillWanted now e)) ++ added ∧ Tagged added (planAt cfg now a)) ∧
    (¬ (Followed cfg a ∧ a.id ∉ s.seen) → s'.seen = s.seen ∧
      s'.base.script = s.base.script.filter (fun e => decide (StillWanted now e))) := by
  unfold newEvent at h
  split at h
  · cases h
  · next b hb =>
    have hsc := flushScript_some hb
    split at h
    · cases h
    · next f hf =>
      have hfo := follows_some hf
      by_cases hfr : Followed cfg a ∧ a.id ∉ s.seen
      · refine ⟨fun _ => ?_, fun hh => absurd hfr hh⟩
        have hcond : (f && !s.seen.contains a.id) = true := by
          rw [hfo.2 hfr.1]; simpa using hfr.2
        rw [if_pos hcond] at h
        unfold follow at h
        unfold planAt
        split at h
        · cases h
        · next hp =>
          cases h
          rw [hp]
          refine ⟨rfl, [], ?_, List.Forall₂.nil⟩
          rw [List.append_nil]; exact hsc
        · next pts hp =>
          rw [hp]
          split at h
          · cases h
          · next t0 ht =>
            rw [ht]
            split at h
            · cases h
            · rw [Option.map_eq_some_iff] at h
              obtain ⟨b', hb', rfl⟩ := h
              obtain ⟨added, k, e, _, h1, _⟩ := setScript_some hb'
              refine ⟨rfl, added, ?_, ?_⟩
              · rw [e]
                show b.script ++ added = _
                rw [hsc]
              · rw [(h1 rfl).1]; exact tagAll_tagged _ _
      · refine ⟨fun hh => absurd hh hfr, fun _ => ?_⟩
        have hcond : ¬ (f && !s.seen.contains a.id) = true := by
          intro hc
          apply hfr
          rw [Bool.and_eq_true] at hc
          exact ⟨hfo.1 hc.1, by simpa using hc.2⟩
        rw [if_neg hcond] at h
        cases h
        exact ⟨rfl, hsc⟩

theorem filter_idem {α : Type} (p : α → Bool) (l : List α) : (l.filter p).filter p = l.filter p := by
  rw [List.filter_filter]; simp

/-- **C85 (partial), updates.** When new conditions show alerts (and nothing raises), what is still wanted of the script is kept, and the plans for
the alerts not known before are added, as far as still wanted; nothing else remains but what was planned just now. -/
theorem C85_update_partial (cfg : Too.Cfg) (idOf : String → Option ℕ) (now : ℚ) (as : List Alert) (s s' : S)
    (h : update cfg idOf now s (some as) = some s') :
    s'.seen = s.seen ++ (fresh cfg s.seen as).map Alert.id ∧
    (∃ news, s'.base.script.filter (fun e => decide (StillWanted now e)) =
        s.base.script.filter (fun e => decide (StillWanted now e)) ++ news ∧
      Tagged news (((fresh cfg s.seen as).flatMap (planAt cfg now)).filter (fun e => decide (StillWanted now e)))) ∧
    (as ≠ [] → ∀ e ∈ s'.base.script, StillWanted now e ∨
      ∃ a ∈ fresh cfg s.seen as, ∃ p ∈ planAt cfg now a, ∃ k, e = { p with note := Script.tag p.note k }) := by
  change as.foldlM (newEvent cfg idOf now) s = some s' at h
  induction as generalizing s with
  | nil =>
    simp only [List.foldlM_nil, Option.pure_def, Option.some.injEq] at h
    subst h
    refine ⟨by simp [fresh], ⟨[], by simp, ?_⟩, fun hh => absurd rfl hh⟩
    simp only [fresh, List.flatMap_nil, List.filter_nil]
    exact List.Forall₂.nil
  | cons a as ih =>
    rw [List.foldlM_cons] at h
    cases h1 : newEvent cfg idOf now s a with
    | none => rw [h1] at h; cases h
    | some s1 =>
      rw [h1] at h
      obtain ⟨n1, n2⟩ := newEvent_spec h1
      obtain ⟨i1, ⟨news, i2, i3⟩, i4⟩ := ih s1 h
      by_cases hfr : Followed cfg a ∧ a.id ∉ s.seen
      · obtain ⟨e1, added, e2, e3⟩ := n1 hfr
        have hf : fresh cfg s.seen (a :: as) = a :: fresh cfg s1.seen as := by
          rw [fresh_cons, e1, if_pos hfr]
        rw [hf]
        refine ⟨by rw [i1, e1]; simp, ⟨added.filter (fun e => decide (StillWanted now e)) ++ news, ?_, ?_⟩, fun _ e he => ?_⟩
        · rw [i2, e2, List.filter_append, filter_idem, List.append_assoc]
        · rw [List.flatMap_cons, List.filter_append]
          exact List.rel_append (tagged_wanted e3) i3
        · have base : ∀ e ∈ s1.base.script, StillWanted now e ∨ ∃ p ∈ planAt cfg now a, ∃ k, e = { p with note := Script.tag p.note k } := by
            intro e he
            rw [e2] at he
            rcases List.mem_append.1 he with he | he
            · left; simpa using (List.mem_filter.1 he).2
            · right
              obtain ⟨p, hp, hk⟩ := tagged_mem e3 he
              exact ⟨p, hp, hk⟩
          cases as with
          | nil =>
            simp only [List.foldlM_nil, Option.pure_def, Option.bind_eq_bind, Option.bind_some, Option.some.injEq] at h
            subst h
            rcases base e he with hw | ⟨p, hp, hk⟩
            · exact .inl hw
            · exact .inr ⟨a, by simp, p, hp, hk⟩
          | cons b as =>
            rcases i4 (by simp) e he with hw | ⟨a', ha', hh⟩
            · exact .inl hw
            · exact .inr ⟨a', List.mem_cons_of_mem _ ha', hh⟩
      · obtain ⟨e1, e2⟩ := n2 hfr
        have hf : fresh cfg s.seen (a :: as) = fresh cfg s1.seen as := by
          rw [fresh_cons, e1, if_neg hfr]
        rw [hf]
        refine ⟨by rw [i1, e1], ⟨news, ?_, i3⟩, fun _ e he => ?_⟩
        · rw [i2, e2, filter_idem]
        · cases as with
          | nil =>
            simp only [List.foldlM_nil, Option.pure_def, Option.bind_eq_bind, Option.bind_some, Option.some.injEq] at h
            subst h
            rw [e2] at he
            left; simpa using (List.mem_filter.1 he).2
          | cons b as => exact i4 (by simp) e he

/-- **C85 (partial), plans.** The plan for an alert first seen now has exactly the visits to be planned (nothing with an
updated start when the time has not passed the alert's). -/
theorem C85_plan_partial (cfg : Too.Cfg) (now : ℚ) (a : Alert) (hnow : cfg.updateMjd0 = true → a.start < now) (e : Entry) :
    e ∈ planAt cfg now a ↔ ToPlan cfg a now e := by
  have ht : mjd0 cfg a now = some (if cfg.updateMjd0 then now else a.start) := by
    unfold mjd0
    cases hu : cfg.updateMjd0
    · simp
    · simp [hnow hu]
  have hzip : ∀ (k : ℕ) (q : ℚ × List String × ℕ × ℚ), (cfg.times.zip (cfg.bands.zip (cfg.nvis.zip cfg.exptimes)))[k]? = some q ↔
      cfg.times[k]? = some q.1 ∧ cfg.bands[k]? = some q.2.1 ∧ cfg.nvis[k]? = some q.2.2.1 ∧ cfg.exptimes[k]? = some q.2.2.2 := by
    intro k q
    rw [List.getElem?_zip_eq_some, List.getElem?_zip_eq_some, List.getElem?_zip_eq_some]
  have hplan : ∀ (t0 : ℚ) (pts : ℕ → ℕ → List (ℚ × ℚ)), e ∈ plan cfg a t0 pts ↔
      ∃ (k : ℕ) (time exptime : ℚ) (bands : List String) (n i : ℕ) (band : String) (p : ℚ × ℚ),
        cfg.times[k]? = some time ∧ cfg.bands[k]? = some bands ∧ cfg.nvis[k]? = some n ∧ cfg.exptimes[k]? = some exptime ∧
        i < n ∧ band ∈ bands ∧ p ∈ pts k i ∧ e = Too.visit cfg a t0 k time exptime band p := by
    intro t0 pts
    unfold plan
    constructor
    · intro h
      obtain ⟨⟨q, k⟩, h1, h⟩ := List.mem_flatMap.1 h
      obtain ⟨i, h2, h⟩ := List.mem_flatMap.1 h
      obtain ⟨band, h3, h⟩ := List.mem_flatMap.1 h
      obtain ⟨p, h4, h5⟩ := List.mem_map.1 h
      rw [List.mem_zipIdx_iff_getElem?] at h1
      obtain ⟨g1, g2, g3, g4⟩ := (hzip k q).1 h1
      exact ⟨k, q.1, q.2.2.2, q.2.1, q.2.2.1, i, band, p, g1, g2, g3, g4, List.mem_range.1 h2, h3, h4, h5.symm⟩
    · rintro ⟨k, time, exptime, bands, n, i, band, p, g1, g2, g3, g4, h2, h3, h4, h5⟩
      refine List.mem_flatMap.2 ⟨((time, bands, n, exptime), k), ?_, ?_⟩
      · rw [List.mem_zipIdx_iff_getElem?]
        exact (hzip k _).2 ⟨g1, g2, g3, g4⟩
      · exact List.mem_flatMap.2 ⟨i, List.mem_range.2 h2, List.mem_flatMap.2 ⟨band, h3, List.mem_map.2 ⟨p, h4, h5.symm⟩⟩⟩
  have hpt : (∃ pts, pointings cfg a = some (some pts) ∧ ∀ k i p, p ∈ pts k i ↔ Position cfg a k i p) ∨
      ((∀ pts, pointings cfg a ≠ some (some pts)) ∧ ∀ k i p, ¬ Position cfg a k i p) := by
    unfold pointings Position
    by_cases hf : cfg.fields a none = []
    · rw [if_pos hf]
      cases hc : a.center with
      | none => right; exact ⟨by simp, by simp [hf]⟩
      | some p =>
        dsimp only
        by_cases hi : cfg.inside p = true
        · rw [if_pos hi]
          left
          refine ⟨_, rfl, fun k i p' => ?_⟩
          simp only [List.mem_singleton, hf, ne_eq, not_true, false_and, false_or, true_and, Option.some.injEq]
          constructor
          · rintro rfl; exact ⟨rfl, hi⟩
          · rintro ⟨h, _⟩; exact h.symm
        · rw [if_neg hi]
          right
          refine ⟨by simp, fun k i p' => ?_⟩
          simp only [hf, ne_eq, not_true, false_and, false_or, true_and, Option.some.injEq]
          rintro ⟨rfl, h⟩; exact hi h
    · rw [if_neg hf]
      left
      refine ⟨_, rfl, fun k i p => ?_⟩
      simp only [hf, ne_eq, not_false_eq_true, true_and, false_and, or_false]
      cases cfg.ditherPerVisit <;> simp
  unfold planAt
  rw [ht]
  rcases hpt with ⟨pts, hp1, hp2⟩ | ⟨hp1, hp2⟩
  · rw [hp1]
    dsimp only
    rw [hplan]
    unfold ToPlan
    constructor
    · rintro ⟨k, time, exptime, bands, n, i, band, p, g1, g2, g3, g4, h2, h3, h4, h5⟩
      exact ⟨k, time, exptime, bands, n, i, band, p, _, g1, g2, g3, g4, h2, h3, (hp2 k i p).1 h4, rfl, h5⟩
    · rintro ⟨k, time, exptime, bands, n, i, band, p, t0, g1, g2, g3, g4, h2, h3, h4, rfl, h5⟩
      exact ⟨k, time, exptime, bands, n, i, band, p, g1, g2, g3, g4, h2, h3, (hp2 k i p).2 h4, h5⟩
  · constructor
    · intro h
      split at h
      · next pts t0 hp _ => exact absurd hp (hp1 pts)
      · simp at h
    · rintro ⟨k, time, exptime, bands, n, i, band, p, t0, g1, g2, g3, g4, h2, h3, h4, _⟩
      exact absurd h4 (hp2 k i p)

/-- The alerts shown by the steps of a history, in order. -/
def shown : List Too.Op → List Alert
  | [] => []
  | .update _ (some as) :: ops => as ++ shown ops
  | _ :: ops => shown ops

theorem fresh_append (cfg : Too.Cfg) (as bs : List Alert) (known : List Int) :
    fresh cfg known (as ++ bs) = fresh cfg known as ++ fresh cfg (known ++ (fresh cfg known as).map Alert.id) bs := by
  induction as generalizing known with
  | nil => simp [fresh]
  | cons a as ih =>
    rw [List.cons_append, fresh_cons, fresh_cons]
    by_cases h : Followed cfg a ∧ a.id ∉ known
    · rw [if_pos h, if_pos h, ih]; simp [List.append_assoc]
    · rw [if_neg h, if_neg h, ih]

theorem run_seen (cfg : Too.Cfg) (base : Script.Cfg) (idOf : String → Option ℕ) (ops : List Too.Op) (s s' : S)
    (h : Too.run cfg base idOf s ops = some s') : s'.seen = s.seen ++ (fresh cfg s.seen (shown ops)).map Alert.id := by
  unfold Too.run at h
  induction ops generalizing s with
  | nil =>
    simp only [List.foldlM_nil, Option.pure_def, Option.some.injEq] at h
    subst h; simp [shown, fresh]
  | cons op ops ih =>
    rw [List.foldlM_cons] at h
    cases h1 : Too.step cfg base idOf s op with
    | none => rw [h1] at h; cases h
    | some s1 =>
      rw [h1] at h
      have hr := ih s1 h
      cases op with
      | update now as =>
        cases as with
        | none =>
          simp only [Too.step, update, Option.some.injEq] at h1
          subst h1; exact hr
        | some as =>
          have := (C85_update_partial cfg idOf now as s s1 h1).1
          rw [hr, this]
          show _ = s.seen ++ (fresh cfg s.seen (as ++ shown ops)).map Alert.id
          rw [fresh_append]; simp [List.append_assoc]
      | one n => simp only [Too.step, Option.some.injEq] at h1; subst h1; exact hr
      | array n => simp only [Too.step, Option.some.injEq] at h1; subst h1; exact hr
      | gen n => simp only [Too.step, Option.some.injEq] at h1; subst h1; exact hr
      | rough n => simp only [Too.step, Option.some.injEq] at h1; subst h1; exact hr

theorem fresh_mem (cfg : Too.Cfg) (as : List Alert) (known : List Int) (i : Int) :
    i ∈ (fresh cfg known as).map Alert.id ↔ i ∉ known ∧ ∃ a ∈ as, Followed cfg a ∧ a.id = i := by
  induction as generalizing known with
  | nil => simp [fresh]
  | cons a as ih =>
    rw [fresh_cons]
    by_cases h : Followed cfg a ∧ a.id ∉ known
    · rw [if_pos h, List.map_cons, List.mem_cons, ih]
      constructor
      · rintro (rfl | ⟨h1, b, hb, h2, h3⟩)
        · exact ⟨h.2, a, by simp, h.1, rfl⟩
        · exact ⟨fun hk => h1 (by simp [hk]), b, List.mem_cons_of_mem _ hb, h2, h3⟩
      · rintro ⟨h1, b, hb, h2, h3⟩
        by_cases hi : i = a.id
        · exact .inl hi
        · refine .inr ⟨by simp [h1, hi], ?_⟩
          rcases List.mem_cons.1 hb with rfl | hb
          · exact absurd h3.symm hi
          · exact ⟨b, hb, h2, h3⟩
    · rw [if_neg h, ih]
      constructor
      · rintro ⟨h1, b, hb, h2⟩; exact ⟨h1, b, List.mem_cons_of_mem _ hb, h2⟩
      · rintro ⟨h1, b, hb, h2, h3⟩
        refine ⟨h1, ?_⟩
        rcases List.mem_cons.1 hb with rfl | hb
        · exact absurd ⟨h2, by rw [h3]; exact h1⟩ h
        · exact ⟨b, hb, h2, h3⟩

theorem fresh_nodup (cfg : Too.Cfg) (as : List Alert) (known : List Int) : ((fresh cfg known as).map Alert.id).Nodup := by
  induction as generalizing known with
  | nil => simp [fresh]
  | cons a as ih =>
    rw [fresh_cons]
    by_cases h : Followed cfg a ∧ a.id ∉ known
    · rw [if_pos h, List.map_cons, List.nodup_cons]
      refine ⟨fun hm => ?_, ih _⟩
      have := ((fresh_mem cfg as _ _).1 hm).1
      simp at this
    · rw [if_neg h]; exact ih _

/-- **C85 (partial), once.** In any history from a new survey on: the alerts for which an update adds plans are those of a
followed type whose id was in no earlier update with a followed type; each id once. -/
theorem C85_once_partial (cfg : Too.Cfg) (base : Script.Cfg) (idOf : String → Option ℕ) (id0 : ℕ) (ops : List Too.Op) (s : S)
    (h : Too.run cfg base idOf ⟨Script.init id0, []⟩ ops = some s) (as : List Alert) :
    ((fresh cfg s.seen as).map Alert.id).Nodup ∧
    ∀ i, i ∈ (fresh cfg s.seen as).map Alert.id ↔
      (∃ a ∈ as, Followed cfg a ∧ a.id = i) ∧ ¬ ∃ a ∈ shown ops, Followed cfg a ∧ a.id = i := by
  refine ⟨fresh_nodup cfg as _, fun i => ?_⟩
  rw [fresh_mem]
  have hs := run_seen cfg base idOf ops _ s h
  rw [List.nil_append] at hs
  rw [hs, fresh_mem]
  constructor
  · rintro ⟨h1, h2⟩; exact ⟨h2, fun h3 => h1 ⟨by simp, h3⟩⟩
  · rintro ⟨h1, h2⟩; exact ⟨fun h3 => h2 h3.2, h1⟩

/-- Settings for the examples. -/
def tooCfg : Too.Cfg where
  kinds := ["GW"]
  times := [1, 2]
  bands := [["g", "z"], ["r"]]
  nvis := [1, 2]
  exptimes := [30, 60]
  name := "ToO"
  flushtime := 3
  tol := 1
  altMin := 0
  altMax := 0
  haMin := 5
  haMax := 19
  ditherPerVisit := true
  updateMjd0 := false
  fields := fun a _ => if a.id = 9 then [] else [(1, 2)]
  inside := fun _ => true

/-- Notes and observed flags after a history. -/
def tooNotes (cfg : Too.Cfg) (ops : List Too.Op) : Option (List (String × Bool)) :=
  (Too.run cfg (cfg0 .none []) idOf0 ⟨Script.init 0, []⟩ ops).map (fun s => s.base.script.map (fun e => (e.note, e.observed)))

example : tooNotes tooCfg [.update 1 (some [alert 1 0 none, alert 1 0 none]), .one "ToO, g, 1, i0, 0", .update (9 / 2) (some [alert 1 0 none])]
    = some [("ToO, r, 1, i1, 2", false), ("ToO, r, 1, i1, 3", false)] := by decide +kernel

/-- **C85 fails** for an alert without a type (the default): the survey raises. -/
theorem C85_untyped_violated (cfg : Too.Cfg) (hk : cfg.kinds ≠ []) (idOf : String → Option ℕ) (now : ℚ) (s : S) (a : Alert) (as : List Alert)
    (ha : a.kind = none) : update cfg idOf now s (some (a :: as)) = none := by
  have : newEvent cfg idOf now s a = none := by
    unfold newEvent follows
    split
    · rfl
    · rw [ha]; dsimp only; rw [if_neg hk]
  show (a :: as).foldlM (newEvent cfg idOf now) s = none
  rw [List.foldlM_cons, this]; rfl

example : tooNotes tooCfg [.update 1 (some [{ alert 1 0 none with kind := none }])] = none := by decide +kernel

/-- **C85 fails** for plans from now on if an alert is not yet past its start: the survey raises. -/
theorem C85_early_violated : tooNotes { tooCfg with updateMjd0 := true } [.update 1 (some [alert 1 1 none])] = none := by decide +kernel

/-- **C85 fails** for an alert without a centre whose footprint is outside that of the survey: the survey raises. -/
theorem C85_outside_violated : tooNotes tooCfg [.update 1 (some [alert 9 0 none])] = none := by decide +kernel

end Verif
