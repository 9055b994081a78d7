import Verif.Model.Restore
import Verif.Props.Core
import Verif.Props.CoreSurveys
import Verif.Props.Summit
import Verif.Lemmas.CoreFill

/-! C114: restoring a scheduler and an observatory from a table of visits. -/

namespace Verif

open Core Restore

variable {C Sv A : Type}

/-- The visits up to the one asked for. -/
def upTo (tbl : List Row) (last : Int) : List Row := tbl.filter (fun r => decide (r.id ≤ last))

/-- A table as a simulation writes it: numbers, target ids and times rise. -/
def RunOrder (tbl : List Row) : Prop :=
  tbl.Pairwise (fun a b => a.id < b.id ∧ a.o.targetId < b.o.targetId ∧ a.o.mjd ≤ b.o.mjd)

instance (tbl : List Row) : Decidable (RunOrder tbl) := by unfold RunOrder; infer_instance

theorem takeIdx_some {tbl : List Row} : ∀ {is : List ℕ} {rs : List Row}, is.map (fun i => tbl[i]?) = rs.map some →
    takeIdx tbl is = .ok rs
  | [], [], _ => rfl
  | [], _ :: _, h => by simp at h
  | _ :: _, [], h => by simp at h
  | i :: is, r :: rs, h => by
    simp only [List.map_cons, List.cons.injEq] at h
    rw [takeIdx, h.1, takeIdx_some h.2]

theorem goodIdx_cons (r : Row) (tbl : List Row) (last : Int) :
    goodIdx (r :: tbl) last = (if r.id ≤ last then [0] else []) ++ (goodIdx tbl last).map (· + 1) := by
  unfold goodIdx
  rw [List.length_cons, List.range_succ_eq_map, List.filter_cons]
  have : ((List.range tbl.length).map Nat.succ).filter (fun i => ((r :: tbl).map (fun r => decide (r.id ≤ last))).getD i false) =
      ((List.range tbl.length).filter (fun i => (tbl.map (fun r => decide (r.id ≤ last))).getD i false)).map (· + 1) := by
    rw [List.filter_map]
    rfl
  rw [this]
  by_cases h : r.id ≤ last <;> simp [h]

theorem takeIdx_good (tbl : List Row) (last : Int) : takeIdx tbl (goodIdx tbl last) = .ok (upTo tbl last) := by
  apply takeIdx_some
  induction tbl with
  | nil => rfl
  | cons r tbl ih =>
    rw [goodIdx_cons]
    unfold upTo at ih ⊢
    by_cases h : r.id ≤ last
    · simpa [h, Function.comp_def] using ih
    · simpa [h, Function.comp_def] using ih

theorem goodIdx_length (tbl : List Row) (last : Int) : (goodIdx tbl last).length = (upTo tbl last).length := by
  induction tbl with
  | nil => rfl
  | cons r tbl ih =>
    rw [goodIdx_cons]
    unfold upTo at ih ⊢
    by_cases h : r.id ≤ last <;> simp [h, ih]

theorem goodIdx_split (pre post : List Row) (last : Int) (h1 : ∀ r ∈ pre, r.id ≤ last) (h2 : ∀ r ∈ post, last < r.id) :
    goodIdx (pre ++ post) last = List.range pre.length := by
  induction pre with
  | nil =>
    induction post with
    | nil => rfl
    | cons r post ih =>
      rw [List.nil_append, goodIdx_cons]
      have := ih (fun x hx => h2 x (by simp [hx]))
      rw [List.nil_append] at this
      rw [this, if_neg (by have := h2 r (by simp); omega)]
      rfl
  | cons r pre ih =>
    rw [List.cons_append, goodIdx_cons, ih (fun x hx => h1 x (by simp [hx])), if_pos (h1 r (by simp)), List.length_cons,
      List.range_succ_eq_map]
    rfl

theorem upTo_split (pre post : List Row) (last : Int) (h1 : ∀ r ∈ pre, r.id ≤ last) (h2 : ∀ r ∈ post, last < r.id) :
    upTo (pre ++ post) last = pre := by
  unfold upTo
  rw [List.filter_append, List.filter_eq_self.2 (by simpa using h1), List.filter_eq_nil_iff.2 (by simpa using h2), List.append_nil]

theorem npMax_last : ∀ (xs : List Int) (x : Int), (xs ++ [x]).Pairwise (· < ·) → npMax (xs ++ [x]) = .ok x := by
  intro xs x h
  have h' : ∀ y ∈ xs, y < x := by
    intro y hy
    exact (List.pairwise_append.1 h).2.2 y hy x (by simp)
  have key : ∀ (l : List Int) (a : Int), a < x → (∀ y ∈ l, y < x) → (l ++ [x]).foldl max a = x := by
    intro l
    induction l with
    | nil => intro a ha _; simp; omega
    | cons b l ih =>
      intro a ha hl
      rw [List.cons_append, List.foldl_cons]
      exact ih _ (by have := hl b (by simp); omega) (fun y hy => hl y (by simp [hy]))
  cases xs with
  | nil => rfl
  | cons a l =>
    show Except.ok ((l ++ [x]).foldl max a) = _
    rw [key l a (h' a (by simp)) (fun y hy => h' y (by simp [hy]))]

theorem feed_counter (E : Env C Sv A) (s s' : Core C Sv A) (l : List Obs) (fast : Bool) (ha : s.qm.Aligned)
    (h : feed E s l fast = .ok s') : l = [] ∧ s'.counter = s.counter ∨
      rows s'.qm = rows (addEach E s l).qm ∧ s'.counter = (addEach E s l).counter := by
  unfold feed at h
  split at h
  · by_cases hl : l = []
    · subst hl
      rw [(C13_empty_batch_raises E s).1] at h
      simp at h
    · obtain ⟨s1, ev, h1, h2, h3⟩ := C13_bulk_eq_each E s l hl ha
      rw [h1] at h
      simp only [Except.ok.injEq] at h
      subst h
      exact Or.inr ⟨h2, h3⟩
  · simp only [Except.ok.injEq] at h
    subst h
    exact Or.inr ⟨rfl, rfl⟩

theorem restore_parts {E : Env C Sv A} {s s' : Core C Sv A} {tbl : List Row} {last : Int} {sched : Option (ℚ → List String)}
    {fast : Bool} {tel : Restore.Tel} (h : restore E s tbl last sched fast = .ok (s', tel)) :
    ∃ n r, counterOf tbl (goodIdx tbl last) = .ok n ∧ (upTo tbl last).getLast? = some r ∧
      feed E { s with counter := n } ((upTo tbl last).map Row.o) fast = .ok s' ∧ tel = telAfter (upTo tbl last) r sched := by
  unfold restore at h
  rw [takeIdx_good] at h
  split at h
  · cases h
  · rename_i n hn
    dsimp only at h
    split at h
    · cases h
    · rename_i s1 hs1
      split at h
      · cases h
      · rename_i r hr
        simp only [Except.ok.injEq, Prod.mk.injEq] at h
        obtain ⟨rfl, rfl⟩ := h
        exact ⟨n, r, hn, hr, hs1, rfl⟩

/-- C114: no target id of the visits restored is given out again. -/
theorem C114_fresh_ids (E : Env C Sv A) (s s' : Core C Sv A) (tbl : List Row) (last : Int) (sched : Option (ℚ → List String))
    (fast : Bool) (tel : Restore.Tel) (ha : s.qm.Aligned) (h : restore E s tbl last sched fast = .ok (s', tel)) :
    ∀ r ∈ tbl, r.id ≤ last → r.o.targetId < s'.counter := by
  obtain ⟨n, r, _, hr, hf, _⟩ := restore_parts h
  intro x hx hid
  have hmem : x ∈ upTo tbl last := List.mem_filter.2 ⟨hx, by simpa using hid⟩
  rcases feed_counter E { s with counter := n } s' _ fast ha hf with ⟨h0, _⟩ | ⟨_, hc⟩
  · rw [List.map_eq_nil_iff] at h0
    rw [h0] at hmem
    simp at hmem
  · rw [hc]
    exact (addEach_counter E _ _).2.1 _ (by
      rw [List.map_map]
      exact List.mem_map.2 ⟨x, hmem, rfl⟩)

/-- C114: handing over the visits in one go or one by one leaves the same queue, the same counter and
the same observatory. -/
theorem C114_fast_slow (E : Env C Sv A) (s s1 s2 : Core C Sv A) (tbl : List Row) (last : Int) (sched : Option (ℚ → List String))
    (tel1 tel2 : Restore.Tel) (ha : s.qm.Aligned) (h1 : restore E s tbl last sched true = .ok (s1, tel1))
    (h2 : restore E s tbl last sched false = .ok (s2, tel2)) :
    rows s1.qm = rows s2.qm ∧ s1.counter = s2.counter ∧ tel1 = tel2 := by
  obtain ⟨n, r, hn, hr, hf, rfl⟩ := restore_parts h1
  obtain ⟨n', r', hn', hr', hf', rfl⟩ := restore_parts h2
  rw [hn] at hn'
  cases hn'
  rw [hr] at hr'
  cases hr'
  have hne : (upTo tbl last).map Row.o ≠ [] := by
    intro h0
    rw [List.map_eq_nil_iff] at h0
    rw [h0] at hr
    simp at hr
  rcases feed_counter E { s with counter := n } s1 _ true ha hf with ⟨h0, _⟩ | ⟨a1, a2⟩
  · exact absurd h0 hne
  · rcases feed_counter E { s with counter := n } s2 _ false ha hf' with ⟨h0, _⟩ | ⟨b1, b2⟩
    · exact absurd h0 hne
    · exact ⟨a1.trans b1.symm, a2.trans b2.symm, rfl⟩

/-- C114, in part: from a table in the order of the run, restoring succeeds, and the next target id is
that of the visit which followed in the run, or the one after the last if none did. Missing: tables in any
other order, see below. -/
theorem C114_next_id_partial (E : Env C Sv A) (s : Core C Sv A) (pre post : List Row) (x : Row) (last : Int)
    (sched : Option (ℚ → List String)) (fast : Bool) (ha : s.qm.Aligned) (hrun : RunOrder (pre ++ x :: post))
    (hx : x.id ≤ last) (hpost : ∀ r ∈ post, last < r.id) :
    ∃ s' tel, restore E s (pre ++ x :: post) last sched fast = .ok (s', tel) ∧
      s'.counter = (post.head?.map (fun y => y.o.targetId)).getD (x.o.targetId + 1) := by
  have hpre : ∀ r ∈ pre ++ [x], r.id ≤ last := by
    intro r hr
    rcases List.mem_append.1 hr with h | h
    · have := ((List.pairwise_append.1 hrun).2.2 r h x (by simp)).1
      omega
    · simp at h
      subst h
      exact hx
  have htbl : pre ++ x :: post = (pre ++ [x]) ++ post := by simp
  have hup : upTo (pre ++ x :: post) last = pre ++ [x] := by rw [htbl]; exact upTo_split _ _ _ hpre hpost
  have hgood : goodIdx (pre ++ x :: post) last = List.range (pre.length + 1) := by
    rw [htbl, goodIdx_split _ _ _ hpre hpost]; simp
  have hids : ((pre ++ x :: post).map (fun r => r.o.targetId)).Pairwise (· < ·) :=
    List.pairwise_map.2 (hrun.imp (fun h => h.2.1))
  have hcount : ∃ n, counterOf (pre ++ x :: post) (goodIdx (pre ++ x :: post) last) = .ok n ∧
      n = (post.head?.map (fun y => y.o.targetId)).getD (x.o.targetId + 1) := by
    unfold counterOf counterFrom
    rw [hgood]
    cases post with
    | nil =>
      rw [if_neg (by simp)]
      dsimp only
      have : takeIdx (pre ++ [x]) (List.range (pre.length + 1)) = .ok (pre ++ [x]) := by
        have := takeIdx_good (pre ++ x :: []) last
        rwa [hup, hgood] at this
      rw [this]
      dsimp only
      rw [List.map_append, List.map_cons, List.map_nil, npMax_last _ _ (by simpa using hids)]
      exact ⟨_, rfl, rfl⟩
    | cons y post =>
      rw [if_pos (by simp)]
      dsimp only
      -- the rows from the second on, up to the one after `x`
      have : takeIdx (pre ++ x :: y :: post) ((List.range (pre.length + 1)).map (· + 1)) = .ok ((pre ++ [x]).tail ++ [y]) := by
        apply takeIdx_some
        have e : (pre ++ [x]).tail ++ [y] = ((pre ++ x :: y :: post).drop 1).take (pre.length + 1) := by
          cases pre with
          | nil => rfl
          | cons p pre =>
            rw [List.cons_append, List.tail_cons, List.cons_append, List.drop_one, List.tail_cons, List.length_cons]
            rw [show pre ++ x :: y :: post = (pre ++ [x, y]) ++ post by simp, List.take_left' (by simp)]
            simp
        rw [e]
        apply List.ext_getElem?
        intro i
        simp only [List.getElem?_map, List.getElem?_take, List.getElem?_drop]
        by_cases hi : i < pre.length + 1
        · rw [List.getElem?_range hi, if_pos hi]
          have : i + 1 < (pre ++ x :: y :: post).length := by simp; omega
          simp [Nat.add_comm 1 i, List.getElem?_eq_getElem this]
        · rw [if_neg hi, List.getElem?_eq_none (by simp; omega)]
          rfl
      rw [this]
      dsimp only
      rw [List.map_append, List.map_cons, List.map_nil, npMax_last]
      · exact ⟨_, rfl, by simp⟩
      · have hsub : ((pre ++ [x]).tail ++ [y]).Sublist (pre ++ x :: y :: post) := by
          rw [show pre ++ x :: y :: post = (pre ++ [x]) ++ ([y] ++ post) by simp]
          exact List.Sublist.append (List.tail_sublist _) (List.sublist_append_left _ _)
        have := hids.sublist (hsub.map (fun r => r.o.targetId))
        simpa using this
  obtain ⟨n, hn, hn'⟩ := hcount
  have hne : (pre ++ [x]).map Row.o ≠ [] := by simp
  have hfeed : ∃ s', feed E { s with counter := n } ((pre ++ [x]).map Row.o) fast = .ok s' := by
    unfold feed
    cases fast with
    | false => exact ⟨_, rfl⟩
    | true =>
      obtain ⟨s1, ev, h1, _⟩ := C13_bulk_eq_each E { s with counter := n } _ hne ha
      exact ⟨s1, by rw [if_pos rfl, h1]⟩
  obtain ⟨s', hs'⟩ := hfeed
  refine ⟨s', telAfter (pre ++ [x]) x sched, ?_, ?_⟩
  · unfold restore
    rw [hn, takeIdx_good, hup]
    dsimp only
    rw [hs']
    simp
  · rcases feed_counter E { s with counter := n } s' _ fast ha hs' with ⟨h0, _⟩ | ⟨_, hc⟩
    · exact absurd h0 hne
    · obtain ⟨c1, c2, c3⟩ := addEach_counter E { s with counter := n } ((pre ++ [x]).map Row.o)
      rw [← hc] at c1 c2 c3
      dsimp only at c1 c3
      rcases c3 with c3 | ⟨i, hi, c3⟩
      · rw [c3, hn']
      · rw [List.map_map] at hi
        obtain ⟨r, hr, rfl⟩ := List.mem_map.1 hi
        have hle : r.o.targetId < n := by
          rw [hn']
          rw [List.mem_append, List.mem_singleton] at hr
          have hlex : r.o.targetId ≤ x.o.targetId := by
            rcases hr with hr | rfl
            · exact ((List.pairwise_append.1 hrun).2.2 r hr x (by simp)).2.1.le
            · exact le_refl _
          cases post with
          | nil => simp; omega
          | cons y post =>
            have := (List.pairwise_cons.1 (List.pairwise_append.1 hrun).2.1).1 y (by simp)
            simp
            omega
        simp only [Function.comp] at c3
        rw [← hn']
        omega

/-- C114: every survey is told exactly the visits up to the one asked for, in the order of the run, in
one go or one by one. -/
theorem C114_told_partial (E : Env C Sv A) (R : Recorder E) (s s' : Core C Sv A) (tbl : List Row) (last : Int)
    (sched : Option (ℚ → List String)) (fast : Bool) (tel : Restore.Tel) (hrun : RunOrder tbl)
    (h : restore E s tbl last sched fast = .ok (s', tel)) :
    seenAll R s' = alsoSeen (seenAll R s) ((tbl.filter (fun r => decide (r.id ≤ last))).map (fun r => backfillBand r.o)) := by
  obtain ⟨n, r, hn, hr, hf, _⟩ := restore_parts h
  have hs : ∀ l : List Obs, ∀ s0 : Core C Sv A, seenAll R (l.foldl (fun s o => (s.addObs E o).1) s0) =
      alsoSeen (seenAll R s0) (l.map backfillBand) := by
    intro l
    induction l with
    | nil => intro s0; exact (alsoSeen_nil _).symm
    | cons o os ih =>
      intro s0
      rw [List.foldl_cons, ih, addObs_seen]
      unfold alsoSeen
      simp
  have hsorted : ((upTo tbl last).map (fun r => backfillBand r.o)).Pairwise (fun a b => a.mjd ≤ b.mjd) := by
    rw [List.pairwise_map]
    refine (hrun.sublist List.filter_sublist).imp ?_
    intro a b hab
    have e : ∀ o : Obs, (backfillBand o).mjd = o.mjd := by
      intro o; unfold backfillBand; split <;> rfl
    rw [e, e]
    exact hab.2.2
  unfold feed at hf
  change seenAll R s' = alsoSeen (seenAll R s) ((upTo tbl last).map (fun r => backfillBand r.o))
  have e0 : seenAll R ({ s with counter := n } : Core C Sv A) = seenAll R s := rfl
  split at hf
  · split at hf
    · cases hf
    · rename_i s1 ev h1
      simp only [Except.ok.injEq] at hf
      subst hf
      have h2 : ({ s with counter := n } : Core C Sv A).step E (.addArr ((upTo tbl last).map Row.o)) = .ok (s1, none, ev) := by
        simp only [step, h1]
      rw [step_seen R h2, e0]
      congr 1
      have e1 : ((upTo tbl last).map Row.o).map backfillBand = (upTo tbl last).map (fun r => backfillBand r.o) := by
        rw [List.map_map]; rfl
      unfold toldVisits
      split
      · rename_i heq; cases heq
      · rename_i o heq
        simp only [Op.addArr.injEq] at heq
        rw [← e1, heq]
        rfl
      · rename_i heq
        simp only [Op.addArr.injEq] at heq
        subst heq
        rw [e1]
        exact List.Pairwise.insertionSort_eq hsorted
      · rename_i h; exact absurd rfl (h _)
  · simp only [Except.ok.injEq] at hf
    subst hf
    rw [hs, e0]
    congr 1
    rw [List.map_map]
    rfl

/-- C114: the observatory is as after the last visit restored: its clock at the end of that visit, its
pointing, band and cable wrap those of that visit, not parked, and the next visit number the next one. -/
theorem C114_observatory (E : Env C Sv A) (s s' : Core C Sv A) (tbl : List Row) (last : Int) (sched : ℚ → List String)
    (fast : Bool) (tel : Restore.Tel) (h : restore E s tbl last (some sched) fast = .ok (s', tel)) :
    ∃ pre x post, tbl = pre ++ x :: post ∧ x.id ≤ last ∧ (∀ r ∈ post, last < r.id) ∧
      tel.mjd = x.o.mjd + x.visitTime / 86400 ∧ tel.idCounter = x.id + 1 ∧ tel.parked = false ∧
      (tel.ra, tel.dec, tel.rot, tel.cummAz, tel.band) = (x.o.ra, x.o.dec, x.rot, x.cummAz, x.o.band) ∧
      ∃ y ∈ tbl, y.id ≤ last ∧ y.night = x.night ∧ tel.mounted = sched y.o.mjd ∧
        ∀ z ∈ tbl, z.id ≤ last → z.night = x.night → y.o.mjd ≤ z.o.mjd := by
  obtain ⟨n, x, _, hx, _, rfl⟩ := restore_parts h
  have hsplit : ∀ l : List Row, (upTo l last).getLast? = some x →
      ∃ pre post, l = pre ++ x :: post ∧ x.id ≤ last ∧ ∀ r ∈ post, last < r.id := by
    intro l
    induction l with
    | nil => intro h; simp [upTo] at h
    | cons r l ih =>
      intro h
      by_cases hl : upTo l last = []
      · unfold upTo at h hl
        rw [List.filter_cons] at h
        split at h
        · rename_i hr
          rw [hl] at h
          simp at h
          subst h
          refine ⟨[], l, rfl, by simpa using hr, ?_⟩
          intro y hy
          have := List.filter_eq_nil_iff.1 hl y hy
          simpa using this
        · rw [hl] at h; simp at h
      · have : (upTo l last).getLast? = some x := by
          unfold upTo at h hl ⊢
          rw [List.filter_cons] at h
          split at h
          · rw [List.getLast?_cons] at h
            cases hf : l.filter (fun r => decide (r.id ≤ last)) with
            | nil => exact absurd hf hl
            | cons a as => rw [hf] at h; rw [List.getLast?_cons] at h ⊢; simpa using h
          · exact h
        obtain ⟨pre, post, rfl, h1, h2⟩ := ih this
        exact ⟨r :: pre, post, rfl, h1, h2⟩
  obtain ⟨pre, post, htbl, h1, h2⟩ := hsplit tbl hx
  refine ⟨pre, x, post, htbl, h1, h2, ?_, rfl, rfl, rfl, ?_⟩
  · unfold telAfter
    dsimp only
    ring
  · have hxm : x ∈ upTo tbl last := List.mem_filter.2 ⟨by rw [htbl]; simp, by simpa using h1⟩
    unfold telAfter bandsFor nightStart
    dsimp only
    cases hl : (upTo tbl last).filter (fun r => decide (r.night = x.night)) with
    | nil =>
      have := List.filter_eq_nil_iff.1 hl x hxm
      simp at this
    | cons a as =>
      rw [List.map_cons]
      dsimp only
      have key : ∀ (l : List Row) (b : Row), ∃ y ∈ b :: l, (l.map (fun r => r.o.mjd)).foldl min b.o.mjd = y.o.mjd ∧
          ∀ z ∈ b :: l, y.o.mjd ≤ z.o.mjd := by
        intro l
        induction l with
        | nil => intro b; exact ⟨b, by simp, rfl, by simp⟩
        | cons c l ih =>
          intro b
          rw [List.map_cons, List.foldl_cons]
          rcases le_total b.o.mjd c.o.mjd with hbc | hbc
          · rw [min_eq_left hbc]
            obtain ⟨y, hy, h1, h2⟩ := ih b
            refine ⟨y, ?_, h1, ?_⟩
            · rcases List.mem_cons.1 hy with rfl | hy <;> simp_all
            · intro z hz
              simp only [List.mem_cons] at hz
              rcases hz with rfl | rfl | hz
              · exact h2 z (by simp)
              · exact le_trans (h2 b (by simp)) hbc
              · exact h2 z (by simp [hz])
          · rw [min_eq_right hbc]
            obtain ⟨y, hy, h1, h2⟩ := ih c
            refine ⟨y, by simp [hy], h1, ?_⟩
            intro z hz
            simp only [List.mem_cons] at hz
            rcases hz with rfl | rfl | hz
            · exact le_trans (h2 c (by simp)) hbc
            · exact h2 z (by simp)
            · exact h2 z (by simp [hz])
      obtain ⟨y, hy, e, hmin⟩ := key as a
      rw [← hl] at hy hmin
      have hy' := List.mem_filter.1 hy
      have hy'' := List.mem_filter.1 hy'.1
      refine ⟨y, hy''.1, by simpa using hy''.2, by simpa using hy'.2, by rw [e], ?_⟩
      intro z hz hzid hzn
      exact hmin z (List.mem_filter.2 ⟨List.mem_filter.2 ⟨hz, by simpa using hzid⟩, by simpa using hzn⟩)

/-- A table of three visits in two nights. -/
def threeRows : List Row :=
  [⟨0, 1, 30, 5, 6, { targetId := 3, mjd := 100, band := "r" }⟩, ⟨1, 2, 30, 7, 8, { targetId := 4, mjd := 101, band := "g" }⟩,
    ⟨2, 2, 30, 7, 9, { targetId := 9, mjd := 101 + 1 / 100, band := "z" }⟩]

/-- A scheduler with one survey that writes down what it is told. -/
def restStart : Core ToyC (List Obs × List ToyC) Unit := Core.init () [[([], [])]] 0 false []

theorem restStart_aligned : restStart.qm.Aligned := rfl

/-- The counter, what the survey has been told and the observatory. -/
def restSummary (x : Except RErr (Core ToyC (List Obs × List ToyC) Unit × Restore.Tel)) :
    Option (Int × List Int × Restore.Tel) :=
  match x with
  | .error _ => none
  | .ok (s, t) => some (s.counter, (s.tiers.flatten.map (fun v => v.1.map Obs.targetId)).flatten, t)

example : RunOrder threeRows := by decide +kernel

example : restSummary (restore logEnv restStart threeRows 1 (some (fun t => if t = 101 then ["g", "z"] else [])) true) =
    some (9, [3, 4], ⟨101 + 30 / 3600 / 24, 2, false, 0, 0, 7, 8, "g", ["g", "z"]⟩) := by decide +kernel

example : restSummary (restore logEnv restStart threeRows 2 (some (fun _ => ["z"])) false) =
    some (10, [3, 4, 9], ⟨101 + 1 / 100 + 30 / 3600 / 24, 3, false, 0, 0, 7, 9, "z", ["z"]⟩) := by decide +kernel

/-- Why a restored error occurred. -/
def restError (x : Except RErr (Core ToyC (List Obs × List ToyC) Unit × Restore.Tel)) : Option RErr :=
  match x with
  | .error e => some e
  | .ok _ => none

/-- C114 is violated for a table in another order: with the newest visit first, restoring the first visit
raises; and so does restoring from before the first visit. -/
theorem C114_order_violated :
    restError (restore logEnv restStart threeRows.reverse 0 none true) = some .index ∧
    restError (restore logEnv restStart threeRows (-1) none true) = some .empty := by decide +kernel

/-- C114 is violated without a band scheduler: the bands mounted do not include the one in use if that is `z`. -/
theorem C114_bands_violated :
    ∃ n told tel, restSummary (restore logEnv restStart threeRows 2 none true) = some (n, told, tel) ∧
      tel.band = "z" ∧ tel.band ∉ tel.mounted :=
  ⟨10, [3, 4, 9], ⟨101 + 1 / 100 + 30 / 3600 / 24, 3, false, 0, 0, 7, 9, "z", ["u", "g", "r", "i", "y"]⟩, by decide +kernel⟩

/-- C114, replaying a table: every survey is told every visit, in the order of time. -/
theorem C114_warm_told (E : Env C Sv A) (R : Recorder E) (s : Core C Sv A) (l : List Obs) :
    ∃ l' : List Obs, l'.Perm l ∧ l'.Pairwise (fun a b => a.mjd ≤ b.mjd) ∧
      seenAll R (warm E s l) = alsoSeen (seenAll R s) (l'.map backfillBand) := by
  refine ⟨l.insertionSort (fun a b => a.mjd ≤ b.mjd), List.perm_insertionSort _ _, List.pairwise_insertionSort _ _, ?_⟩
  unfold warm
  generalize l.insertionSort (fun a b => a.mjd ≤ b.mjd) = l'
  induction l' generalizing s with
  | nil => exact (alsoSeen_nil _).symm
  | cons o os ih =>
    rw [List.foldl_cons, ih, addObs_seen]
    unfold alsoSeen
    simp

/-- C114: the order of the table replayed does not matter. -/
theorem C114_warm_order (E : Env C Sv A) (s : Core C Sv A) (l l' : List Obs) (hp : l.Perm l')
    (hd : ∀ a ∈ l, ∀ b ∈ l, a.mjd = b.mjd → a = b) : warm E s l = warm E s l' := by
  unfold warm
  congr 1
  have p : (l.insertionSort (fun a b => a.mjd ≤ b.mjd)).Perm (l'.insertionSort (fun a b => a.mjd ≤ b.mjd)) :=
    (List.perm_insertionSort _ l).trans (hp.trans (List.perm_insertionSort _ l').symm)
  refine List.Perm.eq_of_pairwise ?_ (List.pairwise_insertionSort _ _) (List.pairwise_insertionSort _ _) p
  intro a b ha hb hab hba
  exact hd a ((List.perm_insertionSort _ l).mem_iff.1 ha) b (hp.mem_iff.2 ((List.perm_insertionSort _ l').mem_iff.1 hb)) (le_antisymm hab hba)

example : (warm logEnv restStart (threeRows.reverse.map Row.o)).tiers.flatten.map (fun v => v.1.map Obs.targetId) = [[3, 4, 9]] ∧
    (warm logEnv restStart (threeRows.map Row.o)).counter = 10 := by decide +kernel

end Verif
