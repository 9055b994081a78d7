import Verif.Model.Downtime
import Verif.Spec.Downtime
import Mathlib.Tactic.Linarith
import Mathlib.Tactic.Ring

namespace Verif.Down

/-! ### One sweep -/

/-- Starts in order. -/
def ByStart (l : List Iv) : Prop := l.Pairwise (fun a b => a.1 ≤ b.1)

theorem sweep_starts (l : List Iv) : (sweep l).map Prod.fst = l.map Prod.fst := by
  induction l using sweep.induct with
  | case1 a b rest h ih => rw [sweep, if_pos h]; simpa using ih
  | case2 a b rest h ih => rw [sweep, if_neg h]; simpa using ih
  | case3 l h => rw [sweep]; exact h

theorem sweep_single (a : Iv) : sweep [a] = [a] := by
  rw [sweep]; simp

theorem byStart_iff (l : List Iv) : ByStart l ↔ (l.map Prod.fst).Pairwise (· ≤ ·) := by
  rw [ByStart, List.pairwise_map]

theorem sweep_byStart {l : List Iv} (h : ByStart l) : ByStart (sweep l) := by
  rw [byStart_iff, sweep_starts, ← byStart_iff]; exact h

theorem byStart_setEnd {a b : Iv} {rest : List Iv} (e : ℚ) (h : ByStart (a :: b :: rest)) :
    ByStart ((b.1, e) :: rest) := by
  have h2 := (List.pairwise_cons.1 h).2
  exact List.pairwise_cons.2 ⟨fun x hx => (List.pairwise_cons.1 h2).1 x hx, (List.pairwise_cons.1 h2).2⟩

theorem sweep_closed {l : List Iv} (h : ByStart l) (t : ℚ) : Closed (sweep l) t ↔ Closed l t := by
  induction l using sweep.induct with
  | case1 a b rest hlt ih =>
    rw [sweep, if_pos hlt]
    have hab : a.1 ≤ b.1 := (List.pairwise_cons.1 h).1 b (by simp)
    have ih := ih (byStart_setEnd _ h)
    unfold Closed at ih ⊢
    simp only [List.mem_cons, exists_eq_or_imp] at ih ⊢
    rw [ih]
    simp only [lt_max_iff]
    constructor
    · rintro (⟨h1, h2 | h2⟩ | ⟨h1, h2 | h2⟩ | h3)
      · exact .inl ⟨h1, h2⟩
      · by_cases hb : b.1 ≤ t
        · exact .inr (.inl ⟨hb, h2⟩)
        · exact .inl ⟨h1, by linarith⟩
      · exact .inl ⟨by linarith, h2⟩
      · exact .inr (.inl ⟨h1, h2⟩)
      · exact .inr (.inr h3)
    · rintro (⟨h1, h2⟩ | ⟨h1, h2⟩ | h3)
      · exact .inl ⟨h1, .inl h2⟩
      · exact .inr (.inl ⟨h1, .inr h2⟩)
      · exact .inr (.inr h3)
  | case2 a b rest hlt ih =>
    rw [sweep, if_neg hlt]
    have ih := ih (List.pairwise_cons.1 h).2
    unfold Closed at ih ⊢
    rw [List.exists_mem_cons_iff, ih, List.exists_mem_cons_iff (a := a)]
  | case3 l hl => rw [sweep]; exact hl

theorem sweep_forward {l : List Iv} (h : Forward l) : Forward (sweep l) := by
  induction l using sweep.induct with
  | case1 a b rest hlt ih =>
    rw [sweep, if_pos hlt]
    have ha := h a (by simp)
    have hb := h b (by simp)
    intro d hd
    rcases List.mem_cons.1 hd with rfl | hd
    · exact le_trans ha (le_max_left _ _)
    · refine ih ?_ d hd
      intro d hd
      rcases List.mem_cons.1 hd with rfl | hd
      · exact le_trans hb (le_max_right _ _)
      · exact h d (by simp [hd])
  | case2 a b rest hlt ih =>
    rw [sweep, if_neg hlt]
    intro d hd
    rcases List.mem_cons.1 hd with rfl | hd
    · exact h d (by simp)
    · exact ih (fun d hd => h d (List.mem_cons_of_mem _ hd)) d hd
  | case3 l hl => rw [sweep]; exacts [h, hl]

/-- The first row after a sweep starts at the same time and does not end earlier. -/
theorem sweep_head (a : Iv) (rest : List Iv) :
    ∃ e tl, sweep (a :: rest) = (a.1, e) :: tl ∧ a.2 ≤ e := by
  cases rest with
  | nil => exact ⟨a.2, [], by rw [sweep]; simp, le_rfl⟩
  | cons b rest =>
    rw [sweep]
    split
    · exact ⟨_, _, rfl, le_max_left _ _⟩
    · exact ⟨a.2, _, rfl, le_rfl⟩

/-- After a sweep the ends are in order. -/
theorem sweep_ends {l : List Iv} (h : Forward l) : (sweep l).IsChain (fun a b => a.2 ≤ b.2) := by
  induction l using sweep.induct with
  | case1 a b rest hlt ih =>
    rw [sweep, if_pos hlt]
    obtain ⟨e, tl, he, hle⟩ := sweep_head (b.1, max a.2 b.2) rest
    have ih := ih (by
      intro d hd
      rcases List.mem_cons.1 hd with rfl | hd
      · exact le_trans (h b (by simp)) (le_max_right _ _)
      · exact h d (by simp [hd]))
    rw [he] at ih ⊢
    exact List.isChain_cons_cons.2 ⟨hle, ih⟩
  | case2 a b rest hlt ih =>
    rw [sweep, if_neg hlt]
    obtain ⟨e, tl, he, hle⟩ := sweep_head b rest
    have ih := ih (fun d hd => h d (List.mem_cons_of_mem _ hd))
    rw [he] at ih ⊢
    have := h b (by simp)
    exact List.isChain_cons_cons.2 ⟨by dsimp only; linarith, ih⟩
  | case3 l hl =>
    rw [sweep]
    · match l, hl with
      | [], _ => exact .nil
      | [a], _ => exact .singleton a
      | a :: b :: r, hl => exact absurd rfl (hl a b r)
    · exact hl

theorem overlaps_cons (a b : Iv) (rest : List Iv) :
    overlaps (a :: b :: rest) = (decide (b.1 < a.2) || overlaps (b :: rest)) := by
  simp [overlaps]

theorem not_overlaps (l : List Iv) : overlaps l = false ↔ l.IsChain (fun a b => a.2 ≤ b.1) := by
  induction l with
  | nil => simp [overlaps]
  | cons a l ih =>
    cases l with
    | nil => simp [overlaps]
    | cons b l => rw [overlaps_cons, List.isChain_cons_cons, ← ih]; simp

theorem sweep_of_not_overlaps {l : List Iv} (h : overlaps l = false) : sweep l = l := by
  induction l using sweep.induct with
  | case1 a b rest hlt ih => rw [overlaps_cons] at h; simp [hlt] at h
  | case2 a b rest hlt ih =>
    rw [overlaps_cons] at h
    rw [sweep, if_neg hlt, ih (by simpa [hlt] using h)]
  | case3 l hl => rw [sweep]; exact hl

/-- If something overlaps, the sweep makes two neighbouring ends equal. -/
theorem sweep_equal_ends {l : List Iv} (h : overlaps l = true) :
    ¬ (sweep l).IsChain (fun a b => a.2 ≠ b.2) := by
  induction l using sweep.induct with
  | case1 a b rest hlt ih =>
    rw [sweep, if_pos hlt]
    intro hc
    by_cases ho : overlaps ((b.1, max a.2 b.2) :: rest) = true
    · obtain ⟨e, tl, he, hle⟩ := sweep_head (b.1, max a.2 b.2) rest
      have ih := ih ho
      rw [he] at hc ih
      exact ih (List.isChain_cons_cons.1 hc).2
    · rw [sweep_of_not_overlaps (by simpa using ho)] at hc
      exact (List.isChain_cons_cons.1 hc).1 rfl
  | case2 a b rest hlt ih =>
    rw [overlaps_cons] at h
    rw [sweep, if_neg hlt]
    have ih := ih (by simpa [hlt] using h)
    obtain ⟨e, tl, he, hle⟩ := sweep_head b rest
    rw [he] at ih ⊢
    exact fun hc => ih (List.isChain_cons_cons.1 hc).2
  | case3 l hl =>
    match l, hl with
    | [], _ => simp [overlaps] at h
    | [a], _ => simp [overlaps] at h
    | a :: b :: r, hl => exact absurd rfl (hl a b r)

/-! ### Dropping rows that repeat an end -/

/-- Keep the rows whose end differs from the end of the row before. -/
def fresh : ℚ → List Iv → List Iv
  | _, [] => []
  | p, a :: rest => if a.2 ≠ p then a :: fresh a.2 rest else fresh a.2 rest

theorem zip_fresh (z : Iv) (l : List Iv) :
    (((z :: l).zip l).filter (fun p => p.2.2 ≠ p.1.2)).map Prod.snd = fresh z.2 l := by
  induction l generalizing z with
  | nil => rfl
  | cons a l ih =>
    rw [fresh]
    simp only [List.zip_cons_cons, List.filter_cons, decide_not, Bool.not_eq_true', decide_eq_false_iff_not]
    have ih := ih a
    simp only [decide_not] at ih
    split <;> rename_i h
    · rw [List.map_cons, ih]
    · rw [ih]

theorem keepNew_cons (a : Iv) (rest : List Iv) :
    keepNew (a :: rest) = fresh ((a :: rest).getLast (by simp)).2 (a :: rest) := by
  unfold keepNew
  rw [List.getLast?_eq_getLast_of_ne_nil (by simp)]
  exact zip_fresh _ _

theorem fresh_sublist (p : ℚ) (l : List Iv) : (fresh p l).Sublist l := by
  induction l generalizing p with
  | nil => exact List.Sublist.refl _
  | cons a l ih =>
    rw [fresh]; split
    · exact (ih _).cons_cons a
    · exact (ih _).cons a

theorem fresh_same {p : ℚ} {l : List Iv} (h : ∀ d ∈ l, d.2 = p) : fresh p l = [] := by
  induction l with
  | nil => rfl
  | cons a l ih =>
    have ha := h a (by simp)
    rw [fresh, if_neg (by simpa using ha), ha]
    exact ih (fun d hd => h d (by simp [hd]))

theorem fresh_length {p : ℚ} {l : List Iv} (h : (fresh p l).length = l.length) :
    l.IsChain (fun a b => a.2 ≠ b.2) := by
  induction l generalizing p with
  | nil => exact .nil
  | cons a l ih =>
    rw [fresh] at h
    split at h
    · simp only [List.length_cons, Nat.add_right_cancel_iff] at h
      have ih' := ih h
      cases l with
      | nil => exact .singleton a
      | cons b l =>
        refine List.isChain_cons_cons.2 ⟨fun heq => ?_, ih'⟩
        rw [fresh, if_neg (by simpa using heq.symm)] at h
        have := (fresh_sublist b.2 l).length_le
        simp only [List.length_cons] at h
        omega
    · have := (fresh_sublist a.2 l).length_le
      simp only [List.length_cons] at h
      omega

theorem fresh_closed {a : Iv} {rest : List Iv} (h : ByStart (a :: rest)) (t : ℚ) :
    Closed (a :: fresh a.2 rest) t ↔ Closed (a :: rest) t := by
  induction rest generalizing a with
  | nil => rfl
  | cons b rest ih =>
    have hab : a.1 ≤ b.1 := (List.pairwise_cons.1 h).1 b (by simp)
    have hb := (List.pairwise_cons.1 h).2
    have ihb := ih hb
    rw [fresh]
    unfold Closed at ihb ⊢
    split
    · simp only [List.exists_mem_cons_iff] at ihb ⊢
      rw [ihb]
    · rename_i heq
      have heq : b.2 = a.2 := by simpa using heq
      have ha : ByStart (a :: rest) := by
        refine List.pairwise_cons.2 ⟨fun x hx => (List.pairwise_cons.1 h).1 x (by simp [hx]), (List.pairwise_cons.1 hb).2⟩
      have iha := ih ha
      unfold Closed at iha
      rw [heq, iha]
      simp only [List.exists_mem_cons_iff]
      constructor
      · rintro (h1 | h1)
        · exact .inl h1
        · exact .inr (.inr h1)
      · rintro (h1 | ⟨h1, h2⟩ | h1)
        · exact .inl h1
        · exact .inl ⟨le_trans hab h1, heq ▸ h2⟩
        · exact .inr h1

theorem endsPairwise {l : List Iv} (h : l.IsChain (fun a b => a.2 ≤ b.2)) : l.Pairwise (fun a b => a.2 ≤ b.2) := by
  have : IsTrans Iv (fun a b => a.2 ≤ b.2) := ⟨fun a b c h1 h2 => le_trans h1 h2⟩
  exact List.isChain_iff_pairwise.1 h

/-- Unless everything is dropped, dropping rows keeps the closed times. -/
theorem keepNew_closed {l : List Iv} (h : ByStart l) (hc : l.IsChain (fun a b => a.2 ≤ b.2)) (hne : keepNew l ≠ [])
    (t : ℚ) : Closed (keepNew l) t ↔ Closed l t := by
  cases l with
  | nil => exact absurd rfl hne
  | cons a rest =>
    rw [keepNew_cons] at hne ⊢
    have hp := endsPairwise hc
    set z := (a :: rest).getLast (by simp) with hz
    have hzm : z ∈ a :: rest := List.getLast_mem _
    by_cases hd : a.2 ≠ z.2
    · rw [fresh, if_pos hd]; exact fresh_closed h t
    · exfalso
      have hd : a.2 = z.2 := by simpa using hd
      apply hne
      apply fresh_same
      intro d hdm
      have h1 : a.2 ≤ d.2 := by
        rcases List.mem_cons.1 hdm with rfl | hm
        · exact le_rfl
        · exact (List.pairwise_cons.1 hp).1 d hm
      have h2 : d.2 ≤ z.2 := by
        rcases List.getLast_mem (l := a :: rest) (by simp) with _ 
        have hsplit := List.dropLast_append_getLast (l := a :: rest) (by simp)
        rw [← hz] at hsplit
        rw [← hsplit] at hdm hp
        rcases List.mem_append.1 hdm with hm | hm
        · exact (List.pairwise_append.1 hp).2.2 d hm z (by simp)
        · rw [List.mem_singleton.1 hm]
      linarith

theorem keepNew_sublist (l : List Iv) : (keepNew l).Sublist l := by
  cases l with
  | nil => exact List.Sublist.refl _
  | cons a rest => rw [keepNew_cons]; exact fresh_sublist _ _

theorem sweep_length (l : List Iv) : (sweep l).length = l.length := by
  have := congrArg List.length (sweep_starts l)
  simpa using this

/-- A pass of the `while` loop leaves fewer rows. -/
theorem keepNew_sweep_length {l : List Iv} (h : overlaps l = true) : (keepNew (sweep l)).length < l.length := by
  have hne := sweep_equal_ends h
  rw [← sweep_length l]
  cases hs : sweep l with
  | nil => rw [hs] at hne; exact absurd .nil hne
  | cons a rest =>
    rw [hs] at hne
    rw [keepNew_cons]
    refine lt_of_le_of_ne (fresh_sublist _ _).length_le (fun heq => hne (fresh_length heq))

/-! ### The whole loop -/

theorem mergeLoop_ends (n : ℕ) (l : List Iv) (h : l.length ≤ n) : mergeLoop n l ≠ .outOfFuel := by
  induction n generalizing l with
  | zero => rw [mergeLoop, if_pos (by omega)]; simp
  | succ n ih =>
    rw [mergeLoop]
    split
    · simp
    · split
      · rename_i ho
        exact ih _ (by have := keepNew_sweep_length ho; omega)
      · simp

theorem mergeLoop_nil (n : ℕ) : mergeLoop n [] = .valueError := by
  cases n <;> rfl

theorem ordered_of {l : List Iv} (hs : ByStart l) (hf : Forward l) (ho : overlaps l = false) : Ordered l := by
  have hc := (not_overlaps l).1 ho
  induction l with
  | nil => exact List.Pairwise.nil
  | cons a l ih =>
    cases l with
    | nil => exact List.pairwise_singleton _ _
    | cons b l =>
      have hc' := List.isChain_cons_cons.1 hc
      refine List.pairwise_cons.2 ⟨fun x hx => ⟨(List.pairwise_cons.1 hs).1 x hx, ?_⟩, ?_⟩
      · rcases List.mem_cons.1 hx with rfl | hm
        · exact hc'.1
        · exact le_trans hc'.1 ((List.pairwise_cons.1 (List.pairwise_cons.1 hs).2).1 x hm)
      · refine ih (List.pairwise_cons.1 hs).2 (fun d hd => hf d (List.mem_cons_of_mem _ hd)) ?_ hc'.2
        exact (not_overlaps _).2 hc'.2

theorem mergeLoop_ok {n : ℕ} {l r : List Iv} (hs : ByStart l) (hf : Forward l) (h : mergeLoop n l = .ok r) :
    Ordered r ∧ Forward r ∧ ∀ t, Closed r t ↔ Closed l t := by
  induction n generalizing l with
  | zero =>
    rw [mergeLoop] at h
    split at h
    · cases h
    · split at h
      · cases h
      · rename_i ho
        cases h
        exact ⟨ordered_of hs hf (by simpa using ho), hf, fun t => Iff.rfl⟩
  | succ n ih =>
    rw [mergeLoop] at h
    split at h
    · cases h
    · split at h
      · have hne : keepNew (sweep l) ≠ [] := by
          intro he; rw [he, mergeLoop_nil] at h; cases h
        have hsub := keepNew_sublist (sweep l)
        have hs' := sweep_byStart hs
        have hf' := sweep_forward hf
        obtain ⟨h1, h2, h3⟩ := ih (hs'.sublist hsub) (fun d hd => hf' d (hsub.subset hd)) h
        refine ⟨h1, h2, fun t => ?_⟩
        rw [h3, keepNew_closed hs' (sweep_ends hf) hne, sweep_closed hs]
      · rename_i ho
        cases h
        exact ⟨ordered_of hs hf (by simpa using ho), hf, fun t => Iff.rfl⟩

/-! ### A gap prevents the error -/

/-- Every row is before or after `T`. -/
def Sided (T : ℚ) (l : List Iv) : Prop := ∀ d ∈ l, d.2 ≤ T ∨ T ≤ d.1

theorem sweep_sided {T : ℚ} {l : List Iv} (hs : ByStart l) (h : Sided T l) : Sided T (sweep l) := by
  induction l using sweep.induct with
  | case1 a b rest hlt ih =>
    rw [sweep, if_pos hlt]
    have hab : a.1 ≤ b.1 := (List.pairwise_cons.1 hs).1 b (by simp)
    have ha := h a (by simp)
    have hb := h b (by simp)
    have he : (max a.2 b.2 ≤ T) ∨ (T ≤ a.1) := by
      rcases ha with ha | ha
      · rcases hb with hb | hb
        · exact .inl (max_le ha hb)
        · exact absurd hlt (by linarith)
      · exact .inr ha
    intro d hd
    rcases List.mem_cons.1 hd with rfl | hd
    · exact he
    · refine ih (byStart_setEnd _ hs) ?_ d hd
      intro d hd
      rcases List.mem_cons.1 hd with rfl | hd
      · rcases he with he | he
        · exact .inl he
        · exact .inr (le_trans he hab)
      · exact h d (by simp [hd])
  | case2 a b rest hlt ih =>
    rw [sweep, if_neg hlt]
    intro d hd
    rcases List.mem_cons.1 hd with rfl | hd
    · exact h d (by simp)
    · exact ih (List.pairwise_cons.1 hs).2 (fun d hd => h d (List.mem_cons_of_mem _ hd)) d hd
  | case3 l hl => rw [sweep]; exacts [h, hl]

theorem keepNew_ne_nil {T x y : ℚ} {l : List Iv} (hT : Sided T l) (hx : x < T) (hy : T ≤ y)
    (hcx : Closed l x) (hcy : Closed l y) (hc : l.IsChain (fun a b => a.2 ≤ b.2)) : keepNew l ≠ [] := by
  obtain ⟨d, hd, hd1, hd2⟩ := hcx
  obtain ⟨e, he, he1, he2⟩ := hcy
  have hdT : d.2 ≤ T := by
    rcases hT d hd with h | h
    · exact h
    · linarith
  cases l with
  | nil => cases hd
  | cons a rest =>
    rw [keepNew_cons]
    have hp := endsPairwise hc
    set z := (a :: rest).getLast (by simp) with hz
    have h1 : a.2 ≤ d.2 := by
      rcases List.mem_cons.1 hd with rfl | hm
      · exact le_rfl
      · exact (List.pairwise_cons.1 hp).1 d hm
    have h2 : e.2 ≤ z.2 := by
      have hsplit := List.dropLast_append_getLast (l := a :: rest) (by simp)
      rw [← hz] at hsplit
      rw [← hsplit] at he hp
      rcases List.mem_append.1 he with hm | hm
      · exact (List.pairwise_append.1 hp).2.2 e hm z (by simp)
      · rw [List.mem_singleton.1 hm]
    rw [fresh, if_pos (by intro h; linarith)]
    simp

theorem mergeLoop_gap {n : ℕ} {l : List Iv} {T x y : ℚ} (hs : ByStart l) (hf : Forward l)
    (hT : Sided T l) (hx : x < T) (hy : T ≤ y) (hcx : Closed l x) (hcy : Closed l y) :
    mergeLoop n l ≠ .valueError := by
  have two : ∀ l : List Iv, Sided T l → Closed l x → Closed l y → ¬ l.length < 2 := by
    rintro l hT ⟨d, hd, hd1, hd2⟩ ⟨e, he, he1, he2⟩ hlen
    match l, hlen with
    | [], _ => cases hd
    | [a], _ =>
      rw [List.mem_singleton] at hd he
      subst hd; subst he
      rcases hT _ (List.mem_singleton.2 rfl) with h | h <;> linarith
  induction n generalizing l with
  | zero =>
    rw [mergeLoop, if_neg (two l hT hcx hcy)]
    split <;> simp
  | succ n ih =>
    rw [mergeLoop, if_neg (two l hT hcx hcy)]
    split
    · have hs' := sweep_byStart hs
      have hf' := sweep_forward hf
      have hT' := sweep_sided hs hT
      have hc := sweep_ends hf
      have hne := keepNew_ne_nil hT' hx hy ((sweep_closed hs x).2 hcx) ((sweep_closed hs y).2 hcy) hc
      have hsub := keepNew_sublist (sweep l)
      exact ih (hs'.sublist hsub) (fun d hd => hf' d (hsub.subset hd)) (fun d hd => hT' d (hsub.subset hd))
        ((keepNew_closed hs' hc hne x).2 ((sweep_closed hs x).2 hcx))
        ((keepNew_closed hs' hc hne y).2 ((sweep_closed hs y).2 hcy))
    · simp

/-! ### Sorting -/

theorem sortIv_perm (l : List Iv) : (sortIv l).Perm l := List.perm_insertionSort _ l

theorem sortIv_byStart (l : List Iv) : ByStart (sortIv l) := by
  let r : Iv → Iv → Prop := fun a b => a.1 < b.1 ∨ (a.1 = b.1 ∧ a.2 ≤ b.2)
  have : Std.Total r := ⟨fun a b => by
    rcases lt_trichotomy a.1 b.1 with h | h | h
    · exact .inl (.inl h)
    · rcases le_total a.2 b.2 with h2 | h2
      · exact .inl (.inr ⟨h, h2⟩)
      · exact .inr (.inr ⟨h.symm, h2⟩)
    · exact .inr (.inl h)⟩
  have : IsTrans Iv r := ⟨fun a b c h1 h2 => by
    rcases h1 with h1 | h1 <;> rcases h2 with h2 | h2
    · exact .inl (lt_trans h1 h2)
    · exact .inl (h2.1 ▸ h1)
    · exact .inl (h1.1 ▸ h2)
    · exact .inr ⟨h1.1.trans h2.1, le_trans h1.2 h2.2⟩⟩
  have h : (sortIv l).Pairwise r := List.pairwise_insertionSort r l
  exact h.imp (fun {a b} hab => by
    rcases hab with h | h
    · exact le_of_lt h
    · exact le_of_eq h.1)

theorem closed_perm {l l' : List Iv} (h : l.Perm l') (t : ℚ) : Closed l t ↔ Closed l' t := by
  unfold Closed
  constructor
  · rintro ⟨d, hd, h1⟩; exact ⟨d, h.mem_iff.1 hd, h1⟩
  · rintro ⟨d, hd, h1⟩; exact ⟨d, h.mem_iff.2 hd, h1⟩

/-! ### Random downtimes -/

theorem turn_span (cl : Classes) (night0 : ℚ) (night : ℕ) (r : Rng) (d : Iv)
    (h : (turn cl night0 night r).1 = some d) :
    d.1 = night0 + night ∧ d.1 ≤ d.2 ∧ d.2 + 1 ≤ night0 + ((turn cl night0 night r).2.1 : ℕ) := by
  unfold turn at h ⊢
  dsimp only at h ⊢
  have key : ∀ k m : ℕ, k + 1 ≤ m → (night0 + night, night0 + night + (k : ℚ)) = d →
      d.1 = night0 + night ∧ d.1 ≤ d.2 ∧ d.2 + 1 ≤ night0 + ((night + m : ℕ) : ℚ) := by
    intro k m hkm hd
    subst hd
    have h1 : (0 : ℚ) ≤ k := Nat.cast_nonneg k
    have h2 : (k : ℚ) + 1 ≤ m := by exact_mod_cast hkm
    refine ⟨rfl, by dsimp only; linarith, ?_⟩
    push_cast
    linarith
  split at h
  · rename_i h0; rw [if_pos h0]; exact key _ _ le_rfl (Option.some.inj h)
  · rename_i h0; rw [if_neg h0]
    split at h
    · rename_i h1; rw [if_pos h1]; exact key _ _ le_rfl (Option.some.inj h)
    · rename_i h1; rw [if_neg h1]
      split at h
      · rename_i h2; rw [if_pos h2]; exact key _ _ le_rfl (Option.some.inj h)
      · rename_i h2; rw [if_neg h2]
        split at h
        · rename_i h3; rw [if_pos h3]
          exact key _ (cl.minor.len + 1 + 1) (by omega) (Option.some.inj h)
        · cases h

theorem makeData_spec (cl : Classes) (night0 : ℚ) (n night : ℕ) (r : Rng) :
    (∀ d ∈ makeData cl night0 n night r, night0 + night ≤ d.1 ∧ d.1 ≤ d.2 ∧ d.1 < night0 + n) ∧
    (makeData cl night0 n night r).Pairwise (fun a b => a.2 + 1 ≤ b.1) := by
  induction night, r using makeData.induct cl night0 n with
  | case1 night r hlt t ih =>
    have hadv := turn_advances cl night0 night r
    have hadv' : (night : ℚ) < ((turn cl night0 night r).2.1 : ℕ) := by exact_mod_cast hadv
    have hlt' : (night : ℚ) < n := by exact_mod_cast hlt
    rw [makeData, dif_pos hlt]
    dsimp only
    cases h : (turn cl night0 night r).1 with
    | none =>
      simp only [Option.toList_none, List.nil_append]
      refine ⟨fun d hd => ?_, ih.2⟩
      have := ih.1 d hd
      exact ⟨by linarith [this.1], this.2⟩
    | some d =>
      have hs := turn_span cl night0 night r d h
      simp only [Option.toList_some, List.singleton_append]
      refine ⟨fun e he => ?_, List.pairwise_cons.2 ⟨fun e he => ?_, ih.2⟩⟩
      · rcases List.mem_cons.1 he with rfl | he
        · exact ⟨le_of_eq hs.1.symm, hs.2.1, by linarith [hs.1]⟩
        · have := ih.1 e he
          exact ⟨by linarith [this.1], this.2⟩
      · have := (ih.1 e he).1
        linarith [hs.2.2]
  | case2 night r hlt =>
    rw [makeData, dif_neg hlt]
    exact ⟨by simp, List.Pairwise.nil⟩

end Verif.Down
