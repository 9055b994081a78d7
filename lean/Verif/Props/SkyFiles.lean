import Verif.Model.SkyFiles
import Mathlib.Data.List.TakeWhile
import Verif.Props.DayObs

/-! C197: which file of sky brightness is read. -/

namespace Verif

open Skf
open Dobs (decimal)

/-- The name of a file of maps from day `a` to day `b`: `a_b.h5`. -/
def skyName (a b : ℕ) : List ℕ := (decimal a).map (48 + ·) ++ 95 :: ((decimal b).map (48 + ·) ++ [46, 104, 53])

theorem value_codes (l : List ℕ) : value (l.map (48 + ·)) = digitValue l := by
  unfold value digitValue
  rw [List.foldl_map]
  congr 1
  funext a c
  omega

theorem decimal_ne_nil (n : ℕ) : decimal n ≠ [] := by
  unfold decimal
  by_cases h : n = 0
  · rw [if_pos h]; simp
  · rw [if_neg h]
    simpa using Nat.digits_ne_nil_iff_ne_zero.2 h

theorem dropExt_other {c : ℕ} (l : List ℕ) (h : c ≠ 46) : dropExt (c :: l) = c :: dropExt l := by
  rw [dropExt.eq_def]
  split
  · rename_i e
    exact absurd (List.cons.inj e).1 h
  · rename_i e
    obtain ⟨rfl, rfl⟩ := List.cons.inj e
    rfl
  · rename_i e; cases e

theorem dropExt_app (l k : List ℕ) (h : ∀ c ∈ l, c ≠ 46) : dropExt (l ++ k) = l ++ dropExt k := by
  induction l with
  | nil => rfl
  | cons c l ih =>
    rw [List.cons_append, dropExt_other _ (h c (by simp)), ih fun x hx => h x (List.mem_cons_of_mem _ hx)]
    rfl

theorem fields_one (l : List ℕ) (h : ∀ c ∈ l, c ≠ 95) : fields l = [l] := by
  induction l with
  | nil => rfl
  | cons c l ih =>
    unfold fields
    rw [if_neg (h c (by simp)), ih fun x hx => h x (List.mem_cons_of_mem _ hx)]
    rfl

theorem fields_two (l k : List ℕ) (hl : ∀ c ∈ l, c ≠ 95) : fields (l ++ 95 :: k) = l :: fields k := by
  induction l with
  | nil =>
    show fields (95 :: k) = _
    rw [fields, if_pos rfl]
  | cons c l ih =>
    rw [List.cons_append, fields, if_neg (hl c (by simp)), ih fun x hx => hl x (List.mem_cons_of_mem _ hx)]
    rfl

theorem codes_digit {l : List ℕ} (h : ∀ d ∈ l, d < 10) : ∀ c ∈ l.map (48 + ·), 48 ≤ c ∧ c ≤ 57 := by
  intro c hc
  obtain ⟨d, hd, rfl⟩ := List.mem_map.1 hc
  have := h d hd
  omega

theorem number_codes (n : ℕ) : number ((decimal n).map (48 + ·)) = some (n : ℚ) := by
  obtain ⟨h1, h2, _⟩ := decimal_spec n
  have hc := codes_digit h1
  have hw : ((decimal n).map (48 + ·)).takeWhile (fun c => decide (c ≠ 46)) = (decimal n).map (48 + ·) := by
    rw [List.takeWhile_eq_self_iff]
    intro c hx
    have := hc c hx
    simp; omega
  have hf : ((decimal n).map (48 + ·)).dropWhile (fun c => decide (c ≠ 46)) = [] := by
    rw [List.dropWhile_eq_nil_iff]
    intro c hx
    have := hc c hx
    simp; omega
  unfold number
  rw [hw, hf]
  dsimp only [List.tail_nil]
  rw [List.append_nil, if_pos]
  · rw [value_codes, h2]
    simp [value]
  · have hne := decimal_ne_nil n
    rw [Bool.and_eq_true]
    constructor
    · rw [List.all_eq_true]
      intro c hx
      have := hc c hx
      simp [isDigit]; omega
    · simpa using hne

/-- C197: the range of a file is the days in its name. -/
theorem C197_range (a b : ℕ) : parse (skyName a b) = some ((a : ℚ), (b : ℚ)) := by
  have ha := codes_digit (decimal_spec a).1
  have hb := codes_digit (decimal_spec b).1
  unfold parse skyName
  rw [dropExt_app _ _ (fun c hc => by have := ha c hc; omega), dropExt_other _ (by norm_num),
    dropExt_app _ _ (fun c hc => by have := hb c hc; omega), show dropExt [46, 104, 53] = [] from rfl, List.append_nil,
    fields_two _ _ (fun c hc => by have := ha c hc; omega), fields_one _ (fun c hc => by have := hb c hc; omega)]
  show (match number ((decimal a).map (48 + ·)), number ((decimal b).map (48 + ·)) with
    | some x, some y => some (x, y)
    | _, _ => none) = _
  rw [number_codes, number_codes]

theorem codes_lt {l k : List ℕ} (hlen : l.length = k.length) (x y : List ℕ) (h : l < k) :
    l.map (48 + ·) ++ x < k.map (48 + ·) ++ y := by
  induction l generalizing k with
  | nil =>
    cases k with
    | nil => exact absurd h (lt_irrefl _)
    | cons _ _ => simp at hlen
  | cons a l ih =>
    cases k with
    | nil => simp at hlen
    | cons b k =>
      rw [List.map_cons, List.map_cons, List.cons_append, List.cons_append, List.cons_lt_cons_iff]
      rw [List.cons_lt_cons_iff] at h
      rcases h with h | ⟨h, h'⟩
      · left; omega
      · right; exact ⟨by omega, ih (by simpa using hlen) h'⟩

theorem mapM_each {α β : Type} (f : α → Option β) (g : α → β) (l : List α) (h : ∀ x ∈ l, f x = some (g x)) : l.mapM f = some (l.map g) := by
  induction l with
  | nil => rfl
  | cons x l ih =>
    rw [List.mapM_cons, h x (by simp), ih fun y hy => h y (List.mem_cons_of_mem _ hy)]
    rfl

theorem mem_names {found : List (List ℕ)} {n : List ℕ} : n ∈ names found ↔ n ∈ found := (List.perm_insertionSort _ _).mem_iff

theorem names_sorted (found : List (List ℕ)) : (names found).Pairwise (· ≤ ·) := List.pairwise_insertionSort _ _

/-- The last element of a list in order comes after all others. -/
theorem last_after {α : Type} {R : α → α → Prop} (hr : ∀ x, R x x) {l : List α} (h : l.Pairwise R) {x : α} (hx : l.getLast? = some x) :
    ∀ y ∈ l, R y x := by
  obtain ⟨k, rfl⟩ := List.getLast?_eq_some_iff.1 hx
  intro y hy
  rcases List.mem_append.1 hy with hy | hy
  · exact (List.pairwise_append.1 h).2.2 y hy x (by simp)
  · rw [List.mem_singleton.1 hy]; exact hr x

/-- What a file of given days holds, with the range of its name. -/
def skyFile (content : List ℕ → Skb.File) (a b : ℕ) : Skb.File := { content (skyName a b) with left := a, right := b }

/-- C197, part: for first days with the same number of digits.  Whatever the order in which the directory lists the files, a time is
read from a file whose days cover it, the one of these that begins last; there is none exactly when no file covers it. -/
theorem C197_choice_partial (content : List ℕ → Skb.File) (found : List (List ℕ)) (w : ℕ)
    (h : ∀ n ∈ found, ∃ a b, n = skyName a b ∧ (decimal a).length = w) :
    ∃ files, setup content found = some files ∧ ∀ t : ℚ,
      (Skb.bestFile files t = none ↔ ∀ a b : ℕ, skyName a b ∈ found → ¬ ((a : ℚ) ≤ t ∧ t ≤ b)) ∧
      ∀ f, Skb.bestFile files t = some f → ∃ a b : ℕ, skyName a b ∈ found ∧ f = skyFile content a b ∧ (a : ℚ) ≤ t ∧ t ≤ b ∧
        ∀ a' b' : ℕ, skyName a' b' ∈ found → (a' : ℚ) ≤ t → t ≤ b' → a' ≤ a := by
  set g : List ℕ → Skb.File := fun n => { content n with left := ((parse n).getD (0, 0)).1, right := ((parse n).getD (0, 0)).2 } with hg
  have hgn : ∀ a b, g (skyName a b) = skyFile content a b := by
    intro a b
    rw [hg]
    dsimp only
    rw [C197_range]
    rfl
  have hs : setup content found = some ((names found).map g) := by
    unfold setup
    refine mapM_each _ g _ ?_
    intro n hn
    obtain ⟨a, b, rfl, _⟩ := h n (mem_names.1 hn)
    rw [hgn]
    unfold entry
    rw [C197_range]
    rfl
  refine ⟨_, hs, fun t => ?_⟩
  have hb : Skb.bestFile ((names found).map g) t =
      (((names found).filter (fun n => decide ((g n).left ≤ t) && decide (t ≤ (g n).right))).getLast?).map g := by
    unfold Skb.bestFile
    rw [List.filter_map, List.getLast?_map]
    rfl
  have hin : ∀ a b : ℕ, skyName a b ∈ (names found).filter (fun n => decide ((g n).left ≤ t) && decide (t ≤ (g n).right)) ↔
      skyName a b ∈ found ∧ (a : ℚ) ≤ t ∧ t ≤ b := by
    intro a b
    rw [List.mem_filter, mem_names]
    simp only [hgn, skyFile, Bool.and_eq_true, decide_eq_true_eq]
  rw [hb]
  constructor
  · rw [Option.map_eq_none_iff, List.getLast?_eq_none_iff, List.eq_nil_iff_forall_not_mem]
    constructor
    · intro hn a b hab hc
      exact hn _ ((hin a b).2 ⟨hab, hc⟩)
    · intro hn n hmem
      obtain ⟨a, b, rfl, _⟩ := h n (mem_names.1 (List.mem_filter.1 hmem).1)
      have := (hin a b).1 hmem
      exact hn a b this.1 this.2
  · intro f hf
    obtain ⟨n, hn, rfl⟩ := Option.map_eq_some_iff.1 hf
    have hmem := List.mem_of_getLast? hn
    obtain ⟨a, b, rfl, hlen⟩ := h n (mem_names.1 (List.mem_filter.1 hmem).1)
    obtain ⟨h1, h2, h3⟩ := (hin a b).1 hmem
    refine ⟨a, b, h1, hgn a b, h2, h3, fun a' b' h1' h2' h3' => ?_⟩
    have hle := last_after (fun x => le_refl x) ((names_sorted found).filter _) hn _ ((hin a' b').2 ⟨h1', h2', h3'⟩)
    obtain ⟨a'', b'', e, hlen'⟩ := h _ h1'
    have ha : a' = a'' := by
      have e1 := C197_range a' b'
      rw [e, C197_range] at e1
      have := (Prod.mk.inj (Option.some.inj e1)).1
      exact_mod_cast this.symm
    by_contra hlt
    have hd : decimal a < decimal a' := by
      rw [digits_order (decimal_spec a).1 (decimal_spec a').1 (by rw [hlen, ha, hlen'])]
      rw [(decimal_spec a).2.1, (decimal_spec a').2.1]
      omega
    have := codes_lt (by rw [hlen, ha, hlen']) (95 :: ((decimal b).map (48 + ·) ++ [46, 104, 53]))
      (95 :: ((decimal b').map (48 + ·) ++ [46, 104, 53])) hd
    exact absurd hle (not_le.2 this)

/-- The hypothesis can be met: three files of half a year that overlap, found out of order. -/
example : ∀ n ∈ [skyName 60980 61170, skyName 60796 60985, skyName 61160 61350], ∃ a b, n = skyName a b ∧ (decimal a).length = 5 := by
  intro n hn
  simp only [List.mem_cons, List.not_mem_nil, or_false] at hn
  rcases hn with rfl | rfl | rfl <;> exact ⟨_, _, rfl, by simp [decimal]⟩

/-- C197 fails when the number of digits changes: of two files that cover a time the one that begins first is read. -/
theorem C197_digits_violated (content : List ℕ → Skb.File) : ∃ files, setup content [skyName 99900 100100, skyName 100050 100300] = some files ∧
    Skb.bestFile files 100075 = some (skyFile content 99900 100100) := by
  refine ⟨[skyFile content 100050 100300, skyFile content 99900 100100], ?_, ?_⟩
  · have hn : names [skyName 99900 100100, skyName 100050 100300] = [skyName 100050 100300, skyName 99900 100100] := by
      have : ¬ (skyName 99900 100100 ≤ skyName 100050 100300) := by
        rw [not_le]
        simp only [skyName, decimal]
        norm_num [List.cons_lt_cons_iff]
      unfold names
      simp [List.insertionSort, List.orderedInsert, this]
    unfold setup
    rw [hn]
    simp only [List.mapM_cons, List.mapM_nil, entry, C197_range]
    rfl
  · unfold Skb.bestFile
    rw [List.filter_cons_of_pos, List.filter_cons_of_pos]
    · rfl
    · simp only [skyFile, Bool.and_eq_true, decide_eq_true_eq]; norm_num
    · simp only [skyFile, Bool.and_eq_true, decide_eq_true_eq]; norm_num

/-- C197 fails in the presence of any other `.h5` file: nothing is read at all. -/
theorem C197_other_violated (content : List ℕ → Skb.File) (found : List (List ℕ)) {n : List ℕ} (h : n ∈ found) (hn : 95 ∉ n) :
    setup content found = none := by
  have hd : 95 ∉ dropExt n := by
    intro hc
    have : ∀ (l : List ℕ) c, c ∈ dropExt l → c ∈ l := by
      intro l
      induction l using dropExt.induct with
      | case1 l ih => intro c hc; rw [dropExt] at hc; simp [ih c hc]
      | case2 x l hx ih =>
        intro c hc
        rw [dropExt] at hc
        · rcases List.mem_cons.1 hc with rfl | hc
          · simp
          · simp [ih c hc]
        · exact hx
      | case3 => intro c hc; simp [dropExt] at hc
    exact hn (this n 95 hc)
  have he : entry content n = none := by
    unfold entry parse
    rw [fields_one _ (fun c hc e => hd (e ▸ hc))]
    rfl
  unfold setup
  have hm := mem_names.2 h
  generalize names found = L at hm
  induction L with
  | nil => simp at hm
  | cons x L ih =>
    rw [List.mapM_cons]
    rcases List.mem_cons.1 hm with rfl | hm
    · rw [he]; rfl
    · rcases entry content x with _ | y
      · rfl
      · rw [ih hm]; rfl

example : setup (fun _ => ⟨0, 0, [], 0, fun _ _ => .nan⟩) [skyName 60796 60985, [100, 97, 114, 107, 46, 104, 53]] = none :=
  C197_other_violated _ _ (List.mem_cons_of_mem _ List.mem_cons_self) (by decide)

end Verif
