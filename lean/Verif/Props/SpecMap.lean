import Verif.Model.SpecMap

/-!
Property C227: which file a map of spectra gives for a name.
-/

namespace Verif

open Spm

/-- A name without white space at its ends. -/
def Bare (L : Lang) (s : Str) : Prop := (∀ c, s.head? = some c → L.ws c = false) ∧ ∀ c, s.getLast? = some c → L.ws c = false

/-- `r` is `s` without white space at its ends. -/
def StrippedTo (L : Lang) (s r : Str) : Prop := Bare L r ∧ ∃ a b, s = a ++ r ++ b ∧ (∀ c ∈ a, L.ws c = true) ∧ ∀ c ∈ b, L.ws c = true

theorem takeWhile_all (p : Char → Bool) (s : Str) : ∀ c ∈ s.takeWhile p, p c = true := by
  have := List.all_takeWhile (p := p) (l := s)
  rwa [List.all_eq_true] at this

theorem dropWhile_split (p : Char → Bool) (s : Str) : ∃ a, s = a ++ s.dropWhile p ∧ (∀ c ∈ a, p c = true) ∧ ∀ c, (s.dropWhile p).head? = some c → p c = false := by
  refine ⟨s.takeWhile p, List.takeWhile_append_dropWhile.symm, fun c hc => takeWhile_all p s c hc, fun c hc => ?_⟩
  have := List.head?_dropWhile_not p s
  rw [hc] at this
  simpa using this

theorem strip_spec (L : Lang) (s : Str) : StrippedTo L s (strip L s) := by
  obtain ⟨a, ha, hw, hh⟩ := dropWhile_split L.ws s
  obtain ⟨b, hb, hwb, hhb⟩ := dropWhile_split L.ws (s.dropWhile L.ws).reverse
  have e : s.dropWhile L.ws = strip L s ++ b.reverse := by
    have := congrArg List.reverse hb
    rw [List.reverse_reverse, List.reverse_append] at this
    exact this
  refine ⟨⟨fun c hc => hh c ?_, fun c hc => hhb c ?_⟩, a, b.reverse, ?_, hw, fun c hc => hwb c (List.mem_reverse.1 hc)⟩
  · rw [e]
    cases hs : strip L s with
    | nil => rw [hs] at hc; cases hc
    | cons x r => rw [hs] at hc; exact hc
  · unfold strip at hc
    rwa [List.getLast?_reverse] at hc
  · rw [List.append_assoc, ← e, ← ha]

theorem strip_bare (L : Lang) (s : Str) (h : Bare L s) : strip L s = s := by
  have h1 : s.dropWhile L.ws = s := by
    cases s with
    | nil => rfl
    | cons x r => rw [List.dropWhile_cons_of_neg (by rw [h.1 x rfl]; exact Bool.false_ne_true)]
  unfold strip
  rw [h1]
  have h2 : s.reverse.dropWhile L.ws = s.reverse := by
    cases hr : s.reverse with
    | nil => rfl
    | cons x r =>
      have : s.getLast? = some x := by rw [← List.head?_reverse, hr]; rfl
      rw [List.dropWhile_cons_of_neg (by rw [h.2 x this]; exact Bool.false_ne_true)]
  rw [h2, List.reverse_reverse]

theorem dropWhile_all {p : Char → Bool} {a : Str} (h : ∀ c ∈ a, p c = true) (s : Str) : (a ++ s).dropWhile p = s.dropWhile p := by
  induction a with
  | nil => rfl
  | cons x r ih =>
    rw [List.cons_append, List.dropWhile_cons_of_pos (h x List.mem_cons_self)]
    exact ih fun c hc => h c (List.mem_cons_of_mem _ hc)

/-- There is one way of taking the blanks away. -/
theorem strip_unique {L : Lang} {s r : Str} (h : StrippedTo L s r) : strip L s = r := by
  obtain ⟨hb, a, b, rfl, ha, hbb⟩ := h
  have e : strip L (a ++ r ++ b) = (((r ++ b).dropWhile L.ws).reverse.dropWhile L.ws).reverse := by
    unfold strip
    rw [List.append_assoc, dropWhile_all ha]
  have hbr : ∀ c ∈ b.reverse, L.ws c = true := fun c hc => hbb c (List.mem_reverse.1 hc)
  rw [e]
  cases r with
  | nil =>
    have := dropWhile_all hbb []
    rw [List.append_nil] at this
    rw [List.nil_append, this]
    rfl
  | cons x r =>
    have h1 : ((x :: r) ++ b).dropWhile L.ws = (x :: r) ++ b := by
      rw [List.cons_append, List.dropWhile_cons_of_neg (by rw [hb.1 x rfl]; exact Bool.false_ne_true)]
    rw [h1, List.reverse_append, dropWhile_all hbr]
    have h2 := strip_bare L (x :: r) hb
    unfold strip at h2
    rwa [List.dropWhile_cons_of_neg (by rw [hb.1 x rfl]; exact Bool.false_ne_true)] at h2

/-- Different keys. -/
def Keys (d : List (Str × Str)) : Prop := (d.map Prod.fst).Nodup

theorem get_some_iff {d : List (Str × Str)} (hd : Keys d) (k v : Str) : Spm.get k d = some v ↔ (k, v) ∈ d := by
  induction d with
  | nil => simp [Spm.get]
  | cons p r ih =>
    obtain ⟨k', v'⟩ := p
    have hd' := List.nodup_cons.1 hd
    unfold Spm.get at ih ⊢
    by_cases h : k' = k
    · subst h
      rw [List.find?_cons_of_pos (by simp)]
      constructor
      · intro e
        cases e
        exact List.mem_cons_self
      · intro hm
        rcases List.mem_cons.1 hm with e | hm
        · cases e; rfl
        · exact absurd (List.mem_map_of_mem (f := Prod.fst) hm) hd'.1
    · rw [List.find?_cons_of_neg (by simpa using h), ih hd'.2]
      constructor
      · exact fun hm => List.mem_cons_of_mem _ hm
      · intro hm
        rcases List.mem_cons.1 hm with e | hm
        · cases e; exact absurd rfl h
        · exact hm

theorem get_none_iff (d : List (Str × Str)) (k : Str) : Spm.get k d = none ↔ ∀ v, (k, v) ∉ d := by
  unfold Spm.get
  rw [Option.map_eq_none_iff, List.find?_eq_none]
  constructor
  · intro h v hm
    exact h _ hm (by simp)
  · rintro h ⟨k', v⟩ hm e
    have e : k' = k := of_decide_eq_true e
    exact h v (e ▸ hm)

/-- Of the patterns that match, the first in the order of the alphabet. -/
def FirstMatch (L : Lang) (d : List (Str × Str)) (s dir : Str) : Prop :=
  ∃ pat, (pat, dir) ∈ d ∧ L.re pat s = true ∧ ∀ q ∈ d, L.re q.1 s = true → pat ≤ q.1

theorem search_some (L : Lang) (d : List (Str × Str)) (s p : Str) (h : search L d s = some p) : ∃ dir, FirstMatch L d s dir ∧ p = join dir (full s) := by
  unfold search at h
  obtain ⟨⟨pat, dir⟩, hq, rfl⟩ := Option.map_eq_some_iff.1 h
  obtain ⟨hm, as, bs, hs, has⟩ := List.find?_eq_some_iff_append.1 hq
  have hmem : ∀ x, x ∈ sorted d ↔ x ∈ d := fun x => List.mem_insertionSort _
  refine ⟨dir, ⟨pat, (hmem _).1 (hs ▸ by simp), hm, ?_⟩, rfl⟩
  intro q hqd hqm
  have hp : (sorted d).Pairwise before := by
    have : Std.Total before := ⟨fun a b => List.le_total a.1 b.1⟩
    have : IsTrans _ before := ⟨fun a b c => List.le_trans⟩
    exact List.pairwise_insertionSort before d
  have hqs := (hmem q).2 hqd
  rw [hs] at hqs hp
  rcases List.mem_append.1 hqs with hq1 | hq1
  · have := has q hq1
    rw [hqm] at this
    cases this
  · rcases List.mem_cons.1 hq1 with rfl | hq2
    · exact List.le_refl _
    · exact (List.pairwise_cons.1 (List.pairwise_append.1 hp).2.1).1 q hq2

theorem search_none (L : Lang) (d : List (Str × Str)) (s : Str) : search L d s = none ↔ ∀ q ∈ d, L.re q.1 s = false := by
  unfold search
  rw [Option.map_eq_none_iff, List.find?_eq_none]
  constructor
  · intro h q hq
    have := h q ((List.mem_insertionSort _).2 hq)
    simpa using this
  · intro h q hq
    rw [h q ((List.mem_insertionSort _).1 hq)]
    exact Bool.false_ne_true

/-- C227: the file for a name, without the blanks around it, is the one listed for the name; if the name is not listed, the name with the ending `.gz` in the directory
of the first of the map's own patterns that matches it; if none does, in that of the first of the common patterns that does; and only if none of those
does either is the name refused. -/
theorem C227_lookup (L : Lang) (subdirs : List (Str × Str)) (m : Map) (hf : Keys m.files) (item : Str) : ∃ s, StrippedTo L item s ∧
    (∀ p, (s, p) ∈ m.files → m.lookup L subdirs item = some p) ∧
    ((∀ p, (s, p) ∉ m.files) → (∃ q ∈ m.dirs, L.re q.1 s = true) → ∃ dir, FirstMatch L m.dirs s dir ∧ m.lookup L subdirs item = some (join dir (full s))) ∧
    ((∀ p, (s, p) ∉ m.files) → (∀ q ∈ m.dirs, L.re q.1 s = false) → (∃ q ∈ subdirs, L.re q.1 s = true) →
      ∃ dir, FirstMatch L subdirs s dir ∧ m.lookup L subdirs item = some (join dir (full s))) ∧
    (m.lookup L subdirs item = none ↔ (∀ p, (s, p) ∉ m.files) ∧ (∀ q ∈ m.dirs, L.re q.1 s = false) ∧ ∀ q ∈ subdirs, L.re q.1 s = false) ∧
    (m.contains L subdirs item = true ↔ m.lookup L subdirs item ≠ none) := by
  refine ⟨strip L item, strip_spec L item, ?_, ?_, ?_, ?_, ?_⟩
  · intro p hp
    unfold Map.lookup
    rw [(get_some_iff hf _ _).2 hp]
  · rintro hn ⟨q, hq, hm⟩
    unfold Map.lookup
    rw [(get_none_iff _ _).2 hn]
    dsimp only
    cases hs : search L m.dirs (strip L item) with
    | none =>
      have := (search_none L _ _).1 hs q hq
      rw [hm] at this
      cases this
    | some p =>
      obtain ⟨dir, h1, h2⟩ := search_some L _ _ _ hs
      exact ⟨dir, h1, by rw [h2]⟩
  · rintro hn hd ⟨q, hq, hm⟩
    unfold Map.lookup
    rw [(get_none_iff _ _).2 hn]
    dsimp only
    rw [(search_none L _ _).2 hd]
    dsimp only
    cases hs : search L subdirs (strip L item) with
    | none =>
      have := (search_none L _ _).1 hs q hq
      rw [hm] at this
      cases this
    | some p =>
      obtain ⟨dir, h1, h2⟩ := search_some L _ _ _ hs
      exact ⟨dir, h1, by rw [h2]⟩
  · rw [← get_none_iff, ← search_none, ← search_none]
    unfold Map.lookup
    cases Spm.get (strip L item) m.files with
    | some p => simp
    | none =>
      cases search L m.dirs (strip L item) with
      | some p => simp
      | none => simp
  · unfold Map.contains
    exact Option.isSome_iff_ne_none

/-- The name of the file ends in `.gz` once. -/
theorem C227_compressed (s : Str) : gz <:+ full s ∧ (full s = s ∨ full s = s ++ gz) ∧ (gz <:+ s → full s = s) := by
  unfold full
  split_ifs with h
  · exact ⟨h, .inl rfl, fun _ => rfl⟩
  · exact ⟨List.suffix_append _ _, .inr rfl, fun h' => absurd h' h⟩

theorem get_spmPut (k v j : Str) (d : List (Str × Str)) : Spm.get j (Spm.put k v d) = if j = k then some v else Spm.get j d := by
  induction d with
  | nil =>
    unfold Spm.put Spm.get
    by_cases h : j = k
    · subst h; simp
    · rw [if_neg h, List.find?_cons_of_neg (by simpa using fun e : k = j => h e.symm)]
  | cons p r ih =>
    obtain ⟨k', v'⟩ := p
    unfold Spm.put
    by_cases hk : k' = k
    · rw [if_pos hk]
      subst hk
      unfold Spm.get
      by_cases h : j = k'
      · subst h; simp
      · rw [if_neg h, List.find?_cons_of_neg (by simpa using fun e : k' = j => h e.symm), List.find?_cons_of_neg (by simpa using fun e : k' = j => h e.symm)]
    · rw [if_neg hk]
      unfold Spm.get at ih ⊢
      by_cases h : k' = j
      · subst h
        rw [if_neg hk]
        simp
      · rw [List.find?_cons_of_neg (by simpa using h), List.find?_cons_of_neg (by simpa using h), ih]

/-- C227: what is set for a name without blanks around it is found under this name, with or without blanks around it, and names that differ by more than blanks
keep their files. -/
theorem C227_set_partial (L : Lang) (subdirs : List (Str × Str)) (m : Map) (k v item : Str) :
    (StrippedTo L item k → (m.set k v).lookup L subdirs item = some v) ∧
    (∀ s, StrippedTo L item s → s ≠ k → (m.set k v).lookup L subdirs item = m.lookup L subdirs item) := by
  constructor
  · intro h
    unfold Map.lookup Map.set
    dsimp only
    rw [strip_unique h, get_spmPut, if_pos rfl]
  · intro s h hne
    unfold Map.lookup Map.set
    dsimp only
    rw [strip_unique h, get_spmPut, if_neg hne]

/-- A language for the witnesses: blanks, and patterns that stand for their beginnings. -/
def plainLang : Lang := ⟨fun c => c == ' ', fun p s => p.isPrefixOf s⟩

/-- C227 fails for a name with blanks around it: what is set under it is not found under it, because blanks are taken away when a name is looked up but not when it
is set. -/
theorem C227_set_violated : ∃ m : Map, ∃ k v, (m.set k v).lookup plainLang [] k = none ∧ (m.set k v).contains plainLang [] k = false :=
  ⟨⟨[], []⟩, " A.dat".toList, "A.dat.gz".toList, by decide +kernel⟩

/-- Non-vacuity: a listed name, one for an own pattern that precedes the common one, one for a common pattern, and one that is refused. -/
example : let m : Map := ⟨[("A.dat".toList, "ssm/A.gz".toList)], [("lte".toList, "silly".toList), ("l".toList, "short".toList)]⟩
    let subs : List (Str × Str) := [("lte".toList, "star/mlt".toList), ("km".toList, "star/kurucz".toList)]
    Keys m.files ∧ m.lookup plainLang subs " A.dat ".toList = some "ssm/A.gz".toList ∧ m.lookup plainLang subs "lte1".toList = some "short/lte1.gz".toList ∧
    m.lookup plainLang subs "km1.gz".toList = some "star/kurucz/km1.gz".toList ∧ m.lookup plainLang subs "x".toList = none := by
  unfold Keys
  decide +kernel

end Verif
