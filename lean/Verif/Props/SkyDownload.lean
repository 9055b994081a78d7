import Verif.Model.SkyDownload

/-! C202: fetching the files of sky brightness. -/

namespace Verif

open Skd

/-- A link of the index page to a file of sky brightness: the tag is `a`, its first attribute
is `href` and the address ends in `.h5`. -/
def LinksTo (t : OpenTag) (f : String) : Prop :=
  t.name = "a" ∧ (∃ rest, t.attrs = ("href", some f) :: rest) ∧ ∃ stem : List Char, f.toList = stem ++ ".h5".toList

theorem isH5_iff (f : String) : isH5 f = true ↔ ∃ stem : List Char, f.toList = stem ++ ".h5".toList := by
  unfold isH5
  rw [List.isSuffixOf_iff_suffix]
  constructor
  · rintro ⟨s, h⟩; exact ⟨s, h.symm⟩
  · rintro ⟨s, h⟩; exact ⟨s, h.symm⟩

theorem handle_spec (files out : List String) (t : OpenTag) (h : handle files t = some out) (f : String) :
    f ∈ out ↔ f ∈ files ∨ LinksTo t f := by
  unfold handle at h
  by_cases ha : t.name = "a"
  · rw [if_pos ha] at h
    rcases hc : t.attrs with _ | ⟨⟨k, v⟩, rest⟩
    · rw [hc] at h; exact absurd h (by simp)
    · rw [hc] at h
      dsimp only at h
      by_cases hk : k = "href"
      · rw [if_pos hk] at h
        rcases v with _ | g
        · exact absurd h (by simp)
        · dsimp only at h
          by_cases hg : isH5 g = true
          · rw [if_pos hg] at h
            injection h with h
            subst h; subst hk
            rw [List.mem_append, List.mem_singleton]
            constructor
            · rintro (e | e)
              · exact Or.inl e
              · subst e; exact Or.inr ⟨ha, ⟨rest, hc⟩, (isH5_iff f).1 hg⟩
            · rintro (e | ⟨_, ⟨r, e⟩, _⟩)
              · exact Or.inl e
              · rw [hc] at e
                right
                simpa using (congrArg (fun l => l.head?) e).symm
          · rw [if_neg hg] at h
            injection h with h
            subst h; subst hk
            refine ⟨Or.inl, ?_⟩
            rintro (e | ⟨_, ⟨r, e⟩, hs⟩)
            · exact e
            · rw [hc] at e
              have : g = f := by simpa using congrArg (fun l => l.head?) e
              subst this
              exact absurd ((isH5_iff g).2 hs) hg
      · rw [if_neg hk] at h
        injection h with h
        subst h
        refine ⟨Or.inl, ?_⟩
        rintro (e | ⟨_, ⟨r, e⟩, _⟩)
        · exact e
        · rw [hc] at e
          have := congrArg (fun l => l.head?) e
          simp only [List.head?_cons, Option.some.injEq, Prod.mk.injEq] at this
          exact absurd this.1 hk
  · rw [if_neg ha] at h
    injection h with h
    subst h
    exact ⟨Or.inl, fun e => e.elim id (fun e => absurd e.1 ha)⟩

theorem handles_spec : ∀ (ts : List OpenTag) (files out : List String), ts.foldlM handle files = some out →
    ∀ f, f ∈ out ↔ f ∈ files ∨ ∃ t ∈ ts, LinksTo t f
  | [], files, out, h, f => by
    injection h with h
    subst h; simp
  | t :: ts, files, out, h, f => by
    rw [List.foldlM_cons] at h
    rcases hm : handle files t with _ | mid
    · rw [hm] at h; exact absurd h (by simp)
    · rw [hm] at h
      rw [handles_spec ts mid out h f, handle_spec files mid t hm f]
      simp only [List.mem_cons, exists_eq_or_imp]
      tauto

/-- C202: when the index can be read, the files fetched are exactly those it links to. -/
theorem C202_listed (page : List OpenTag) (fs : List String) (h : names page = some fs) (f : String) :
    f ∈ fs ↔ ∃ t ∈ page, LinksTo t f := by
  rcases page with _ | ⟨t, ts⟩
  · exact absurd h (by simp [names])
  · rw [handles_spec (t :: ts) [] fs h f]; simp

theorem put_same (d : Dir) (f : String) (c : List ℕ) : put d f c f = some c := if_pos rfl

theorem put_other (d : Dir) (f g : String) (c : List ℕ) (h : g ≠ f) : put d f c g = d g := if_neg h

/-- What a file may be after a run that is not interrupted: unless it is listed and (missing or
forced) it is as before, else it is what the server sent. -/
def Fetched (srv : Server) (force : Bool) (fs : List String) (d d' : Dir) : Prop :=
  ∀ f, (f ∉ fs ∨ ((d f).isSome ∧ force = false) → d' f = d f) ∧
    (f ∈ fs → d f = none ∨ force = true → ∃ ok c, srv f = some (ok, c) ∧ d' f = some c)

theorem fetch_done (srv : Server) (force : Bool) : ∀ (fs : List String) (d d' : Dir),
    (fetch srv force fs d).2 = some d' → Fetched srv force fs d d'
  | [], d, d', h => by
    injection h with h
    subst h
    intro f
    exact ⟨fun _ => rfl, fun e => absurd e (by simp)⟩
  | g :: fs, d, d', h => by
    unfold fetch at h
    by_cases hs : ((d g).isSome && !force) = true
    · rw [if_pos hs] at h
      have ih := fetch_done srv force fs d d' h
      rw [Bool.and_eq_true, Bool.not_eq_true'] at hs
      intro f
      constructor
      · rintro (e | e)
        · exact (ih f).1 (Or.inl (fun hm => e (List.mem_cons_of_mem _ hm)))
        · exact (ih f).1 (Or.inr e)
      · intro hm hn
        rcases List.mem_cons.1 hm with e | e
        · subst e
          rcases hn with hn | hn
          · rw [hn] at hs; exact absurd hs.1 (by simp)
          · rw [hs.2] at hn; exact absurd hn (by simp)
        · exact (ih f).2 e hn
    · rw [if_neg hs] at h
      rcases hr : srv g with _ | ⟨ok, c⟩
      · rw [hr] at h; exact absurd h (by simp)
      · rw [hr] at h
        have ih := fetch_done srv force fs (put d g c) d' h
        have hs' : d g = none ∨ force = true := by
          cases hd : d g
          · exact Or.inl rfl
          · cases force
            · rw [hd] at hs; exact absurd rfl hs
            · exact Or.inr rfl
        intro f
        by_cases e : f = g
        · subst e
          constructor
          · rintro (hm | ⟨h1, h2⟩)
            · exact absurd List.mem_cons_self hm
            · rcases hs' with h3 | h3
              · rw [h3] at h1; exact absurd h1 (by simp)
              · rw [h2] at h3; exact absurd h3 (by simp)
          · intro _ _
            by_cases hm : f ∈ fs ∧ force = true
            · exact (ih f).2 hm.1 (Or.inr hm.2)
            · refine ⟨ok, c, hr, ?_⟩
              rw [← put_same d f c]
              apply (ih f).1
              by_cases hf : f ∈ fs
              · right
                rw [put_same]
                cases hforce : force
                · exact ⟨rfl, rfl⟩
                · exact absurd ⟨hf, hforce⟩ hm
              · exact Or.inl hf
        · have hp := put_other d g f c e
          have := ih f
          rw [hp] at this
          constructor
          · rintro (hm | hm)
            · exact this.1 (Or.inl (fun x => hm (List.mem_cons_of_mem _ x)))
            · exact this.1 (Or.inr hm)
          · intro hm hn
            rcases List.mem_cons.1 hm with x | x
            · exact absurd x e
            · exact this.2 x hn

/-- C202, the part that holds: a run that ends without an exception leaves every linked file
present. A file that was there stays as it was unless the run was forced; a file that was
missing, and with force every linked file, is what the server sent. Other files are not
touched. -/
theorem C202_done_partial (page : Option (List OpenTag)) (srv : Server) (force : Bool) (d d' : Dir)
    (h : (run page srv force d).2 = some d') :
    ∃ ts, page = some ts ∧
      (∀ f, (∃ t ∈ ts, LinksTo t f) → d f = none ∨ force = true → ∃ ok c, srv f = some (ok, c) ∧ d' f = some c) ∧
      (∀ f, (d f).isSome → force = false → d' f = d f) ∧
      (∀ f, (¬ ∃ t ∈ ts, LinksTo t f) → d' f = d f) := by
  unfold run at h
  rcases page with _ | ts
  · exact absurd h (by simp)
  · rcases hn : names ts with _ | fs
    · simp only [Option.bind_some, hn] at h; exact absurd h (by simp)
    · simp only [Option.bind_some, hn] at h
      have hf := fetch_done srv force fs d d' h
      refine ⟨ts, rfl, ?_, ?_, ?_⟩
      · intro f hl hm
        exact (hf f).2 ((C202_listed ts fs hn f).2 hl) hm
      · intro f h1 h2; exact (hf f).1 (Or.inr ⟨h1, h2⟩)
      · intro f hl
        exact (hf f).1 (Or.inl (fun hm => hl ((C202_listed ts fs hn f).1 hm)))

theorem mem_writing (d x : Dir) (f : String) (c : List ℕ) (h : x ∈ writing d f c) :
    ∃ p, p <+: c ∧ x = put d f p := by
  unfold writing at h
  obtain ⟨k, _, rfl⟩ := List.mem_map.1 h
  exact ⟨c.take k, List.take_prefix k c, rfl⟩

/-- The state of the directory is sound except for the file `bad`: every other file is as it was
at the start or as the server sent it. -/
def SoundBut (srv : Server) (d x : Dir) (bad : String) : Prop :=
  (∀ f, f ≠ bad → x f = d f ∨ ∃ ok c, srv f = some (ok, c) ∧ x f = some c) ∧
    (x bad = d bad ∨ ∃ ok c p, srv bad = some (ok, c) ∧ p <+: c ∧ x bad = some p)

theorem fetch_crash (srv : Server) (force : Bool) : ∀ (fs : List String) (d x : Dir),
    x ∈ (fetch srv force fs d).1 → ∃ bad, SoundBut srv d x bad ∧ (force = false → (d bad).isSome → x bad = d bad)
  | [], d, x, h => by
    rw [show (fetch srv force [] d).1 = [d] from rfl, List.mem_singleton] at h
    subst h
    exact ⟨"", ⟨fun f _ => Or.inl rfl, Or.inl rfl⟩, fun _ _ => rfl⟩
  | g :: fs, d, x, h => by
    unfold fetch at h
    by_cases hs : ((d g).isSome && !force) = true
    · rw [if_pos hs] at h
      exact fetch_crash srv force fs d x h
    · rw [if_neg hs] at h
      rcases hr : srv g with _ | ⟨ok, c⟩
      · rw [hr] at h
        rw [List.mem_singleton.1 h]
        exact ⟨"", ⟨fun f _ => Or.inl rfl, Or.inl rfl⟩, fun _ _ => rfl⟩
      · rw [hr] at h
        have hnew : force = false → (d g).isSome → False := by
          intro h1 h2; apply hs; rw [h1, h2]; rfl
        change x ∈ d :: writing d g c ++ (fetch srv force fs (put d g c)).1 at h
        rw [List.cons_append, List.mem_cons, List.mem_append] at h
        rcases h with h | h | h
        · subst h
          exact ⟨"", ⟨fun f _ => Or.inl rfl, Or.inl rfl⟩, fun _ _ => rfl⟩
        · obtain ⟨p, hp, rfl⟩ := mem_writing d x g c h
          refine ⟨g, ⟨fun f hf => Or.inl (put_other d g f p hf), Or.inr ⟨ok, c, p, hr, hp, put_same d g p⟩⟩, ?_⟩
          intro h1 h2; exact (hnew h1 h2).elim
        · obtain ⟨bad, ⟨h1, h2⟩, h3⟩ := fetch_crash srv force fs (put d g c) x h
          have conv : ∀ f, f ≠ g → put d g c f = d f := fun f hf => put_other d g f c hf
          refine ⟨bad, ⟨?_, ?_⟩, ?_⟩
          · intro f hf
            rcases h1 f hf with e | e
            · by_cases hg : f = g
              · subst hg; rw [put_same] at e; exact Or.inr ⟨ok, c, hr, e⟩
              · rw [conv f hg] at e; exact Or.inl e
            · exact Or.inr e
          · rcases h2 with e | e
            · by_cases hg : bad = g
              · subst hg; rw [put_same] at e
                exact Or.inr ⟨ok, c, c, hr, List.prefix_refl c, e⟩
              · rw [conv bad hg] at e; exact Or.inl e
            · exact Or.inr e
          · intro hf hb
            by_cases hg : bad = g
            · subst hg; exact (hnew hf hb).elim
            · have := h3 hf (by rw [conv bad hg]; exact hb)
              rw [this, conv bad hg]

/-- C202, crash points: wherever a run is cut off, at most one file is neither as it was before
nor as the server sent it, and that one holds a beginning of what the server sent. Without
force it is a file that was missing before. -/
theorem C202_crash (page : Option (List OpenTag)) (srv : Server) (force : Bool) (d x : Dir)
    (h : x ∈ (run page srv force d).1) :
    ∃ bad, SoundBut srv d x bad ∧ (force = false → (d bad).isSome → x bad = d bad) := by
  unfold run at h
  rcases hb : page.bind names with _ | fs
  · rw [hb] at h
    rw [List.mem_singleton.1 h]
    exact ⟨"", ⟨fun f _ => Or.inl rfl, Or.inl rfl⟩, fun _ _ => rfl⟩
  · rw [hb] at h
    exact fetch_crash srv force fs d x h

/-- C202: a forced run that ends repairs whatever an earlier one left: the linked files are what
the server sends. -/
theorem C202_force (page : Option (List OpenTag)) (srv : Server) (d d' : Dir)
    (h : (run page srv true d).2 = some d') (ts : List OpenTag) (hp : page = some ts) (f : String)
    (hl : ∃ t ∈ ts, LinksTo t f) : ∃ ok c, srv f = some (ok, c) ∧ d' f = some c := by
  obtain ⟨ts', e, h1, _⟩ := C202_done_partial page srv true d d' h
  rw [hp] at e
  injection e with e
  subst e
  exact h1 f hl (Or.inr rfl)

/-! ### What fails -/

/-- The index with one file. -/
def indexPage : List OpenTag :=
  [⟨"html", []⟩, ⟨"a", [("href", some "../")]⟩, ⟨"a", [("href", some "60000_60001.h5")]⟩]

/-- A server that sends three bytes. -/
def goodServer : Server := fun f => if f = "60000_60001.h5" then some (true, [1, 2, 3]) else none

/-- No files. -/
def emptyDir : Dir := fun _ => none

/-- The full property: when a run ends, each linked file is what a server in good order sends,
whatever earlier runs, cut off or not, there were. -/
def CompleteAfter (page : List OpenTag) (srv : Server) (d' : Dir) : Prop :=
  ∀ f, (∃ t ∈ page, LinksTo t f) → ∃ c, srv f = some (true, c) ∧ d' f = some c

example : names indexPage = some ["60000_60001.h5"] := by decide +kernel

theorem index_links : ∃ t ∈ indexPage, LinksTo t "60000_60001.h5" :=
  (C202_listed indexPage _ (by decide +kernel) _).1 (List.mem_singleton.2 rfl)

/-- A first run on an empty directory meets the hypotheses of `C202_done_partial`. -/
example : ∃ d', (run (some indexPage) goodServer false emptyDir).2 = some d' ∧
    d' "60000_60001.h5" = some [1, 2, 3] := ⟨put emptyDir "60000_60001.h5" [1, 2, 3], rfl, rfl⟩

/-- C202 fails after a crash: a run cut off while writing leaves a short file, and every later
run without force ends well and keeps it. -/
theorem C202_cut_violated : ∃ x ∈ (run (some indexPage) goodServer false emptyDir).1,
    ∃ d', (run (some indexPage) goodServer false x).2 = some d' ∧ d' "60000_60001.h5" = some [1] ∧
      ¬ CompleteAfter indexPage goodServer d' := by
  refine ⟨put emptyDir "60000_60001.h5" [1], ?_, put emptyDir "60000_60001.h5" [1], rfl, rfl, ?_⟩
  · have hr : (run (some indexPage) goodServer false emptyDir).1 =
        emptyDir :: writing emptyDir "60000_60001.h5" [1, 2, 3] ++ [put emptyDir "60000_60001.h5" [1, 2, 3]] := rfl
    rw [hr, List.cons_append, List.mem_cons, List.mem_append]
    right; left
    unfold writing
    rw [List.mem_map]
    exact ⟨1, by decide, rfl⟩
  · intro h
    obtain ⟨c, h1, h2⟩ := h _ index_links
    have h1' : goodServer "60000_60001.h5" = some (true, [1, 2, 3]) := rfl
    rw [h1'] at h1
    rw [put_same] at h2
    simp only [Option.some.injEq, Prod.mk.injEq, true_and] at h1 h2
    rw [← h1] at h2
    exact absurd h2 (by decide)

/-- A server that is out of order and answers with an error page. -/
def errorServer : Server := fun _ => some (false, [52, 48, 52])

/-- C202 fails when the server answers with an error: the page is stored as a file of sky
brightness, the run ends well, and later runs against a server in good order keep it. -/
theorem C202_error_page_violated : ∃ d' d'', (run (some indexPage) errorServer false emptyDir).2 = some d' ∧
    (run (some indexPage) goodServer false d').2 = some d'' ∧ d'' "60000_60001.h5" = some [52, 48, 52] ∧
      ¬ CompleteAfter indexPage goodServer d'' := by
  refine ⟨put emptyDir "60000_60001.h5" [52, 48, 52], put emptyDir "60000_60001.h5" [52, 48, 52], rfl, rfl, rfl, ?_⟩
  intro h
  obtain ⟨c, h1, h2⟩ := h _ index_links
  have h1' : goodServer "60000_60001.h5" = some (true, [1, 2, 3]) := rfl
  rw [h1'] at h1
  rw [put_same] at h2
  simp only [Option.some.injEq, Prod.mk.injEq, true_and] at h1 h2
  rw [← h1] at h2
  exact absurd h2 (by decide)

/-- C202 fails for a page with an anchor that has no attributes, a page without tags, and one
where `href` is not the first attribute: the first two end in an exception, the last link is
passed over. -/
theorem C202_index_violated :
    names (⟨"a", []⟩ :: indexPage) = none ∧ names [] = none ∧
      names [⟨"a", [("class", some "file"), ("href", some "60000_60001.h5")]⟩] = some [] := by
  refine ⟨?_, ?_, ?_⟩ <;> decide +kernel

end Verif
