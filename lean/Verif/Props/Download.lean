import Verif.Spec.Download
import Mathlib.Data.List.Induction
import Mathlib.Data.List.Nodup

/-! # C53: interrupted downloads -/

namespace Verif
namespace Dl

theorem mem_andThen {α β : Type} {t : Tr α} {f : α → Tr β} {x : Disk} (h : x ∈ (andThen t f).1) :
    x ∈ t.1 ∨ ∃ a, t.2 = some a ∧ x ∈ (f a).1 := by
  obtain ⟨ds, _ | a⟩ := t
  · exact Or.inl h
  · rcases List.mem_append.1 h with h | h
    · exact Or.inl h
    · exact Or.inr ⟨a, rfl, h⟩

theorem andThen_some {α β : Type} {t : Tr α} {f : α → Tr β} {b : β} (h : (andThen t f).2 = some b) :
    ∃ a, t.2 = some a ∧ (f a).2 = some b := by
  obtain ⟨ds, _ | a⟩ := t
  · cases h
  · exact ⟨a, rfl, h⟩

theorem andThen_result {α β : Type} {t : Tr α} {f : α → Tr β} {a : α} (h : t.2 = some a) : (andThen t f).2 = (f a).2 := by
  obtain ⟨ds, r⟩ := t
  cases h
  rfl

theorem upd_same {α : Type} (f : String → α) (k : String) (v : α) : upd f k v k = v := if_pos rfl
theorem upd_other {α : Type} (f : String → α) (v : α) {k x : String} (h : x ≠ k) : upd f k v x = f x := if_neg h

theorem get_put_same {α β : Type} [DecidableEq α] (k : α) (v : β) (l : List (α × β)) : get k (put k v l) = some v := by
  induction l with
  | nil => simp [put, get]
  | cons p r ih =>
    unfold put
    by_cases h : p.1 = k
    · rw [if_pos h]; simp [get]
    · rw [if_neg h]; unfold get; rw [if_neg h]; exact ih

theorem get_put_other {α β : Type} [DecidableEq α] {k x : α} (v : β) (h : x ≠ k) (l : List (α × β)) : get x (put k v l) = get x l := by
  induction l with
  | nil => simp [put, get, Ne.symm h]
  | cons p r ih =>
    obtain ⟨a, b⟩ := p
    unfold put
    by_cases hk : a = k
    · rw [if_pos hk]
      subst hk
      unfold get
      rw [if_neg (Ne.symm h), if_neg (Ne.symm h)]
    · rw [if_neg hk]
      unfold get
      by_cases hx : a = x
      · rw [if_pos hx, if_pos hx]
      · rw [if_neg hx, if_neg hx]; exact ih

/-- Only the directory of the key has changed. -/
def Frame (d d' : Disk) (key : String) : Prop := d'.vers = d.vers ∧ ∀ k, k ≠ key → d'.dirs k = d.dirs k

theorem Frame.refl (d : Disk) (key : String) : Frame d d key := ⟨rfl, fun _ _ => rfl⟩
theorem Frame.trans {a b c : Disk} {key : String} (h : Frame a b key) (h' : Frame b c key) : Frame a c key :=
  ⟨h'.1.trans h.1, fun k hk => (h'.2 k hk).trans (h.2 k hk)⟩

/-- Neither directories nor versions have changed. -/
def Still (d d' : Disk) : Prop := d'.vers = d.vers ∧ d'.dirs = d.dirs

theorem Still.frame {d d' : Disk} (h : Still d d') (key : String) : Frame d d' key := ⟨h.1, fun k _ => by rw [h.2]⟩
theorem Still.trans {a b c : Disk} (h : Still a b) (h' : Still b c) : Still a c := ⟨h'.1.trans h.1, h'.2.trans h.2⟩

theorem mem_rmFiles {d d' : Disk} {key : String} : ∀ {l : List (ℕ × ℕ)}, d' ∈ rmFiles d key l → Frame d d' key := by
  intro l
  induction l with
  | nil =>
    intro h
    rw [List.mem_singleton.1 h]
    exact ⟨rfl, fun k hk => upd_other _ _ hk⟩
  | cons p r ih =>
    intro h
    rcases List.mem_cons.1 h with rfl | h
    · exact ⟨rfl, fun k hk => upd_other _ _ hk⟩
    · exact ih h

theorem frame_unpackState (A : Archive) (d : Disk) (key name : String) (k : ℕ) : Frame d (unpackState A d key name k) key :=
  ⟨rfl, fun _ hk => upd_other _ _ hk⟩

theorem unpack_frame {A : Archive} {net : Net} {d d' : Disk} {key name : String} (h : d' ∈ (unpack A net d key name).1) : Frame d d' key := by
  unfold unpack at h
  split_ifs at h
  all_goals
    obtain ⟨k, -, rfl⟩ := List.mem_map.1 h
    exact frame_unpackState A d key name k

theorem install_frame {A : Archive} {net : Net} {d d' : Disk} {key name : String} (h : d' ∈ (install A net d key name).1) : Frame d d' key := by
  rcases mem_andThen h with h | ⟨d1, h1, h⟩
  · exact unpack_frame h
  · rw [List.mem_singleton.1 h]
    have : Frame d d1 key := by
      unfold unpack at h1
      split_ifs at h1
      cases h1
      exact frame_unpackState A d key name _
    exact ⟨this.1, this.2⟩

theorem install_some {A : Archive} {net : Net} {d d' : Disk} {key name : String} (h : (install A net d key name).2 = some d') :
    Frame d d' key ∧ d.finals name = some (A.bytes name) ∧ d'.dirs key = some (unpacked (d.dirs key) (A.members name)) := by
  obtain ⟨d1, h1, h2⟩ := andThen_some h
  unfold unpack at h1
  split_ifs at h1 with hb
  cases h1
  cases h2
  refine ⟨frame_unpackState A d key name _, hb, ?_⟩
  show upd d.dirs key _ key = _
  rw [upd_same, List.take_length]

theorem still_rename (d : Disk) (name : String) : Still d (rename d name) := ⟨rfl, rfl⟩
theorem still_part (A : Archive) (net : Net) (d : Disk) (name : String) (n : ℕ) : Still d (partState A net d name n) := ⟨rfl, rfl⟩

theorem tries_still {A : Archive} {net : Net} {name : String} : ∀ (k : ℕ) (as : List Attempt) (d : Disk),
    (∀ d' ∈ (tries A net name k as d).1, Still d d') ∧ ∀ d', (tries A net name k as d).2 = some d' → Still d d' := by
  intro k
  induction k with
  | zero => intro as d; exact ⟨(by intro d' h; simp [tries] at h), (by intro d' h; simp [tries] at h)⟩
  | succ k ih =>
    intro as d
    rcases as with _ | ⟨_ | ⟨n, cut⟩, as⟩
    · exact ih [] d
    · exact ih as d
    · unfold tries
      split_ifs with hc
      · constructor
        · intro d' h
          rcases mem_andThen h with h | ⟨d1, h1, h⟩
          · obtain ⟨j, -, rfl⟩ := List.mem_map.1 h
            exact still_part A net d name j
          · cases h1
            exact (still_part A net d name n).trans ((ih as _).1 d' h)
        · intro d' h
          obtain ⟨d1, h1, h2⟩ := andThen_some h
          cases h1
          exact (still_part A net d name n).trans ((ih as _).2 d' h2)
      · constructor
        · intro d' h
          rcases List.mem_append.1 h with h | h
          · obtain ⟨j, -, rfl⟩ := List.mem_map.1 h
            exact still_part A net d name j
          · rw [List.mem_singleton.1 h]
            exact (still_part A net d name n).trans (still_rename _ _)
        · intro d' h
          cases h
          exact (still_part A net d name n).trans (still_rename _ _)

theorem fetch_still {A : Archive} {net : Net} {name : String} (d : Disk) :
    (∀ d' ∈ (fetch A net name d).1, Still d d') ∧ ∀ d', (fetch A net name d).2 = some d' → Still d d' := by
  unfold fetch
  split_ifs
  · constructor
    · intro d' h
      rw [List.mem_singleton.1 h]
      exact still_rename d name
    · intro d' h
      cases h
      exact still_rename d name
  · exact tries_still _ _ _

theorem renew_spec {A : Archive} {net : Net} {d : Disk} {vs : List (String × String)} {key name : String} {pre : Tr Disk}
    (hp : ∀ d' ∈ pre.1, Frame d d' key) (hp2 : ∀ d', pre.2 = some d' → Frame d d' key ∧ d'.dirs key = none) :
    (∀ d' ∈ (renew A net d vs key name pre).1, Frame d d' key) ∧
    ∀ d' vs', (renew A net d vs key name pre).2 = some (d', vs') → Frame d d' key ∧ Complete A d' key name ∧ vs' = put key name vs := by
  unfold renew
  constructor
  · intro d' h
    rcases mem_andThen h with h | ⟨d2, h2, h⟩
    · rcases mem_andThen h with h | ⟨d1, h1, h⟩
      · rcases mem_andThen h with h | ⟨d0, h0, h⟩
        · exact hp d' h
        · exact (hp2 d0 h0).1.trans (((fetch_still d0).1 d' h).frame key)
      · obtain ⟨d0, h0, h1⟩ := andThen_some h1
        exact ((hp2 d0 h0).1.trans (((fetch_still d0).2 d1 h1).frame key)).trans (install_frame h)
    · cases h
  · intro d' vs' h
    obtain ⟨d2, h2, h⟩ := andThen_some h
    obtain ⟨d1, h1, h2⟩ := andThen_some h2
    obtain ⟨d0, h0, h1⟩ := andThen_some h1
    cases h
    obtain ⟨f0, e0⟩ := hp2 d0 h0
    have s1 := (fetch_still d0).2 d1 h1
    obtain ⟨f2, -, e2⟩ := install_some h2
    refine ⟨(f0.trans (s1.frame key)).trans f2, ?_, rfl⟩
    unfold Complete
    rw [e2, s1.2, e0]

theorem runKey_spec {A : Archive} {update force : Bool} {net : Net} {d : Disk} {vs : List (String × String)} {key name : String} :
    (∀ d' ∈ (runKey A update force net d vs key name).1, Frame d d' key) ∧
    (∀ d' vs', (runKey A update force net d vs key name).2 = some (d', vs') →
      (d' = d ∧ vs' = vs ∧ force = false ∧ (d.dirs key).isSome ∧ (update = true → get key vs = some name)) ∨
      (Frame d d' key ∧ Complete A d' key name ∧ vs' = put key name vs)) ∧
    (force = false → get key vs = some name → (d.dirs key).isSome → (runKey A update force net d vs key name) = ([], some (d, vs))) := by
  unfold runKey
  rcases hd : (d.dirs key).isSome with _ | _
  · have hn : d.dirs key = none := by simpa using hd
    have hc : choose update force false vs key name = .create := rfl
    rw [hc]
    dsimp only
    obtain ⟨a, b⟩ := renew_spec (A := A) (net := net) (d := d) (vs := vs) (key := key) (name := name) (pre := ([], some d))
      (by intro d' h; cases h) (by intro d' h; cases h; exact ⟨Frame.refl d key, hn⟩)
    exact ⟨a, fun d' vs' h => Or.inr (b d' vs' h), (by intro _ _ h; cases h)⟩
  · have key_replace : (∀ d' ∈ (renew A net d vs key name (rmFiles d key ((d.dirs key).getD []), some (removed d key))).1, Frame d d' key) ∧
        ∀ d' vs', (renew A net d vs key name (rmFiles d key ((d.dirs key).getD []), some (removed d key))).2 = some (d', vs') →
          Frame d d' key ∧ Complete A d' key name ∧ vs' = put key name vs := by
      refine renew_spec (fun d' h => mem_rmFiles h) ?_
      intro d' h
      cases h
      exact ⟨⟨rfl, fun k hk => upd_other _ _ hk⟩, upd_same _ _ _⟩
    unfold choose
    rw [if_pos rfl]
    cases force with
    | true => exact ⟨key_replace.1, fun d' vs' h => Or.inr (key_replace.2 d' vs' h), (by intro h; cases h)⟩
    | false =>
      rw [if_neg (by simp)]
      cases update with
      | false => exact ⟨(by intro d' h; cases h), fun d' vs' h => (by cases h; exact Or.inl ⟨rfl, rfl, rfl, rfl, (by intro h; cases h)⟩), fun _ _ _ => rfl⟩
      | true =>
        rw [if_neg (by simp)]
        by_cases hg : get key vs = some name
        · rw [if_pos hg]
          exact ⟨(by intro d' h; cases h), fun d' vs' h => (by cases h; exact Or.inl ⟨rfl, rfl, rfl, rfl, fun _ => hg⟩), fun _ _ _ => rfl⟩
        · rw [if_neg hg]
          exact ⟨key_replace.1, fun d' vs' h => Or.inr (key_replace.2 d' vs' h), fun _ h _ => absurd h hg⟩

/-- What the dictionary in memory calls current is complete. -/
def Fine (A : Archive) (fd : String → Option String) (d : Disk) (vs : List (String × String)) : Prop :=
  ∀ key name, fd key = some name → get key vs = some name → Complete A d key name

theorem Fine.step {A : Archive} {fd : String → Option String} {d d' : Disk} {vs vs' : List (String × String)} {update force : Bool} {net : Net} {key name : String}
    (h : Fine A fd d vs) (hr : (runKey A update force net d vs key name).2 = some (d', vs')) : Fine A fd d' vs' := by
  rcases runKey_spec.2.1 d' vs' hr with ⟨rfl, rfl, -⟩ | ⟨hf, hc, rfl⟩
  · exact h
  · intro k n hk hg
    by_cases e : k = key
    · subst e
      rw [get_put_same] at hg
      cases hg
      exact hc
    · rw [get_put_other _ e] at hg
      unfold Complete
      rw [hf.2 k e]
      exact h k n hk hg

/-- During a run without `force` nothing recorded as current is touched. -/
theorem runKeys_spec {A : Archive} {fd : String → Option String} {update force : Bool} {net : String → Net} : ∀ (keys : List String) (d : Disk) (vs : List (String × String)),
    (∀ d' ∈ (runKeys A fd update force net keys d vs).1, d'.vers = d.vers) ∧
    (∀ d' vs', (runKeys A fd update force net keys d vs).2 = some (d', vs') → d'.vers = d.vers) ∧
    (Fine A fd d vs → (∀ d' vs', (runKeys A fd update force net keys d vs).2 = some (d', vs') → Fine A fd d' vs') ∧
      (force = false → ∀ vs0, (∀ key name, fd key = some name → get key vs0 = some name → get key vs = some name) →
        ∀ d' ∈ (runKeys A fd update force net keys d vs).1, Fine A fd d' vs0)) := by
  intro keys
  induction keys with
  | nil =>
    intro d vs
    exact ⟨(by intro d' h; cases h), (by intro d' vs' h; cases h; rfl), fun hf => ⟨(by intro d' vs' h; cases h; exact hf), (by intro _ _ _ d' h; cases h)⟩⟩
  | cons key keys ih =>
    intro d vs
    unfold runKeys
    rcases hk : fd key with _ | name
    · exact ⟨(by intro d' h; cases h), (by intro d' vs' h; cases h), fun _ => ⟨(by intro d' vs' h; cases h), (by intro _ _ _ d' h; cases h)⟩⟩
    dsimp only
    obtain ⟨k1, k2, k3⟩ := runKey_spec (A := A) (update := update) (force := force) (net := net key) (d := d) (vs := vs) (key := key) (name := name)
    have kv : ∀ d' vs', (runKey A update force (net key) d vs key name).2 = some (d', vs') → d'.vers = d.vers := by
      intro d' vs' h
      rcases k2 d' vs' h with ⟨rfl, -⟩ | ⟨hf, -⟩
      · rfl
      · exact hf.1
    refine ⟨?_, ?_, ?_⟩
    · intro d' h
      rcases mem_andThen h with h | ⟨⟨d1, vs1⟩, h1, h⟩
      · exact (k1 d' h).1
      · exact ((ih d1 vs1).1 d' h).trans (kv d1 vs1 h1)
    · intro d' vs' h
      obtain ⟨⟨d1, vs1⟩, h1, h2⟩ := andThen_some h
      exact ((ih d1 vs1).2.1 d' vs' h2).trans (kv d1 vs1 h1)
    · intro hf
      constructor
      · intro d' vs' h
        obtain ⟨⟨d1, vs1⟩, h1, h2⟩ := andThen_some h
        exact ((ih d1 vs1).2.2 (hf.step h1)).1 d' vs' h2
      · intro hforce vs0 h0 d' h
        rcases mem_andThen h with h | ⟨⟨d1, vs1⟩, h1, h⟩
        · intro k n hkn hg
          have hg' := h0 k n hkn hg
          by_cases e : k = key
          · subst e
            rw [hk] at hkn
            cases hkn
            have hc := hf k name hk hg'
            have hs : (d.dirs k).isSome := by rw [hc]; rfl
            rw [k3 hforce hg' hs] at h
            cases h
          · unfold Complete
            rw [(k1 d' h).2 k e]
            exact hf k n hkn hg'
        · refine ((ih d1 vs1).2.2 (hf.step h1)).2 hforce vs0 ?_ d' h
          intro k n hkn hg
          have hg' := h0 k n hkn hg
          rcases k2 d1 vs1 h1 with ⟨-, rfl, -⟩ | ⟨-, -, rfl⟩
          · exact hg'
          · by_cases e : k = key
            · subst e
              rw [hk] at hkn
              cases hkn
              exact get_put_same _ _ _
            · rw [get_put_other _ e]; exact hg'

/-- The result for the keys asked for. -/
theorem runKeys_done {A : Archive} {fd : String → Option String} {update force : Bool} {net : String → Net} (hu : update = true ∨ force = true)
    (keys : List String) : ∀ (d : Disk) (vs : List (String × String)), (force = true ∨ Fine A fd d vs) →
    ∀ d' vs', (runKeys A fd update force net keys d vs).2 = some (d', vs') →
      (∀ key ∈ keys, ∃ name, fd key = some name ∧ Complete A d' key name ∧ get key vs' = some name) ∧
      ∀ key name, fd key = some name → Complete A d key name → get key vs = some name → Complete A d' key name ∧ get key vs' = some name := by
  induction keys with
  | nil =>
    intro d vs _ d' vs' h
    cases h
    exact ⟨by simp, fun _ _ _ h1 h2 => ⟨h1, h2⟩⟩
  | cons key keys ih =>
    intro d vs hfine d' vs' h
    unfold runKeys at h
    rcases hk : fd key with _ | name <;> rw [hk] at h
    · cases h
    obtain ⟨⟨d1, vs1⟩, h1, h2⟩ := andThen_some h
    have hfine1 : force = true ∨ Fine A fd d1 vs1 := hfine.imp id (fun hf => hf.step h1)
    obtain ⟨i1, i2⟩ := ih d1 vs1 hfine1 d' vs' h2
    have hkey : Complete A d1 key name ∧ get key vs1 = some name := by
      rcases runKey_spec.2.1 d1 vs1 h1 with ⟨rfl, rfl, hnf, -, hup⟩ | ⟨-, hc, rfl⟩
      · rcases hu with hu | hu
        · rcases hfine with hf | hf
          · rw [hf] at hnf; cases hnf
          · exact ⟨hf key name hk (hup hu), hup hu⟩
        · rw [hu] at hnf; cases hnf
      · exact ⟨hc, get_put_same _ _ _⟩
    refine ⟨?_, ?_⟩
    · intro k hkm
      rcases List.mem_cons.1 hkm with rfl | hkm
      · exact ⟨name, hk, i2 k name hk hkey.1 hkey.2⟩
      · exact i1 k hkm
    · intro k n hkn hc hg
      refine i2 k n hkn ?_ ?_
      · by_cases e : k = key
        · subst e; rw [hk] at hkn; cases hkn; exact hkey.1
        · rcases runKey_spec.2.1 d1 vs1 h1 with ⟨rfl, -⟩ | ⟨hf, -⟩
          · exact hc
          · unfold Complete; rw [hf.2 k e]; exact hc
      · by_cases e : k = key
        · subst e; rw [hk] at hkn; cases hkn; exact hkey.2
        · rcases runKey_spec.2.1 d1 vs1 h1 with ⟨-, rfl, -⟩ | ⟨-, -, rfl⟩
          · exact hg
          · rw [get_put_other _ e]; exact hg

/-! ### The version file -/

theorem parseLines_torn (vs : List (String × String)) (k : String) : ∀ acc, parseLines (whole vs ++ [(k, none)]) acc = none := by
  induction vs with
  | nil => intro acc; rfl
  | cons p r ih => intro acc; exact ih _

theorem parseLines_whole (vs : List (String × String)) : ∀ acc, parseLines (whole vs) acc = some (vs.foldl (fun d p => put p.1 p.2 d) acc) := by
  induction vs with
  | nil => intro acc; rfl
  | cons p r ih => intro acc; exact ih _

/-- The last value written for a key. -/
theorem get_foldl_put {key : String} (vs : List (String × String)) : ∀ acc,
    get key (vs.foldl (fun d p => put p.1 p.2 d) acc) = (get key vs.reverse).or (get key acc) := by
  induction vs using List.reverseRecOn with
  | nil => intro acc; rfl
  | append_singleton vs p ih =>
    intro acc
    rw [List.foldl_append, List.reverse_append]
    show get key (put p.1 p.2 _) = (get key (p :: vs.reverse)).or _
    by_cases e : p.1 = key
    · subst e
      rw [get_put_same]
      unfold get
      rw [if_pos rfl]
      rfl
    · rw [get_put_other _ (Ne.symm e), ih]
      have : get key (p :: vs.reverse) = get key vs.reverse := by
        obtain ⟨a, b⟩ := p
        show (if a = key then _ else _) = _
        rw [if_neg e]
      rw [this]

/-- The keys of a dictionary are distinct. -/
def Dict (vs : List (String × String)) : Prop := (vs.map Prod.fst).Nodup

theorem mem_put {k x : String} {v : String} (l : List (String × String)) (h : x ∈ (put k v l).map Prod.fst) : x = k ∨ x ∈ l.map Prod.fst := by
  induction l with
  | nil => simp [put] at h; exact Or.inl h
  | cons p r ih =>
    unfold put at h
    split_ifs at h with e
    · rcases List.mem_cons.1 h with h | h
      · exact Or.inl h
      · exact Or.inr (List.mem_cons_of_mem _ h)
    · rcases List.mem_cons.1 h with h | h
      · exact Or.inr (by rw [h]; exact List.mem_cons_self)
      · exact (ih h).imp id (List.mem_cons_of_mem _)

theorem Dict.put {k v : String} {l : List (String × String)} (h : Dict l) : Dict (put k v l) := by
  unfold Dict at h ⊢
  induction l with
  | nil => simp [Dl.put]
  | cons p r ih =>
    rw [List.map_cons, List.nodup_cons] at h
    unfold Dl.put
    split_ifs with e
    · rw [List.map_cons, List.nodup_cons, ← e]; exact h
    · rw [List.map_cons, List.nodup_cons]
      refine ⟨fun hm => ?_, ih h.2⟩
      rcases mem_put r hm with hm | hm
      · exact e hm
      · exact h.1 hm

theorem parseLines_dict : ∀ (l : List (String × Option String)) (acc vs : List (String × String)), parseLines l acc = some vs → Dict acc → Dict vs := by
  intro l
  induction l with
  | nil => intro acc vs h ha; cases h; exact ha
  | cons p r ih =>
    intro acc vs h ha
    obtain ⟨k, _ | v⟩ := p
    · cases h
    · exact ih _ _ h ha.put

theorem versions_dict {d : Disk} {vs : List (String × String)} (h : versions d = some vs) : Dict vs := by
  unfold versions at h
  rcases hv : d.vers with _ | l <;> rw [hv] at h
  · cases h; exact List.nodup_nil
  · exact parseLines_dict l [] vs h List.nodup_nil

theorem runKeys_dict {A : Archive} {fd : String → Option String} {update force : Bool} {net : String → Net} (keys : List String) :
    ∀ (d : Disk) (vs : List (String × String)) d' vs', (runKeys A fd update force net keys d vs).2 = some (d', vs') → Dict vs → Dict vs' := by
  induction keys with
  | nil => intro d vs d' vs' h hd; cases h; exact hd
  | cons key keys ih =>
    intro d vs d' vs' h hd
    unfold runKeys at h
    rcases hk : fd key with _ | name <;> rw [hk] at h
    · cases h
    obtain ⟨⟨d1, vs1⟩, h1, h2⟩ := andThen_some h
    refine ih d1 vs1 d' vs' h2 ?_
    rcases runKey_spec.2.1 d1 vs1 h1 with ⟨-, rfl, -⟩ | ⟨-, -, rfl⟩
    · exact hd
    · exact hd.put

theorem get_mem {key n : String} {l : List (String × String)} (h : get key l = some n) : (key, n) ∈ l := by
  induction l with
  | nil => cases h
  | cons p r ih =>
    obtain ⟨a, b⟩ := p
    unfold get at h
    split_ifs at h with e
    · cases h; subst e; exact List.mem_cons_self
    · exact List.mem_cons_of_mem _ (ih h)

theorem get_of_mem {key n : String} {l : List (String × String)} (hd : Dict l) (h : (key, n) ∈ l) : get key l = some n := by
  induction l with
  | nil => cases h
  | cons p r ih =>
    unfold Dict at hd
    rw [List.map_cons, List.nodup_cons] at hd
    obtain ⟨a, b⟩ := p
    unfold get
    rcases List.mem_cons.1 h with h | h
    · cases h; rw [if_pos rfl]
    · rw [if_neg, ih hd.2 h]
      rintro rfl
      exact hd.1 (List.mem_map.2 ⟨(a, n), h, rfl⟩)

theorem versions_whole (d : Disk) (vs : List (String × String)) (key n : String) (hd : Dict vs) :
    Marked { d with vers := some (whole vs) } key n ↔ get key vs = some n := by
  unfold Marked versions
  dsimp only
  rw [parseLines_whole]
  constructor
  · rintro ⟨vs', h, hg⟩
    cases h
    rw [get_foldl_put] at hg
    have : get key vs.reverse = some n := by
      rcases hr : get key vs.reverse with _ | x <;> rw [hr] at hg
      · cases hg
      · exact hg
    exact get_of_mem hd (List.mem_reverse.1 (get_mem this))
  · intro hg
    refine ⟨_, rfl, ?_⟩
    rw [get_foldl_put]
    have hd' : Dict vs.reverse := by unfold Dict; rw [List.map_reverse]; exact List.nodup_reverse.2 hd
    rw [get_of_mem hd' (List.mem_reverse.2 (get_mem hg))]
    rfl

theorem writeVersions_sound {A : Archive} {fd : String → Option String} {d : Disk} {vs : List (String × String)} (hd : Dict vs) (hf : Fine A fd d vs) :
    ∀ (post pre : List (String × String)), vs = pre ++ post → ∀ d' ∈ writeVersions d pre post, Sound A fd d' := by
  have key : ∀ pre post, vs = pre ++ post → Sound A fd { d with vers := some (whole pre) } := by
    intro pre post e k n hk hm
    have hdp : Dict pre := by
      have h := hd
      rw [e] at h
      unfold Dict at h ⊢
      rw [List.map_append] at h
      exact (List.nodup_append.1 h).1
    rw [versions_whole d pre k n hdp] at hm
    exact hf k n hk (get_of_mem hd (by rw [e]; exact List.mem_append_left _ (get_mem hm)))
  intro post
  induction post with
  | nil =>
    intro pre e d' h
    rw [List.mem_singleton.1 h]
    exact key pre [] e
  | cons p r ih =>
    intro pre e d' h
    obtain ⟨k, v⟩ := p
    rcases List.mem_cons.1 h with rfl | h
    · exact key pre _ e
    rcases List.mem_cons.1 h with rfl | h
    · rintro k' n - ⟨vs', hv, -⟩
      have hv' : parseLines (whole pre ++ [(k, none)]) [] = some vs' := hv
      rw [parseLines_torn] at hv'
      cases hv'
    · exact ih (pre ++ [(k, v)]) (by rw [e]; simp) d' h

theorem sound_fine {A : Archive} {fd : String → Option String} {d : Disk} {vs : List (String × String)} (hs : Sound A fd d) (hv : versions d = some vs) :
    Fine A fd d vs := fun key name hk hg => hs key name hk ⟨vs, hv, hg⟩

theorem download_some {A : Archive} {fd : String → Option String} {keys : List String} {update force : Bool} {net : String → Net} {d d' : Disk}
    (h : (download A fd keys update force net d).2 = some d') : ∃ vs d1 vs1, versions d = some vs ∧
      (runKeys A fd update force net keys d vs).2 = some (d1, vs1) ∧ d' = { d1 with vers := some (whole vs1) } := by
  unfold download at h
  rcases hv : versions d with _ | vs <;> rw [hv] at h
  · cases h
  obtain ⟨⟨d1, vs1⟩, h1, h2⟩ := andThen_some h
  cases h2
  exact ⟨vs, d1, vs1, rfl, h1, rfl⟩

/-- Only the archive of one name can have changed. -/
def Others (d d' : Disk) (name : String) : Prop := ∀ x, x ≠ name → d'.finals x = d.finals x

theorem tries_others {A : Archive} {net : Net} {name : String} : ∀ (k : ℕ) (as : List Attempt) (d d' : Disk),
    (tries A net name k as d).2 = some d' → Others d d' name := by
  intro k
  induction k with
  | zero => intro as d d' h; simp [tries] at h
  | succ k ih =>
    intro as d d' h
    rcases as with _ | ⟨_ | ⟨n, cut⟩, as⟩
    · exact ih [] d d' h
    · exact ih as d d' h
    · unfold tries at h
      split_ifs at h with hc
      · obtain ⟨d1, h1, h2⟩ := andThen_some h
        cases h1
        exact fun x hx => ih as (partState A net d name n) d' h2 x hx
      · cases h
        intro x hx
        exact upd_other _ _ hx

theorem renew_clean {A : Archive} {net : Net} {d d' : Disk} {vs vs' : List (String × String)} {key name : String} {pre : Tr Disk}
    (hp : ∀ d0, pre.2 = some d0 → d0.finals = d.finals) (hd : ∀ x, d.finals x = none) (h : (renew A net d vs key name pre).2 = some (d', vs')) :
    ∀ x, d'.finals x = none := by
  unfold renew at h
  obtain ⟨d2, h2, h⟩ := andThen_some h
  obtain ⟨d1, h1, h2⟩ := andThen_some h2
  obtain ⟨d0, h0, h1⟩ := andThen_some h1
  cases h
  have o1 : Others d0 d1 name := by
    unfold fetch at h1
    split_ifs at h1
    · cases h1
      intro x hx
      exact upd_other _ _ hx
    · exact tries_others _ _ _ _ h1
  obtain ⟨e, k1, k2⟩ := andThen_some h2
  unfold unpack at k1
  split_ifs at k1
  cases k1
  cases k2
  intro x
  show upd d1.finals name none x = none
  by_cases hx : x = name
  · rw [hx, upd_same]
  · rw [upd_other _ _ hx, o1 x hx, hp d0 h0, hd x]

theorem runKeys_clean {A : Archive} {fd : String → Option String} {update force : Bool} {net : String → Net} (keys : List String) :
    ∀ (d d' : Disk) (vs vs' : List (String × String)), (∀ x, d.finals x = none) → (runKeys A fd update force net keys d vs).2 = some (d', vs') →
      ∀ x, d'.finals x = none := by
  induction keys with
  | nil =>
    intro d d' vs vs' hd h
    cases h
    exact hd
  | cons key keys ih =>
    intro d d' vs vs' hd h
    unfold runKeys at h
    rcases hf : fd key with _ | name <;> rw [hf] at h
    · cases h
    obtain ⟨⟨d1, vs1⟩, h1, h2⟩ := andThen_some h
    refine ih d1 d' vs1 vs' ?_ h2
    unfold runKey at h1
    split at h1
    · cases h1
      exact hd
    · exact renew_clean (by intro d0 h0; cases h0; rfl) hd h1
    · exact renew_clean (by intro d0 h0; cases h0; rfl) hd h1

end Dl

open Dl

/-- C53: a run that finishes leaves no archive behind. -/
theorem C53_cleaned (A : Archive) (fd : String → Option String) (keys : List String) (update force : Bool) (net : String → Net) (d d' : Disk)
    (hd : ∀ x, d.finals x = none) (h : (download A fd keys update force net d).2 = some d') : ∀ x, d'.finals x = none := by
  obtain ⟨vs, d1, vs1, -, h1, rfl⟩ := download_some h
  exact runKeys_clean keys d d1 vs vs1 hd h1

/-- C53, crash safety: whatever the step after which a run without `force` stops, and also when it
finishes, all that is recorded as current is complete, if it was so before. Missing from the full
statement: runs with `force`, and disks on which a recorded directory is missing. -/
theorem C53_crash_partial (A : Archive) (fd : String → Option String) (keys : List String) (update : Bool) (net : String → Net) (d d' : Disk)
    (hs : Sound A fd d) (hc : d' ∈ (download A fd keys update false net d).1 ∨ (download A fd keys update false net d).2 = some d') :
    Sound A fd d' := by
  rcases hc with hc | hc
  · unfold download at hc
    rcases hv : versions d with _ | vs <;> rw [hv] at hc
    · cases hc
    dsimp only at hc
    have hf := sound_fine hs hv
    obtain ⟨r1, r2, r3⟩ := runKeys_spec (A := A) (fd := fd) (update := update) (force := false) (net := net) keys d vs
    rcases mem_andThen hc with hc | ⟨⟨d1, vs1⟩, h1, hc⟩
    · have := (r3 hf).2 rfl vs (fun _ _ _ h => h) d' hc
      rintro k n hk ⟨vs', hv', hg⟩
      have e : versions d' = versions d := by unfold versions; rw [r1 d' hc]
      rw [e, hv] at hv'
      cases hv'
      exact this k n hk hg
    · exact writeVersions_sound (runKeys_dict keys d vs d1 vs1 h1 (versions_dict hv)) ((r3 hf).1 d1 vs1 h1) vs1 [] rfl d' hc
  · obtain ⟨vs, d1, vs1, hv, h1, rfl⟩ := download_some hc
    have hf := sound_fine hs hv
    have hf1 := ((runKeys_spec (A := A) (fd := fd) (update := update) (force := false) (net := net) keys d vs).2.2 hf).1 d1 vs1 h1
    intro k n hk hm
    rw [versions_whole d1 vs1 k n (runKeys_dict keys d vs d1 vs1 h1 (versions_dict hv))] at hm
    exact hf1 k n hk hm

/-- An update run that finishes: every directory asked for is complete and recorded. -/
theorem C53_update_partial (A : Archive) (fd : String → Option String) (keys : List String) (force : Bool) (net : String → Net) (d d' : Disk)
    (hs : Sound A fd d) (h : (download A fd keys true force net d).2 = some d') (key : String) (hk : key ∈ keys) :
    ∃ name, fd key = some name ∧ Complete A d' key name ∧ Marked d' key name := by
  obtain ⟨vs, d1, vs1, hv, h1, rfl⟩ := download_some h
  obtain ⟨name, hn, hc, hg⟩ := (runKeys_done (Or.inl rfl) keys d vs (Or.inr (sound_fine hs hv)) d1 vs1 h1).1 key hk
  exact ⟨name, hn, hc, (versions_whole d1 vs1 key name (runKeys_dict keys d vs d1 vs1 h1 (versions_dict hv))).2 hg⟩

/-- A run with `force` that finishes repairs the directories asked for, whatever the disk was. -/
theorem C53_force_repairs (A : Archive) (fd : String → Option String) (keys : List String) (update : Bool) (net : String → Net) (d d' : Disk)
    (h : (download A fd keys update true net d).2 = some d') (key : String) (hk : key ∈ keys) :
    ∃ name, fd key = some name ∧ Complete A d' key name ∧ Marked d' key name := by
  obtain ⟨vs, d1, vs1, hv, h1, rfl⟩ := download_some h
  obtain ⟨name, hn, hc, hg⟩ := (runKeys_done (Or.inr rfl) keys d vs (Or.inl rfl) d1 vs1 h1).1 key hk
  exact ⟨name, hn, hc, (versions_whole d1 vs1 key name (runKeys_dict keys d vs d1 vs1 h1 (versions_dict hv))).2 hg⟩

/-- C53: after any number of runs without `force`, each stopped after any step, an update run that
finishes leaves every directory complete and recorded. -/
theorem C53_interrupted_partial (A : Archive) (fd : String → Option String) (d d1 d2 : Disk) (hs : Sound A fd d) (hi : Interrupted A fd d d1)
    (keys : List String) (force : Bool) (net : String → Net) (h : (download A fd keys true force net d1).2 = some d2) (key : String) (hk : key ∈ keys) :
    ∃ name, fd key = some name ∧ Complete A d2 key name ∧ Marked d2 key name := by
  have : Sound A fd d1 := by
    clear h
    induction hi with
    | refl => exact hs
    | crash r _ hc ih => exact C53_crash_partial A fd r.keys r.update r.net _ _ ih (Or.inl hc)
    | finish r _ hc ih => exact C53_crash_partial A fd r.keys r.update r.net _ _ ih (Or.inr hc)
  exact C53_update_partial A fd keys force net d1 d2 this h key hk

/-- An empty disk, and one with outdated directories only, is sound. -/
theorem C53_fresh_sound (A : Archive) (fd : String → Option String) (d : Disk) (h : d.vers = none) : Sound A fd d := by
  rintro key name - ⟨vs, hv, hg⟩
  unfold versions at hv
  rw [h] at hv
  cases hv
  cases hg

namespace Dl

/-- Partial files are beginnings of their archives. -/
def Prefixed (A : Archive) (d : Disk) : Prop := ∀ name b, d.parts name = some b → b <+: A.bytes name

/-- A server that sends everything at the first attempt. -/
structure Good (A : Archive) (net : Net) (name : String) : Prop where
  honours : net.honours = true
  total : net.total = 0 ∨ net.total = (A.bytes name).length
  first : ∃ n as, net.attempts = .body n false :: as ∧ (A.bytes name).length ≤ n

theorem Prefixed.parts {A : Archive} {d d' : Disk} (h : Prefixed A d) (e : d'.parts = d.parts) : Prefixed A d' := by
  unfold Prefixed at h ⊢; rw [e]; exact h

theorem prefixed_upd_none {A : Archive} {d d' : Disk} {name : String} (h : Prefixed A d) (e : d'.parts = upd d.parts name none) : Prefixed A d' := by
  intro x b hb
  rw [e] at hb
  by_cases hx : x = name
  · subst hx; rw [upd_same] at hb; cases hb
  · rw [upd_other _ _ hx] at hb; exact h x b hb

theorem have_pos {d : Disk} {name : String} (h : 0 < have' d name) : ∃ b, d.parts name = some b ∧ have' d name = b.length := by
  unfold have' at h ⊢
  rcases hp : d.parts name with _ | b <;> rw [hp] at h
  · simp at h
  · exact ⟨b, rfl, rfl⟩

/-- With ranges honoured, what is added continues the archive. -/
theorem start_body {A : Archive} {net : Net} {d : Disk} {name : String} (h : Prefixed A d) (hh : net.honours = true) :
    start d name ++ body A net d name = A.bytes name := by
  unfold start body
  by_cases h0 : 0 < have' d name
  · obtain ⟨b, hb, hl⟩ := have_pos h0
    rw [if_pos h0, if_pos ⟨h0, hh⟩, hb, hl]
    obtain ⟨t, ht⟩ := h name b hb
    rw [← ht, List.drop_left]
    rfl
  · rw [if_neg h0, if_neg (fun hc => h0 hc.1)]
    rfl

theorem prefixed_part {A : Archive} {net : Net} {d : Disk} {name : String} (h : Prefixed A d) (hh : net.honours = true) (n : ℕ) :
    Prefixed A (partState A net d name n) := by
  intro x b hb
  have hb' : upd d.parts name (some (start d name ++ (body A net d name).take n)) x = some b := hb
  by_cases hx : x = name
  · subst hx
    rw [upd_same] at hb'
    cases hb'
    have e := start_body (A := A) (net := net) (name := x) h hh
    rw [← e]
    exact (List.prefix_append_right_inj _).2 (List.take_prefix _ _)
  · rw [upd_other _ _ hx] at hb'
    exact h x b hb'

theorem tries_prefixed {A : Archive} {net : Net} {name : String} (hh : net.honours = true) : ∀ (k : ℕ) (as : List Attempt) (d : Disk), Prefixed A d →
    (∀ d' ∈ (tries A net name k as d).1, Prefixed A d') ∧ ∀ d', (tries A net name k as d).2 = some d' → Prefixed A d' := by
  intro k
  induction k with
  | zero => intro as d _; exact ⟨(by intro d' h; simp [tries] at h), (by intro d' h; simp [tries] at h)⟩
  | succ k ih =>
    intro as d hd
    rcases as with _ | ⟨_ | ⟨n, cut⟩, as⟩
    · exact ih [] d hd
    · exact ih as d hd
    · have hp := fun j => prefixed_part (net := net) (name := name) hd hh j
      have hr : Prefixed A (rename (partState A net d name n) name) := prefixed_upd_none (hp n) rfl
      unfold tries
      split_ifs with hc
      · constructor
        · intro d' h
          rcases mem_andThen h with h | ⟨d1, h1, h⟩
          · obtain ⟨j, -, rfl⟩ := List.mem_map.1 h
            exact hp j
          · cases h1
            exact (ih as _ (hp n)).1 d' h
        · intro d' h
          obtain ⟨d1, h1, h2⟩ := andThen_some h
          cases h1
          exact (ih as _ (hp n)).2 d' h2
      · constructor
        · intro d' h
          rcases List.mem_append.1 h with h | h
          · obtain ⟨j, -, rfl⟩ := List.mem_map.1 h
            exact hp j
          · rw [List.mem_singleton.1 h]; exact hr
        · intro d' h
          cases h
          exact hr

theorem fetch_prefixed {A : Archive} {net : Net} {name : String} (hh : net.honours = true) {d : Disk} (hd : Prefixed A d) :
    (∀ d' ∈ (fetch A net name d).1, Prefixed A d') ∧ ∀ d', (fetch A net name d).2 = some d' → Prefixed A d' := by
  unfold fetch
  split_ifs
  · constructor
    · intro d' h
      rw [List.mem_singleton.1 h]
      exact prefixed_upd_none hd rfl
    · intro d' h
      cases h
      exact prefixed_upd_none hd rfl
  · exact tries_prefixed hh _ _ _ hd

theorem install_parts {A : Archive} {net : Net} {d : Disk} {key name : String} :
    (∀ d' ∈ (install A net d key name).1, d'.parts = d.parts) ∧ ∀ d', (install A net d key name).2 = some d' → d'.parts = d.parts := by
  constructor
  · intro d' h
    rcases mem_andThen h with h | ⟨d1, h1, h⟩
    · unfold unpack at h
      split_ifs at h
      all_goals
        obtain ⟨k, -, rfl⟩ := List.mem_map.1 h
        rfl
    · rw [List.mem_singleton.1 h]
      unfold unpack at h1
      split_ifs at h1
      cases h1
      rfl
  · intro d' h
    obtain ⟨d1, h1, h2⟩ := andThen_some h
    unfold unpack at h1
    split_ifs at h1
    cases h1
    cases h2
    rfl

theorem rmFiles_parts {d d' : Disk} {key : String} : ∀ {l : List (ℕ × ℕ)}, d' ∈ rmFiles d key l → d'.parts = d.parts := by
  intro l
  induction l with
  | nil => intro h; rw [List.mem_singleton.1 h]
  | cons p r ih =>
    intro h
    rcases List.mem_cons.1 h with rfl | h
    · rfl
    · exact ih h

theorem renew_prefixed {A : Archive} {net : Net} {d : Disk} {vs : List (String × String)} {key name : String} {pre : Tr Disk} (hh : net.honours = true)
    (hp : ∀ d' ∈ pre.1, Prefixed A d') (hp2 : ∀ d', pre.2 = some d' → Prefixed A d') :
    (∀ d' ∈ (renew A net d vs key name pre).1, Prefixed A d') ∧
    ∀ d' vs', (renew A net d vs key name pre).2 = some (d', vs') → Prefixed A d' := by
  unfold renew
  constructor
  · intro d' h
    rcases mem_andThen h with h | ⟨d2, h2, h⟩
    · rcases mem_andThen h with h | ⟨d1, h1, h⟩
      · rcases mem_andThen h with h | ⟨d0, h0, h⟩
        · exact hp d' h
        · exact (fetch_prefixed hh (hp2 d0 h0)).1 d' h
      · obtain ⟨d0, h0, h1⟩ := andThen_some h1
        exact ((fetch_prefixed hh (hp2 d0 h0)).2 d1 h1).parts (install_parts.1 d' h)
    · cases h
  · intro d' vs' h
    obtain ⟨d2, h2, h⟩ := andThen_some h
    obtain ⟨d1, h1, h2⟩ := andThen_some h2
    obtain ⟨d0, h0, h1⟩ := andThen_some h1
    cases h
    exact ((fetch_prefixed hh (hp2 d0 h0)).2 d1 h1).parts (install_parts.2 d' h2)

theorem runKey_prefixed {A : Archive} {update force : Bool} {net : Net} {d : Disk} {vs : List (String × String)} {key name : String}
    (hh : net.honours = true) (hd : Prefixed A d) :
    (∀ d' ∈ (runKey A update force net d vs key name).1, Prefixed A d') ∧
    ∀ d' vs', (runKey A update force net d vs key name).2 = some (d', vs') → Prefixed A d' := by
  unfold runKey
  cases choose update force (d.dirs key).isSome vs key name with
  | skip => exact ⟨(by intro d' h; cases h), (by intro d' vs' h; cases h; exact hd)⟩
  | replace =>
    refine renew_prefixed hh (fun d' h => hd.parts (rmFiles_parts h)) ?_
    intro d' h
    cases h
    exact hd.parts rfl
  | create =>
    refine renew_prefixed hh (by intro d' h; cases h) ?_
    intro d' h
    cases h
    exact hd

theorem runKeys_prefixed {A : Archive} {fd : String → Option String} {update force : Bool} {net : String → Net} (hh : ∀ k, (net k).honours = true)
    (keys : List String) : ∀ (d : Disk) (vs : List (String × String)), Prefixed A d →
    (∀ d' ∈ (runKeys A fd update force net keys d vs).1, Prefixed A d') ∧
    ∀ d' vs', (runKeys A fd update force net keys d vs).2 = some (d', vs') → Prefixed A d' := by
  induction keys with
  | nil => intro d vs hd; exact ⟨(by intro d' h; cases h), (by intro d' vs' h; cases h; exact hd)⟩
  | cons key keys ih =>
    intro d vs hd
    unfold runKeys
    rcases hk : fd key with _ | name
    · exact ⟨(by intro d' h; cases h), (by intro d' vs' h; cases h)⟩
    dsimp only
    obtain ⟨k1, k2⟩ := runKey_prefixed (A := A) (update := update) (force := force) (net := net key) (vs := vs) (key := key) (name := name) (hh key) hd
    constructor
    · intro d' h
      rcases mem_andThen h with h | ⟨⟨d1, vs1⟩, h1, h⟩
      · exact k1 d' h
      · exact (ih d1 vs1 (k2 d1 vs1 h1)).1 d' h
    · intro d' vs' h
      obtain ⟨⟨d1, vs1⟩, h1, h2⟩ := andThen_some h
      exact (ih d1 vs1 (k2 d1 vs1 h1)).2 d' vs' h2

theorem fetch_good {A : Archive} {net : Net} {name : String} {d : Disk} (hg : Good A net name) (hd : Prefixed A d) :
    ∃ d', (fetch A net name d).2 = some d' ∧ d'.finals name = some (A.bytes name) := by
  unfold fetch
  split_ifs with hc
  · refine ⟨_, rfl, ?_⟩
    show upd d.finals name (d.parts name) name = _
    rw [upd_same]
    obtain ⟨b, hb⟩ := Option.isSome_iff_exists.1 hc.1
    have hl : have' d name = b.length := by unfold have'; rw [hb]; rfl
    have ht : net.total = (A.bytes name).length := hg.total.resolve_left (by omega)
    have hle : (A.bytes name).length ≤ b.length := by rw [← ht, ← hl]; exact hc.2.2
    rw [hb, List.IsPrefix.eq_of_length_le (hd name b hb) hle]
  · obtain ⟨n, as, ha, hn⟩ := hg.first
    rw [ha]
    have hwhole : start d name ++ (body A net d name).take n = A.bytes name := by
      have e := start_body (A := A) (net := net) (name := name) hd hg.honours
      have hlen : (body A net d name).length ≤ n := by
        have := congrArg List.length e
        rw [List.length_append] at this
        omega
      rw [List.take_of_length_le hlen, e]
    have hpart : (partState A net d name n).parts name = some (A.bytes name) := by
      show upd d.parts name _ name = _
      rw [upd_same, hwhole]
    have hhave : have' (partState A net d name n) name = (A.bytes name).length := by unfold have'; rw [hpart]; rfl
    have hno : ¬(false = true ∨ (0 < net.total ∧ have' (partState A net d name n) name < net.total)) := by
      rw [hhave]
      rintro (h | ⟨h1, h2⟩)
      · cases h
      · rcases hg.total with h | h <;> omega
    unfold tries
    rw [if_neg hno]
    refine ⟨_, rfl, ?_⟩
    show upd (partState A net d name n).finals name ((partState A net d name n).parts name) name = _
    rw [upd_same, hpart]

theorem install_good {A : Archive} {net : Net} {d : Disk} {key name : String} (h : d.finals name = some (A.bytes name)) :
    ∃ d', (install A net d key name).2 = some d' := by
  unfold install
  have e : (unpack A net d key name).2 = some (unpackState A d key name (A.members name).length) := by unfold unpack; rw [if_pos h]
  rw [andThen_result e]
  exact ⟨_, rfl⟩

theorem renew_good {A : Archive} {net : Net} {d d0 : Disk} {vs : List (String × String)} {key name : String} {pre : Tr Disk} (hg : Good A net name)
    (h0 : pre.2 = some d0) (hd : Prefixed A d0) : ∃ r, (renew A net d vs key name pre).2 = some r := by
  obtain ⟨d1, h1, hf⟩ := fetch_good hg hd
  obtain ⟨d2, h2⟩ := install_good (net := net) (key := key) hf
  refine ⟨(d2, put key name vs), ?_⟩
  unfold renew
  have e1 : (andThen pre (fetch A net name)).2 = some d1 := by rw [andThen_result h0]; exact h1
  have e2 : (andThen (andThen pre (fetch A net name)) (fun d1 => install A net d1 key name)).2 = some d2 := by rw [andThen_result e1]; exact h2
  rw [andThen_result e2]

theorem runKey_good {A : Archive} {update force : Bool} {net : Net} {d : Disk} {vs : List (String × String)} {key name : String}
    (hg : Good A net name) (hd : Prefixed A d) : ∃ r, (runKey A update force net d vs key name).2 = some r := by
  unfold runKey
  cases choose update force (d.dirs key).isSome vs key name with
  | skip => exact ⟨_, rfl⟩
  | replace => exact renew_good hg rfl (hd.parts rfl)
  | create => exact renew_good hg rfl hd

theorem runKeys_good {A : Archive} {fd : String → Option String} {update force : Bool} {net : String → Net} (keys : List String)
    (hg : ∀ key ∈ keys, ∃ name, fd key = some name ∧ Good A (net key) name) : ∀ (d : Disk) (vs : List (String × String)), Prefixed A d →
    ∃ r, (runKeys A fd update force net keys d vs).2 = some r := by
  induction keys with
  | nil => intro d vs _; exact ⟨_, rfl⟩
  | cons key keys ih =>
    intro d vs hd
    obtain ⟨name, hk, g⟩ := hg key List.mem_cons_self
    unfold runKeys
    rw [hk]
    dsimp only
    obtain ⟨⟨d1, vs1⟩, h1⟩ := runKey_good (update := update) (force := force) (vs := vs) (key := key) g hd
    rw [andThen_result h1]
    exact ih (fun k hm => hg k (List.mem_cons_of_mem _ hm)) d1 vs1 ((runKey_prefixed g.honours hd).2 d1 vs1 h1)

end Dl

/-- Interrupted downloads are resumed: with a server that honours ranges, partial files stay
beginnings of their archives, whatever the step after which a run stops. -/
theorem C53_prefix (A : Archive) (fd : String → Option String) (keys : List String) (update force : Bool) (net : String → Net)
    (hh : ∀ k, (net k).honours = true) (d d' : Disk) (hd : Prefixed A d)
    (hc : d' ∈ (download A fd keys update force net d).1 ∨ (download A fd keys update force net d).2 = some d') : Prefixed A d' := by
  rcases hc with hc | hc
  · unfold download at hc
    rcases hv : versions d with _ | vs <;> rw [hv] at hc
    · cases hc
    dsimp only at hc
    obtain ⟨r1, r2⟩ := runKeys_prefixed (A := A) (fd := fd) (update := update) (force := force) (net := net) hh keys d vs hd
    rcases mem_andThen hc with hc | ⟨⟨d1, vs1⟩, h1, hc⟩
    · exact r1 d' hc
    · have key : ∀ (post pre : List (String × String)), d' ∈ writeVersions d1 pre post → d'.parts = d1.parts := by
        intro post
        induction post with
        | nil => intro pre h; rw [List.mem_singleton.1 h]
        | cons p r ih =>
          intro pre h
          rcases List.mem_cons.1 h with rfl | h
          · rfl
          rcases List.mem_cons.1 h with rfl | h
          · rfl
          exact ih _ h
      exact (r2 d1 vs1 h1).parts (key vs1 [] hc)
  · obtain ⟨vs, d1, vs1, hv, h1, rfl⟩ := download_some hc
    exact ((runKeys_prefixed hh keys d vs hd).2 d1 vs1 h1).parts rfl

/-- C53: with a server that sends everything, a run finishes, whatever was downloaded before, if
the version file can be read. -/
theorem C53_finishes_partial (A : Archive) (fd : String → Option String) (keys : List String) (update force : Bool) (net : String → Net) (d : Disk)
    (hg : ∀ key ∈ keys, ∃ name, fd key = some name ∧ Good A (net key) name) (hd : Prefixed A d) (hv : versions d ≠ none) :
    ∃ d', (download A fd keys update force net d).2 = some d' := by
  unfold download
  obtain ⟨vs, hv⟩ := Option.ne_none_iff_exists'.1 hv
  rw [hv]
  dsimp only
  obtain ⟨r, h1⟩ := runKeys_good (A := A) (fd := fd) (update := update) (force := force) keys hg d vs hd
  rw [andThen_result h1]
  exact ⟨_, rfl⟩

/-! ### Where it fails -/

/-- Two archives of one key, with two members each. -/
def twoA : Archive where
  bytes := fun n => if n = "new.tgz" then [1, 2, 3] else [4, 5]
  members := fun n => if n = "new.tgz" then [(0, 10), (1, 11)] else [(0, 20), (1, 21)]

def curr : String → Option String := fun k => if k = "sched" then some "new.tgz" else none
def prev : String → Option String := fun k => if k = "sched" then some "old.tgz" else none

def goodNet (n : ℕ) : String → Net := fun _ => { total := n, honours := true, attempts := [.body 3 false], junk := 0 }

/-- What can be seen of a disk: the directory and the record of the key. -/
def seenOf (d : Disk) : Option (List (ℕ × ℕ)) × Option (List (String × Option String)) := (d.dirs "sched", d.vers)

/-- A disk with the directory of the key and its record. -/
def diskOf (dir : Option (List (ℕ × ℕ))) (vers : Option (List (String × Option String))) : Disk :=
  { dirs := fun k => if k = "sched" then dir else none, parts := fun _ => none, finals := fun _ => none, vers := vers }

/-- The disk after `n` steps of a run and then an update run. -/
def thenUpdate (fd : String → Option String) (t : Tr Disk) (n : ℕ) : Option (Option (List (ℕ × ℕ)) × Option (List (String × Option String))) :=
  (t.1[n]?).bind (fun d => ((download twoA fd ["sched"] true false (goodNet 3) d).2).map seenOf)

/-- C53 fails with `force`: the old directory is recorded as current while it is removed and
unpacked again. Stopped there, no update run notices. -/
theorem C53_force_violated :
    let d := diskOf (some [(0, 10), (1, 11)]) (some [("sched", some "new.tgz")])
    let t := download twoA curr ["sched"] false true (goodNet 3) d
    Sound twoA curr d ∧ thenUpdate curr t 0 = some (some [(1, 11)], some [("sched", some "new.tgz")]) ∧
    thenUpdate curr t 9 = some (some [(0, 10)], some [("sched", some "new.tgz")]) := by
  refine ⟨?_, by decide +kernel, by decide +kernel⟩
  intro key name hk _
  unfold curr at hk
  split_ifs at hk with e
  cases hk
  subst e
  unfold Complete
  decide +kernel

/-- The same without `force`, when the directory is missing although it is recorded. -/
theorem C53_missing_violated :
    let d := diskOf none (some [("sched", some "new.tgz")])
    thenUpdate curr (download twoA curr ["sched"] false false (goodNet 3) d) 6 = some (some [(0, 10)], some [("sched", some "new.tgz")]) := by
  decide +kernel

/-- The same when an upgrade is stopped and the package is then downgraded: the half-unpacked new
data is recorded under the old version. -/
theorem C53_downgrade_violated :
    let d := diskOf (some [(0, 20), (1, 21)]) (some [("sched", some "old.tgz")])
    thenUpdate prev (download twoA curr ["sched"] true false (goodNet 3) d) 9 = some (some [(0, 10)], some [("sched", some "old.tgz")]) := by
  decide +kernel

/-- Once the version file has a line without a comma, no run does anything: each raises at once. -/
theorem C53_unreadable (A : Archive) (fd : String → Option String) (keys : List String) (update force : Bool) (net : String → Net) (d : Disk)
    (h : versions d = none) : download A fd keys update force net d = ([], none) := by
  unfold download
  rw [h]

/-- C53 fails when the run stops while it writes the version file: the directories are complete,
but every later run raises. -/
theorem C53_torn_violated :
    let t := download twoA curr ["sched"] true false (goodNet 3) (diskOf none none)
    ∃ d, t.1[10]? = some d ∧ seenOf d = (some [(0, 10), (1, 11)], some [("sched", none)]) ∧
      ∀ keys update force net, (download twoA curr keys update force net d).2 = none := by
  refine ⟨_, rfl, by decide +kernel, ?_⟩
  intro keys update force net
  rw [C53_unreadable]
  decide +kernel

/-- Running the default command again after a stop is not enough: a directory that exists is taken
as it is. -/
theorem C53_default_skips (A : Archive) (fd : String → Option String) (keys : List String) (net : String → Net) (d : Disk) (vs : List (String × String))
    (hv : versions d = some vs) (hk : ∀ key ∈ keys, (fd key).isSome ∧ (d.dirs key).isSome) :
    (download A fd keys false false net d).2 = some { d with vers := some (whole vs) } := by
  have key : ∀ l : List String, (∀ key ∈ l, (fd key).isSome ∧ (d.dirs key).isSome) → runKeys A fd false false net l d vs = ([], some (d, vs)) := by
    intro l
    induction l with
    | nil => intro _; rfl
    | cons k l ih =>
      intro h
      obtain ⟨h1, h2⟩ := h k List.mem_cons_self
      obtain ⟨n, hn⟩ := Option.isSome_iff_exists.1 h1
      unfold runKeys
      rw [hn]
      have e : runKey A false false (net k) d vs k n = ([], some (d, vs)) := by
        unfold runKey choose
        rw [h2]
        rfl
      dsimp only
      rw [e]
      show ([] ++ (runKeys A fd false false net l d vs).1, (runKeys A fd false false net l d vs).2) = _
      rw [ih (fun x hx => h x (List.mem_cons_of_mem _ hx))]
      rfl
  unfold download
  rw [hv]
  dsimp only
  rw [key keys hk]
  rfl

/-- A server that ignores the range: the archive is wrong, the run raises when unpacking, and the
partial file is gone, so the next run starts afresh. -/
theorem C53_range_ignored :
    let d := { diskOf none none with parts := fun n => if n = "new.tgz" then some [1] else none }
    let bad : String → Net := fun _ => { total := 3, honours := false, attempts := [.body 3 false], junk := 0 }
    let t := download twoA curr ["sched"] true false bad d
    t.2.isNone ∧ (t.1.getLast?.map (fun d => (d.dirs "sched", d.parts "new.tgz", d.finals "new.tgz"))) = some (some [], none, some [1, 1, 2, 3]) ∧
    ((t.1.getLast?.bind (fun d => (download twoA curr ["sched"] true false (goodNet 3) d).2)).map seenOf) =
      some (some [(0, 10), (1, 11)], some [("sched", some "new.tgz")]) := by
  refine ⟨by decide +kernel, by decide +kernel, by decide +kernel⟩

/-! ### The hypotheses are met -/

/-- A run on an empty disk finishes, as `C53_cleaned` asks. -/
example : (∀ x, (diskOf none none).finals x = none) ∧ (download twoA curr ["sched"] true false (goodNet 3) (diskOf none none)).2.isSome :=
  ⟨fun _ => rfl, by decide +kernel⟩

/-- A run stopped in the middle of unpacking, an update run after it: complete and recorded. -/
example : let d := diskOf (some [(0, 20), (1, 21)]) (some [("sched", some "old.tgz")])
    (((download twoA curr ["sched"] true false (goodNet 3) d).1[9]?).map seenOf = some (some [(0, 10)], some [("sched", some "old.tgz")])) ∧
    thenUpdate curr (download twoA curr ["sched"] true false (goodNet 3) d) 9 = some (some [(0, 10), (1, 11)], some [("sched", some "new.tgz")]) := by
  exact ⟨by decide +kernel, by decide +kernel⟩

/-- The disk of that example is sound. -/
example : Sound twoA curr (diskOf (some [(0, 20), (1, 21)]) (some [("sched", some "old.tgz")])) := by
  rintro key name hk ⟨vs, hv, hg⟩
  unfold curr at hk
  split_ifs at hk with e
  cases hk
  subst e
  cases hv
  exact absurd hg (by decide +kernel)

example : Good twoA (goodNet 3 "sched") "new.tgz" := ⟨rfl, Or.inr (by decide +kernel), 3, [], rfl, (by decide +kernel)⟩

/-- Two broken connections, then the rest: the partial file is continued. -/
example : let net : String → Net := fun _ => { total := 3, honours := true, attempts := [.body 1 true, .refused, .body 1 false, .body 5 false], junk := 0 }
    ((download twoA curr ["sched"] true false net (diskOf none none)).2.map seenOf) = some (some [(0, 10), (1, 11)], some [("sched", some "new.tgz")]) := by
  decide +kernel

example : Prefixed twoA (diskOf none none) := by intro n b h; cases h

end Verif
