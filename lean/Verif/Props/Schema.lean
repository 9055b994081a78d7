import Verif.Spec.Schema
import Mathlib.Data.List.Nodup
import Mathlib.Tactic.FieldSimp
import Mathlib.Tactic.Ring
import Mathlib.Algebra.Order.Floor.Ring

/-! # C48: the output schema -/

namespace Verif
namespace Sch

/-- The columns given by a function. -/
def mkCols (ns : List String) (v : String → List Val) : List (String × List Val) := ns.map (fun k => (k, v k))

theorem mkCols_names (ns : List String) (v : String → List Val) : (mkCols ns v).map Prod.fst = ns := by
  unfold mkCols; rw [List.map_map]; exact List.map_id ns

theorem look_mk {ns : List String} {v : String → List Val} {k : String} (h : k ∈ ns) : look k (mkCols ns v) = some (v k) := by
  induction ns with
  | nil => cases h
  | cons a r ih =>
    show (if a = k then some (v a) else look k (mkCols r v)) = _
    by_cases e : a = k
    · rw [if_pos e, e]
    · rw [if_neg e]
      exact ih ((List.mem_cons.1 h).resolve_left (Ne.symm e))

theorem place_mk {ns : List String} {v : String → List Val} {k : String} (hn : ns.Nodup) (h : k ∈ ns) (w : List Val) :
    place k w (mkCols ns v) = mkCols ns (fun x => if x = k then w else v x) := by
  induction ns with
  | nil => cases h
  | cons a r ih =>
    rw [List.nodup_cons] at hn
    show (if a = k then (k, w) :: mkCols r v else (a, v a) :: place k w (mkCols r v)) = (a, if a = k then w else v a) :: mkCols r _
    by_cases e : a = k
    · rw [if_pos e, if_pos e, e]
      congr 1
      unfold mkCols
      apply List.map_congr_left
      intro x hx
      have : x ≠ k := by rintro rfl; exact hn.1 (e ▸ hx)
      dsimp only
      rw [if_neg this]
    · rw [if_neg e, if_neg e, ih hn.2 ((List.mem_cons.1 h).resolve_left (Ne.symm e))]

/-- Renaming with an inverse. -/
theorem rename_mk {ns : List String} {v : String → List Val} {d d' : List (String × String)} {n : ℕ} (h : ∀ k ∈ ns, trans d' (trans d k) = k) :
    (Frame.mk n (mkCols ns v)).rename d = ⟨n, mkCols (ns.map (trans d)) (fun x => v (trans d' x))⟩ := by
  unfold Frame.rename mkCols
  congr 1
  rw [List.map_map, List.map_map]
  apply List.map_congr_left
  intro k hk
  show (trans d k, v k) = (trans d k, v (trans d' (trans d k)))
  rw [h k hk]

/-- A column of numbers. -/
def Numeric (l : List Val) : Prop := ∀ x ∈ l, (∃ y, x = .num y) ∨ x = .nan

theorem scaleCol_times {c : ℚ} {l : List Val} (h : Numeric l) : scaleCol c l = some (l.map (times c)) := by
  induction l with
  | nil => rfl
  | cons a r ih =>
    have hr := ih (fun x hx => h x (List.mem_cons_of_mem _ hx))
    unfold scaleCol
    rw [hr]
    rcases h a List.mem_cons_self with ⟨y, rfl⟩ | rfl <;> rfl

theorem numeric_times {c : ℚ} {l : List Val} (h : Numeric l) : Numeric (l.map (times c)) := by
  intro x hx
  obtain ⟨a, ha, rfl⟩ := List.mem_map.1 hx
  rcases h a ha with ⟨y, rfl⟩ | rfl
  · exact Or.inl ⟨y * c, rfl⟩
  · exact Or.inr rfl

theorem times_times {c c' : ℚ} (h : c * c' = 1) (l : List Val) : (l.map (times c)).map (times c') = l := by
  rw [List.map_map]
  conv_rhs => rw [← List.map_id l]
  apply List.map_congr_left
  intro x _
  cases x with
  | num y => show Val.num (y * c * c') = _; rw [mul_assoc, h, mul_one]; rfl
  | nan => rfl
  | str s => rfl

/-- Some columns multiplied. -/
def scaled (c : ℚ) (ks : List String) (v : String → List Val) (x : String) : List Val := if x ∈ ks then (v x).map (times c) else v x

theorem scaled_cons {c : ℚ} {k : String} {ks : List String} (v : String → List Val) (hn : k ∉ ks) :
    scaled c ks (fun x => if x = k then (v k).map (times c) else v x) = scaled c (k :: ks) v := by
  funext x
  unfold scaled
  dsimp only
  by_cases e : x = k
  · subst e
    rw [if_neg hn, if_pos rfl, if_pos List.mem_cons_self]
  · rw [if_neg e]
    by_cases hx : x ∈ ks
    · rw [if_pos hx, if_pos (List.mem_cons_of_mem _ hx)]
    · rw [if_neg hx, if_neg (by rw [List.mem_cons]; exact fun h => h.elim e hx)]

theorem scaleAll_mk {c : ℚ} {ns : List String} {n : ℕ} (hn : ns.Nodup) : ∀ (ks : List String) (v : String → List Val), ks.Nodup → (∀ k ∈ ks, k ∈ ns) →
    (∀ k ∈ ks, Numeric (v k)) → scaleAll c ks ⟨n, mkCols ns v⟩ = some ⟨n, mkCols ns (scaled c ks v)⟩ := by
  intro ks
  induction ks with
  | nil => intro v _ _ _; rfl
  | cons k ks ih =>
    intro v hk hm hv
    rw [List.nodup_cons] at hk
    have e1 : scaleAt c k ⟨n, mkCols ns v⟩ = some ⟨n, mkCols ns (fun x => if x = k then (v k).map (times c) else v x)⟩ := by
      unfold scaleAt Frame.col
      dsimp only
      rw [look_mk (hm k List.mem_cons_self), Option.bind_some, scaleCol_times (hv k List.mem_cons_self), Option.map_some]
      unfold Frame.set
      dsimp only
      rw [place_mk hn (hm k List.mem_cons_self)]
    unfold scaleAll
    rw [e1, Option.bind_some, ih _ hk.2 (fun x hx => hm x (List.mem_cons_of_mem _ hx)), scaled_cons v hk.1]
    intro x hx
    have : x ≠ k := by rintro rfl; exact hk.1 hx
    rw [if_neg this]
    exact hv x (List.mem_cons_of_mem _ hx)

theorem scaleOrAll_mk {c : ℚ} {ns : List String} {n : ℕ} (hn : ns.Nodup) : ∀ (ks : List String) (v : String → List Val), ks.Nodup → (∀ k ∈ ks, k ∈ ns) →
    (∀ k ∈ ks, Numeric (v k)) → scaleOrAll c ks ⟨n, mkCols ns v⟩ = ⟨n, mkCols ns (scaled c ks v)⟩ := by
  intro ks
  induction ks with
  | nil => intro v _ _ _; rfl
  | cons k ks ih =>
    intro v hk hm hv
    rw [List.nodup_cons] at hk
    have e1 : scaleOr c k ⟨n, mkCols ns v⟩ = ⟨n, mkCols ns (fun x => if x = k then (v k).map (times c) else v x)⟩ := by
      unfold scaleOr Frame.col
      dsimp only
      rw [look_mk (hm k List.mem_cons_self), Option.bind_some, scaleCol_times (hv k List.mem_cons_self)]
      unfold Frame.set
      dsimp only
      rw [place_mk hn (hm k List.mem_cons_self)]
    unfold scaleOrAll
    rw [e1, ih _ hk.2 (fun x hx => hm x (List.mem_cons_of_mem _ hx)), scaled_cons v hk.1]
    intro x hx
    have : x ≠ k := by rintro rfl; exact hk.1 hx
    rw [if_neg this]
    exact hv x (List.mem_cons_of_mem _ hx)

theorem cast_fits {shown : Val → String} {t : Kind} {v : Val} (h : Fits t v) : cast shown t v = some v := by
  cases t with
  | int =>
    obtain ⟨z, rfl⟩ := h
    show some (Val.num (if (0 : ℚ) ≤ z then ((⌊(z : ℚ)⌋ : ℤ) : ℚ) else ((⌈(z : ℚ)⌉ : ℤ) : ℚ))) = _
    rw [Int.floor_intCast, Int.ceil_intCast, ite_self]
  | float =>
    rcases h with ⟨x, rfl⟩ | rfl <;> rfl
  | text n =>
    obtain ⟨s, rfl, hl⟩ := h
    show some (Val.str (String.ofList (s.toList.take n))) = _
    rw [List.take_of_length_le hl, String.ofList_toList]

theorem castCol_fits {shown : Val → String} {t : Kind} {l : List Val} (h : ∀ x ∈ l, Fits t x) : castCol shown t l = some l := by
  induction l with
  | nil => rfl
  | cons a r ih =>
    unfold castCol
    rw [cast_fits (h a List.mem_cons_self), ih (fun x hx => h x (List.mem_cons_of_mem _ hx))]

theorem count_nodup {ns : List String} {k : String} (h : ns.Nodup) : (ns.filter (fun x => x = k)).length ≤ 1 := by
  have : (ns.filter (fun x => x = k)).Nodup := h.filter _
  rcases hl : ns.filter (fun x => x = k) with _ | ⟨a, _ | ⟨b, r⟩⟩
  · simp
  · simp
  · exfalso
    rw [hl] at this
    have ha : a ∈ ns.filter (fun x => x = k) := by rw [hl]; simp
    have hb : b ∈ ns.filter (fun x => x = k) := by rw [hl]; simp
    have ea := of_decide_eq_true (List.mem_filter.1 ha).2
    have eb := of_decide_eq_true (List.mem_filter.1 hb).2
    rw [List.nodup_cons] at this
    exact this.1 (by rw [ea, eb]; exact List.mem_cons_self)

theorem fillAll_mk {shown : Val → String} {memory : String → List Val} {ns : List String} {v : String → List Val} {n : ℕ} (hn : ns.Nodup) :
    ∀ dt : List (String × Kind), (∀ k t, (k, t) ∈ dt → k ∈ ns → ∀ x ∈ v k, Fits t x) →
      fillAll shown memory ⟨n, mkCols ns v⟩ dt = some (dt.map (fun kt => (kt.1, if kt.1 ∈ ns then v kt.1 else memory kt.1))) := by
  intro dt
  induction dt with
  | nil => intro _; rfl
  | cons kt r ih =>
    intro h
    obtain ⟨k, t⟩ := kt
    have e : fillCol shown memory ⟨n, mkCols ns v⟩ (k, t) = some (k, if k ∈ ns then v k else memory k) := by
      unfold fillCol
      have hnames : (Frame.mk n (mkCols ns v)).names = ns := mkCols_names ns v
      have hc : ¬ 1 < (Frame.mk n (mkCols ns v)).count k := by
        unfold Frame.count
        rw [hnames]
        exact not_lt.2 (count_nodup hn)
      dsimp only
      rw [hnames]
      by_cases hk : k ∈ ns
      · rw [if_pos hk, if_neg hc, if_pos hk]
        unfold Frame.col
        dsimp only
        rw [look_mk hk, Option.bind_some, castCol_fits (h k t List.mem_cons_self hk)]
        rfl
      · rw [if_neg hk, if_neg hk]
    unfold fillAll
    rw [e, ih (fun k t hm => h k t (List.mem_cons_of_mem _ hm))]
    rfl

/-! ### The names -/

/-- The names of the visits without the one that is dropped. -/
def kept : List String := (dtype.map Prod.fst).filter (fun k => k ≠ "note")

/-- The names in the output. -/
def outNames : List String := kept.map (trans invMap)

theorem dtype_nodup : (dtype.map Prod.fst).Nodup := by decide +kernel
theorem out_nodup : outNames.Nodup := by decide +kernel
theorem angles_nodup : angles.Nodup := by decide +kernel
theorem angles_out : ∀ k ∈ angles, k ∈ outNames := by decide +kernel
theorem hours_out : ∀ k ∈ hours, k ∈ outNames := by decide +kernel
theorem inv_conv : ∀ k ∈ kept, trans convertDict (trans invMap k) = k := by decide +kernel
theorem conv_inv : ∀ k ∈ outNames, trans invMap (trans convertDict k) = k := by decide +kernel
theorem out_kept : outNames.map (trans convertDict) = kept := by decide +kernel
theorem no_target : "target" ∉ outNames := by decide +kernel
theorem angle_float : ∀ k ∈ angles, (trans convertDict k, Kind.float) ∈ dtype := by decide +kernel
theorem hour_float : ∀ k ∈ hours, (trans convertDict k, Kind.float) ∈ dtype := by decide +kernel
theorem hour_angle : ∀ k ∈ hours, k ∉ angles := by decide +kernel
theorem hours_nodup : hours.Nodup := by decide +kernel

/-- The columns of an array as a function. -/
def colOf (o : Frame) (k : String) : List Val := (o.col k).getD []

theorem visits_cols {o : Frame} (h : o.names.Nodup) : o.cols = mkCols o.names (colOf o) := by
  obtain ⟨n, cols⟩ := o
  have key : ∀ l : List (String × List Val), (l.map Prod.fst).Nodup → l = mkCols (l.map Prod.fst) (fun k => (look k l).getD []) := by
    intro l
    induction l with
    | nil => intro _; rfl
    | cons p r ih =>
      intro hn
      rw [List.map_cons, List.nodup_cons] at hn
      obtain ⟨k, v⟩ := p
      show (k, v) :: r = (k, (look k ((k, v) :: r)).getD []) :: mkCols (r.map Prod.fst) _
      have e0 : look k ((k, v) :: r) = some v := if_pos rfl
      rw [e0]
      congr 1
      conv_lhs => rw [ih hn.2]
      unfold mkCols
      apply List.map_congr_left
      intro x hx
      have hne : k ≠ x := by rintro rfl; exact hn.1 hx
      have e1 : look x ((k, v) :: r) = look x r := if_neg hne
      dsimp only
      rw [e1]
  exact key cols h

theorem Visits.nodup {o : Frame} (h : Visits o) : o.names.Nodup := by rw [h.names]; exact dtype_nodup

theorem Visits.fit {o : Frame} (h : Visits o) {k : String} {t : Kind} (hk : (k, t) ∈ dtype) :
    (colOf o k).length = o.rows ∧ ∀ x ∈ colOf o k, Fits t x := by
  have hm : k ∈ o.names := by rw [h.names]; exact List.mem_map.2 ⟨(k, t), hk, rfl⟩
  have : o.col k = some (colOf o k) := by
    have e : o.col k = look k o.cols := rfl
    rw [e, visits_cols h.nodup, look_mk hm]
  exact h.fits k t _ hk this

theorem Visits.col {o : Frame} (h : Visits o) {k : String} (hk : k ∈ dtype.map Prod.fst) : o.col k = some (colOf o k) := by
  have e : o.col k = look k o.cols := rfl
  rw [e, visits_cols h.nodup, look_mk (by rw [h.names]; exact hk)]

theorem fits_numeric {l : List Val} (h : ∀ x ∈ l, Fits .float x) : Numeric l := h

/-- What is written. -/
def outCol (p : ℚ) (o : Frame) : String → List Val :=
  scaled (360 / 24) hours (scaled (180 / p) angles (fun x => colOf o (trans convertDict x)))

theorem visits_numeric {o : Frame} (h : Visits o) (p : ℚ) :
    (∀ k ∈ angles, Numeric (colOf o (trans convertDict k))) ∧
    ∀ k ∈ hours, Numeric (scaled (180 / p) angles (fun x => colOf o (trans convertDict x)) k) := by
  refine ⟨fun k hk => (h.fit (angle_float k hk)).2, fun k hk => ?_⟩
  unfold scaled
  rw [if_neg (hour_angle k hk)]
  exact (h.fit (hour_float k hk)).2

theorem drop_mk {ns : List String} {v : String → List Val} {n : ℕ} {k : String} (hk : k ∈ ns) :
    (Frame.mk n (mkCols ns v)).drop k = some ⟨n, mkCols (ns.filter (fun x => x ≠ k)) v⟩ := by
  unfold Frame.drop
  have : (Frame.mk n (mkCols ns v)).names = ns := mkCols_names ns v
  rw [this, if_pos hk]
  congr 2
  unfold mkCols
  rw [List.filter_map]
  rfl

theorem obs2opsim_visits {o : Frame} (h : Visits o) (p : ℚ) : obs2opsim p o = some ⟨o.rows, mkCols outNames (outCol p o)⟩ := by
  have ho : o = ⟨o.rows, mkCols (dtype.map Prod.fst) (colOf o)⟩ := by
    obtain ⟨n, cols⟩ := o
    have e : cols = _ := visits_cols h.nodup
    rw [h.names] at e
    dsimp only
    conv_lhs => rw [e]
  obtain ⟨na, nh⟩ := visits_numeric h p
  unfold obs2opsim
  have hd : o.drop "note" = some ⟨o.rows, mkCols kept (colOf o)⟩ := by
    conv_lhs => rw [ho]
    exact drop_mk (by decide +kernel)
  rw [hd, Option.map_some, rename_mk inv_conv, Option.bind_some, ]
  have e1 := scaleAll_mk (c := 180 / p) (n := o.rows) out_nodup angles (fun x => colOf o (trans convertDict x)) angles_nodup angles_out na
  unfold outNames at e1
  rw [e1, Option.bind_some]
  exact scaleAll_mk out_nodup hours _ hours_nodup hours_out nh

theorem backward_none {f : Frame} (h : "target" ∉ f.names) : backward f backwards = f := by
  unfold backwards backward
  rw [if_neg h]
  rfl

/-- Reading a frame with the written columns. -/
theorem opsimdf2obs_mk {p : ℚ} (hp : p ≠ 0) (shown : Val → String) (memory : String → List Val) (n : ℕ) (w : String → List Val)
    (hw : ∀ k t, (k, t) ∈ dtype → k ∈ kept → ∀ x ∈ w k, Fits t x) :
    opsimdf2obs p shown memory ⟨n, mkCols outNames (scaled (360 / 24) hours (scaled (180 / p) angles (fun x => w (trans convertDict x))))⟩ =
      some ⟨n, dtype.map (fun kt => (kt.1, if kt.1 ∈ kept then w kt.1 else memory kt.1))⟩ := by
  have hna : ∀ k ∈ angles, Numeric (w (trans convertDict k)) := by
    intro k hk
    have hm : trans convertDict k ∈ kept := by rw [← out_kept]; exact List.mem_map.2 ⟨k, angles_out k hk, rfl⟩
    exact hw _ _ (angle_float k hk) hm
  have hnh : ∀ k ∈ hours, Numeric (w (trans convertDict k)) := by
    intro k hk
    have hm : trans convertDict k ∈ kept := by rw [← out_kept]; exact List.mem_map.2 ⟨k, hours_out k hk, rfl⟩
    exact hw _ _ (hour_float k hk) hm
  unfold opsimdf2obs
  dsimp only
  rw [backward_none (by
    have : (Frame.mk n (mkCols outNames (scaled (360 / 24) hours (scaled (180 / p) angles (fun x => w (trans convertDict x)))))).names = outNames := mkCols_names _ _
    rw [this]; exact no_target)]
  rw [scaleOrAll_mk out_nodup angles _ angles_nodup angles_out, scaleOrAll_mk out_nodup hours _ hours_nodup hours_out, rename_mk conv_inv, out_kept]
  · have e : (fun x => scaled (24 / 360) hours (scaled (p / 180) angles (scaled (360 / 24) hours (scaled (180 / p) angles (fun x => w (trans convertDict x))))) (trans invMap x)) =
        fun x => w (trans convertDict (trans invMap x)) := by
      funext x
      generalize trans invMap x = y
      unfold scaled
      dsimp only
      by_cases hh : y ∈ hours
      · rw [if_pos hh, if_neg (hour_angle y hh), if_pos hh, if_neg (hour_angle y hh), times_times (by norm_num)]
      · rw [if_neg hh, if_neg hh]
        by_cases ha : y ∈ angles
        · rw [if_pos ha, if_pos ha, times_times (by field_simp)]
        · rw [if_neg ha, if_neg ha]
    rw [e]
    have e2 : mkCols kept (fun x => w (trans convertDict (trans invMap x))) = mkCols kept w := by
      unfold mkCols
      apply List.map_congr_left
      intro k hk
      dsimp only
      rw [inv_conv k hk]
    rw [e2, fillAll_mk (by unfold kept; exact dtype_nodup.filter _) dtype (fun k t hk hm => hw k t hk hm)]
    rfl
  · intro k hk
    unfold scaled
    rw [if_neg (hour_angle k hk), if_pos hk, if_neg (hour_angle k hk)]
    exact numeric_times (hnh k hk)
  · intro k hk
    unfold scaled
    have : k ∉ hours := fun h => hour_angle k h hk
    rw [if_neg this, if_pos hk]
    exact numeric_times (hna k hk)

/-- Columns as written. -/
def enc (p : ℚ) (w : String → List Val) : String → List Val :=
  scaled (360 / 24) hours (scaled (180 / p) angles (fun x => w (trans convertDict x)))

theorem enc_append (p : ℚ) (w w' : String → List Val) (k : String) : enc p w k ++ enc p w' k = enc p (fun x => w x ++ w' x) k := by
  unfold enc scaled
  split_ifs <;> simp

/-- The table with given columns. -/
def tableOf (p : ℚ) (n : ℕ) (w : String → List Val) : Table := toTable ⟨n, mkCols outNames (enc p w)⟩

theorem ofCell_toCell (l : List Val) : (l.map toCell).map ofCell = l := by
  rw [List.map_map]
  conv_rhs => rw [← List.map_id l]
  apply List.map_congr_left
  intro x _
  cases x <;> rfl

theorem read_tableOf {p : ℚ} (hp : p ≠ 0) (shown : Val → String) (memory : String → List Val) (n : ℕ) (w : String → List Val)
    (hw : ∀ k t, (k, t) ∈ dtype → k ∈ kept → ∀ x ∈ w k, Fits t x) :
    read p shown memory (some (tableOf p n w)) = some ⟨n, dtype.map (fun kt => (kt.1, if kt.1 ∈ kept then w kt.1 else memory kt.1))⟩ := by
  rw [← opsimdf2obs_mk hp shown memory n w hw]
  unfold read tableOf toTable
  rw [Option.bind_some]
  dsimp only
  congr 2
  rw [List.map_map]
  unfold mkCols
  rw [List.map_map]
  apply List.map_congr_left
  intro k _
  show (k, ((enc p w k).map toCell).map ofCell) = _
  rw [ofCell_toCell]
  rfl

theorem append_tableOf {o : Frame} (h : Visits o) (p : ℚ) (n : ℕ) (w : String → List Val) :
    write p false .append (some (tableOf p n w)) o = some (tableOf p (n + o.rows) (fun k => w k ++ colOf o k)) := by
  unfold write
  rw [obs2opsim_visits h p, Option.bind_some]
  show addRows (tableOf p n w) _ = _
  unfold addRows
  have hn : (Frame.mk o.rows (mkCols outNames (outCol p o))).names = outNames := mkCols_names _ _
  have ht : (tableOf p n w).cols.map Prod.fst = outNames := by
    unfold tableOf toTable
    dsimp only
    rw [List.map_map]
    exact mkCols_names outNames (enc p w)
  rw [hn, ht, if_pos (fun _ hk => hk)]
  congr 1
  unfold tableOf toTable
  dsimp only
  congr 1
  rw [List.map_map]
  unfold mkCols
  rw [List.map_map, List.map_map]
  apply List.map_congr_left
  intro k hk
  show (k, (enc p w k).map toCell ++ cells _ k) = (k, (enc p (fun k => w k ++ colOf o k) k).map toCell)
  have hc : cells ⟨o.rows, mkCols outNames (outCol p o)⟩ k = (enc p (colOf o) k).map toCell := by
    unfold cells Frame.col
    dsimp only
    rw [look_mk hk]
    rfl
  unfold mkCols at hc
  rw [hc, ← List.map_append, enc_append]

theorem look_map {ks : List (String × Kind)} {g : String → List Val} {k : String} (h : k ∈ ks.map Prod.fst) :
    look k (ks.map (fun kt => (kt.1, g kt.1))) = some (g k) := by
  have := look_mk (v := g) h
  unfold mkCols at this
  rw [List.map_map] at this
  exact this

theorem mem_kept {k : String} (h : k ∈ dtype.map Prod.fst) (hk : k ≠ "note") : k ∈ kept := by
  unfold kept
  exact List.mem_filter.2 ⟨h, decide_eq_true hk⟩

/-- Arrays added to a file, one after the other. -/
def writes (p : ℚ) : Option Table → List Frame → Option Table
  | file, [] => file
  | file, o :: r => (write p false .append file o).bind (fun t => writes p (some t) r)

theorem writes_table {p : ℚ} : ∀ (os : List Frame) (n : ℕ) (w : String → List Val), (∀ o ∈ os, Visits o) →
    writes p (some (tableOf p n w)) os = some (tableOf p (n + (os.map Frame.rows).sum) (fun k => w k ++ (os.map (fun o => colOf o k)).flatten)) := by
  intro os
  induction os with
  | nil =>
    intro n w _
    unfold writes
    simp
  | cons o r ih =>
    intro n w h
    unfold writes
    rw [append_tableOf (h o List.mem_cons_self), Option.bind_some, ih _ _ (fun x hx => h x (List.mem_cons_of_mem _ hx))]
    simp [Nat.add_assoc]

end Sch

open Sch

/-- C48 for data frames: every column but `note`, which is not stored, comes back as it was. -/
theorem C48_roundtrip (p : ℚ) (hp : p ≠ 0) (shown : Val → String) (memory : String → List Val) (o : Frame) (h : Visits o) :
    ∃ f, obs2opsim p o = some f ∧ "note" ∉ f.names ∧ ∃ o', opsimdf2obs p shown memory f = some o' ∧ o'.rows = o.rows ∧ o'.names = o.names ∧
      ∀ k, k ≠ "note" → o'.col k = o.col k := by
  refine ⟨_, obs2opsim_visits h p, ?_, _, opsimdf2obs_mk hp shown memory o.rows (colOf o) (fun k t hk _ => (h.fit hk).2), rfl, ?_, ?_⟩
  · have : (Frame.mk o.rows (mkCols outNames (outCol p o))).names = outNames := mkCols_names _ _
    rw [this]
    decide +kernel
  · rw [h.names]
    unfold Frame.names
    rw [List.map_map]
    rfl
  · intro k hk
    by_cases hm : k ∈ dtype.map Prod.fst
    · rw [h.col hm]
      show look k (dtype.map (fun kt => (kt.1, if kt.1 ∈ kept then colOf o kt.1 else memory kt.1))) = _
      rw [look_map (g := fun x => if x ∈ kept then colOf o x else memory x) hm, if_pos (mem_kept hm hk)]
    · have no : ∀ l : List (String × List Val), k ∉ l.map Prod.fst → look k l = none := by
        intro l
        induction l with
        | nil => intro _; rfl
        | cons a r ih =>
          intro hn
          rw [List.map_cons, List.mem_cons, not_or] at hn
          have e : look k (a :: r) = look k r := if_neg (Ne.symm hn.1)
          rw [e]
          exact ih hn.2
      have h1 : o.col k = none := no _ (by show k ∉ o.names; rw [h.names]; exact hm)
      rw [h1]
      refine no _ ?_
      rw [List.map_map]
      exact hm

/-- C48 for files: arrays are written to one file, one after the other; reading gives all their
visits, in order, in every column but `note`. -/
theorem C48_file (p : ℚ) (hp : p ≠ 0) (shown : Val → String) (memory : String → List Val) (os : List Frame) (h : ∀ o ∈ os, Visits o) (hne : os ≠ []) :
    ∃ o', read p shown memory (writes p none os) = some o' ∧ o'.rows = (os.map Frame.rows).sum ∧ o'.names = dtype.map Prod.fst ∧
      ∀ k ∈ dtype.map Prod.fst, k ≠ "note" → o'.col k = some (os.flatMap (fun o => (o.col k).getD [])) := by
  obtain ⟨o, r, rfl⟩ := List.exists_cons_of_ne_nil hne
  have ho := h o List.mem_cons_self
  have hr : ∀ x ∈ r, Visits x := fun x hx => h x (List.mem_cons_of_mem _ hx)
  have e0 : write p false .append none o = some (tableOf p o.rows (colOf o)) := by
    unfold write
    rw [obs2opsim_visits ho p]
    rfl
  have e1 : writes p none (o :: r) = some (tableOf p (o.rows + (r.map Frame.rows).sum) (fun k => colOf o k ++ (r.map (fun o => colOf o k)).flatten)) := by
    unfold writes
    rw [e0, Option.bind_some, writes_table r _ _ hr]
  rw [e1]
  refine ⟨_, read_tableOf hp shown memory _ _ ?_, rfl, ?_, ?_⟩
  · intro k t hk _ x hx
    rcases List.mem_append.1 hx with hx | hx
    · exact (ho.fit hk).2 x hx
    · obtain ⟨l, hl, hx⟩ := List.mem_flatten.1 hx
      obtain ⟨o2, ho2, rfl⟩ := List.mem_map.1 hl
      exact ((hr o2 ho2).fit hk).2 x hx
  · unfold Frame.names
    rw [List.map_map]
    rfl
  · intro k hm hk
    refine (look_map (g := fun x => if x ∈ kept then colOf o x ++ (r.map (fun o => colOf o x)).flatten else memory x) hm).trans ?_
    rw [if_pos (mem_kept hm hk)]
    rfl

/-- A file that is deleted or replaced holds the last array only. -/
theorem C48_delete_past (p : ℚ) (m : IfExists) (file : Option Table) (o : Frame) :
    write p true m file o = write p false .append none o ∧ write p false .replace file o = write p false .append none o := by
  unfold write
  constructor
  · congr 1
    funext f
    cases m <;> rfl
  · rfl

/-- The units of the output: angles in degrees, sidereal time in degrees, text unchanged. -/
theorem C48_units (p : ℚ) (o : Frame) (h : Visits o) : ∃ f, obs2opsim p o = some f ∧ f.rows = o.rows ∧
    (∀ m ∈ meaning (180 / p), f.col m.1 = (o.col m.2.1).map (fun l => l.map (times m.2.2))) ∧
    (∀ k ∈ texts, f.col k = o.col k) ∧ f.names.length = (meaning (180 / p)).length + texts.length := by
  refine ⟨_, obs2opsim_visits h p, rfl, ?_, ?_, ?_⟩
  · have key : ∀ m ∈ meaning 180, m.1 ∈ outNames ∧ m.2.1 ∈ dtype.map Prod.fst ∧ trans convertDict m.1 = m.2.1 ∧
        (m.2.2 = 180 ∧ m.1 ∈ angles ∧ m.1 ∉ hours ∨ m.2.2 = 15 ∧ m.1 ∈ hours ∧ m.1 ∉ angles ∨ m.2.2 = 1 ∧ m.1 ∉ angles ∧ m.1 ∉ hours) := by decide +kernel
    have hmap : ∀ d : ℚ, meaning d = (meaning 180).map (fun m => (m.1, m.2.1, if m.2.2 = 180 then d else m.2.2)) := by
      intro d
      unfold meaning
      simp only [List.map_cons, List.map_nil, if_true]
      norm_num
    intro m hm
    rw [hmap] at hm
    obtain ⟨q, hq, rfl⟩ := List.mem_map.1 hm
    obtain ⟨h1, h2, h3, h4⟩ := key q hq
    show look q.1 (mkCols outNames (outCol p o)) = _
    rw [look_mk h1, h.col h2, Option.map_some]
    unfold outCol scaled
    dsimp only
    rw [h3]
    rcases h4 with ⟨e, a, b⟩ | ⟨e, a, b⟩ | ⟨e, a, b⟩
    · rw [if_neg b, if_pos a, if_pos e]
    · rw [if_pos a, if_neg b, e, if_neg (by norm_num)]
      norm_num
    · rw [if_neg b, if_neg a, e, if_neg (by norm_num)]
      congr 1
      conv_lhs => rw [← List.map_id (colOf o q.2.1)]
      apply List.map_congr_left
      intro x _
      cases x <;> simp [times]
  · intro k hk
    have key : ∀ k ∈ texts, k ∈ outNames ∧ k ∈ dtype.map Prod.fst ∧ trans convertDict k = k ∧ k ∉ angles ∧ k ∉ hours := by decide +kernel
    obtain ⟨h1, h2, h3, h4, h5⟩ := key k hk
    show look k (mkCols outNames (outCol p o)) = _
    rw [look_mk h1, h.col h2]
    unfold outCol scaled
    dsimp only
    rw [if_neg h5, if_neg h4, h3]
  · have : (Frame.mk o.rows (mkCols outNames (outCol p o))).names = outNames := mkCols_names _ _
    rw [this]
    rfl

/-- The column `note` of what is read is not what was written, it is whatever was in memory. -/
theorem C48_note_violated (p : ℚ) (hp : p ≠ 0) (shown : Val → String) (memory : String → List Val) (o : Frame) (h : Visits o) :
    ((obs2opsim p o).bind (opsimdf2obs p shown memory)).bind (fun o' => o'.col "note") = some (memory "note") := by
  rw [obs2opsim_visits h p, Option.bind_some]
  have e := opsimdf2obs_mk hp shown memory o.rows (colOf o) (fun k t hk _ => (h.fit hk).2)
  have e' : opsimdf2obs p shown memory ⟨o.rows, mkCols outNames (outCol p o)⟩ = _ := e
  rw [e', Option.bind_some]
  refine (look_map (g := fun x => if x ∈ kept then colOf o x else memory x) (by decide +kernel)).trans ?_
  rw [if_neg (by decide +kernel)]

theorem look_mem {k : String} {v : List Val} : ∀ (l : List (String × List Val)), look k l = some v → (k, v) ∈ l
  | [], h => by cases h
  | (k', v') :: r, h => by
    unfold look at h
    split_ifs at h with hk
    · cases h
      subst hk
      exact List.mem_cons_self
    · exact List.mem_cons_of_mem _ (look_mem r h)

/-- C48, tables: rows added to a table with cells in every column, from a frame with values in every column, leave one with as many rows as both together and a cell for each
of them in every column; a column that the frame does not have gets empty cells. -/
theorem C48_rows_added (t t' : Table) (f : Frame) (ht : ∀ c ∈ t.cols, c.2.length = t.rows) (hf : ∀ c ∈ f.cols, c.2.length = f.rows) (h : addRows t f = some t') :
    t'.rows = t.rows + f.rows ∧ t'.cols.map Prod.fst = t.cols.map Prod.fst ∧ (∀ c ∈ t'.cols, c.2.length = t'.rows)
      ∧ ∀ c ∈ t'.cols, c.1 ∉ f.names → c.2.drop t.rows = List.replicate f.rows .null := by
  unfold addRows at h
  split_ifs at h with hk
  cases h
  have hnone : ∀ k, k ∉ f.names → f.col k = none := by
    intro k hk
    rcases hc : f.col k with _ | v
    · rfl
    · exact absurd (List.mem_map.2 ⟨(k, v), look_mem f.cols hc, rfl⟩) hk
  have hlen : ∀ k, (cells f k).length = f.rows := by
    intro k
    unfold cells
    rcases hc : f.col k with _ | v
    · exact List.length_replicate
    · rw [List.length_map]
      exact hf (k, v) (look_mem f.cols hc)
  refine ⟨rfl, ?_, ?_, ?_⟩
  · rw [List.map_map]; rfl
  · intro c hc
    obtain ⟨c0, h0, rfl⟩ := List.mem_map.1 hc
    dsimp only
    rw [List.length_append, ht c0 h0, hlen]
  · intro c hc hn
    obtain ⟨c0, h0, rfl⟩ := List.mem_map.1 hc
    dsimp only at hn ⊢
    rw [← ht c0 h0, List.drop_left]
    unfold cells
    rw [hnone _ hn]

example : addRows ⟨1, [("a", [.real 1]), ("b", [.real 2])]⟩ ⟨2, [("b", [.num 5, .num 6])]⟩ = some ⟨3, [("a", [.real 1, .null, .null]), ("b", [.real 2, .real 5, .real 6])]⟩ := by
  decide +kernel

/-- An array without the column `note` cannot be written. -/
theorem C48_no_note_raises (p : ℚ) (o : Frame) (h : "note" ∉ o.names) : obs2opsim p o = none := by
  unfold obs2opsim Frame.drop
  rw [if_neg h]
  rfl

/-! ### Reading files from elsewhere -/

/-- A table with one visit and the columns of the list, with small numbers in them. -/
def smallTable (ns : List String) : Frame := ⟨1, ns.map (fun k => (k, [if k ∈ "target" :: texts then .str k else .num 180]))⟩

def memory0 : String → List Val := fun _ => [.str "garbage"]

/-- Old files: the column `target` is read as `target_name`; missing angles become nan, other missing columns
are whatever was in memory; a file with `target` and `target_name` cannot be read. -/
theorem C48_old_files :
    ((opsimdf2obs 3 (fun _ => "") memory0 (smallTable ["fieldRA", "night", "target"])).map
      (fun o => ["RA", "night", "target_name", "dec", "lmst", "airmass"].map o.col)) =
      some [some [.num 3], some [.num 180], some [.str "target"], some [.nan], some [.nan], some [.str "garbage"]] ∧
    opsimdf2obs 3 (fun _ => "") memory0 (smallTable ["fieldRA", "night", "target", "target_name"]) = none := by
  exact ⟨by decide +kernel, by decide +kernel⟩

/-- Values of each kind. -/
def sample : Kind → List Val
  | .int => [.num 3, .num (-4)]
  | .float => [.num (5 / 2), .nan]
  | .text _ => [.str "r", .str ""]

/-- Two visits. -/
def twoVisits : Frame := ⟨2, dtype.map (fun kt => (kt.1, sample kt.2))⟩

theorem twoVisits_ok : Visits twoVisits := by
  have key : ∀ kt ∈ dtype, twoVisits.col kt.1 = some (sample kt.2) ∧ (∀ n, kt.2 = .text n → 1 ≤ n) := by
    have h1 : ∀ kt ∈ dtype, twoVisits.col kt.1 = some (sample kt.2) := by decide +kernel
    have h2 : ∀ kt ∈ dtype, kt.2 ≠ .text 0 := by decide +kernel
    intro kt hkt
    refine ⟨h1 kt hkt, fun n hn => ?_⟩
    rcases n with _ | n
    · exact absurd hn (h2 kt hkt)
    · omega
  refine ⟨by decide +kernel, ?_⟩
  intro k t v hk hv
  obtain ⟨e, hw⟩ := key (k, t) hk
  rw [e] at hv
  cases hv
  cases t with
  | int =>
    refine ⟨rfl, fun x hx => ?_⟩
    rcases List.mem_cons.1 hx with rfl | hx
    · exact ⟨3, by norm_num⟩
    · rw [List.mem_singleton.1 hx]; exact ⟨-4, by norm_num⟩
  | float =>
    refine ⟨rfl, fun x hx => ?_⟩
    rcases List.mem_cons.1 hx with rfl | hx
    · exact Or.inl ⟨_, rfl⟩
    · rw [List.mem_singleton.1 hx]; exact Or.inr rfl
  | text n =>
    refine ⟨rfl, fun x hx => ?_⟩
    rcases List.mem_cons.1 hx with rfl | hx
    · exact ⟨"r", rfl, hw n rfl⟩
    · rw [List.mem_singleton.1 hx]; exact ⟨"", rfl, Nat.zero_le _⟩

/-- The hypotheses are met: two files' worth of visits. -/
example : ∃ o', read 3 (fun _ => "") memory0 (writes 3 none [twoVisits, twoVisits]) = some o' ∧
    o'.col "RA" = some [.num (5 / 2), .nan, .num (5 / 2), .nan] := by
  refine ⟨_, rfl, ?_⟩
  decide +kernel

example : ((writes 3 none [twoVisits]).map (fun t => t.cols.filter (fun c => c.1 ∈ ["fieldRA", "observationStartLST", "night"]))) =
    some [("fieldRA", [.real 150, .null]), ("night", [.real 3, .real (-4)]), ("observationStartLST", [.real (75 / 2), .null])] := by decide +kernel

end Verif
