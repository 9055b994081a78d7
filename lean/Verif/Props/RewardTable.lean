import Verif.Model.Report
import Verif.Spec.Report
import Verif.Props.Labels
import Verif.Props.HtmFind

/-!
# Tables of rewards (C149)
-/

namespace Verif

open Report Rew XReal

theorem ltB_open (x : XReal) : ltB .ninf x = isOpen x := by cases x <;> rfl

theorem eqB_nan (x : XReal) : (x.isNan || eqB x .ninf) = !isOpen x := by
  cases x <;> simp [XReal.isNan, eqB, isOpen]

theorem inRoi_eq (roi : List Bool) (l : List XReal) (h : l.length = roi.length) :
    List.zipWith (fun b x => if b then x else XReal.ninf) roi l = (List.range roi.length).map fun i => if roi.getD i false then valueAt i (.map l) else .ninf := by
  apply List.ext_getElem
  · simp [h]
  · intro i h1 h2
    simp only [List.length_zipWith] at h1
    simp only [List.getElem_zipWith, List.getElem_map, List.getElem_range]
    rw [List.getD_eq_getElem?_getD, List.getElem?_eq_getElem (by omega), valueAt_map (by omega)]
    rfl

theorem roi_get {roi : List Bool} {i : ℕ} : roi.getD i false = true ↔ roi[i]? = some true := by
  rw [List.getD_eq_getElem?_getD]
  cases roi[i]? with
  | none => simp
  | some b => simp

theorem range_count (roi : List Bool) : (List.range roi.length).countP (fun i => roi.getD i false) = roi.count true := by
  induction roi using List.reverseRecOn with
  | nil => rfl
  | append_singleton roi b ih =>
    rw [List.length_append, List.length_singleton, List.range_succ, List.countP_append, List.count_append, ← ih]
    congr 1
    · apply List.countP_congr
      intro i hi
      have := List.mem_range.1 hi
      rw [List.getD_eq_getElem?_getD, List.getD_eq_getElem?_getD, List.getElem?_append_left this]
    · cases b <;> simp [List.getD_eq_getElem?_getD]

theorem openCount_pos {roi : List Bool} {v : Val} : 0 < openCount roi v ↔ ∃ i : ℕ, roi[i]? = some true ∧ isOpen (valueAt i v) = true := by
  unfold openCount
  rw [List.countP_pos_iff]
  constructor
  · rintro ⟨i, _, h⟩
    rw [Bool.and_eq_true] at h
    exact ⟨i, roi_get.1 h.1, h.2⟩
  · rintro ⟨i, h1, h2⟩
    exact ⟨i, List.mem_range.2 (List.getElem?_eq_some_iff.1 h1).1, by rw [Bool.and_eq_true]; exact ⟨roi_get.2 h1, h2⟩⟩

theorem scalars_summary {roi : List Bool} {pix : ℚ} (hp : 0 < pix) (hr : true ∈ roi) {v : Val} {m : XReal} {a : ℚ} (h : scalars roi pix v = some (m, a)) :
    Summary roi pix v m a := by
  rcases v with x | l
  · unfold scalars at h
    dsimp only at h
    rw [eqB_nan] at h
    by_cases hx : isOpen x = true
    · rw [hx] at h
      simp only [Bool.not_true, Bool.false_eq_true, if_false, Option.some.injEq, Prod.mk.injEq] at h
      obtain ⟨rfl, rfl⟩ := h
      have hc : openCount roi (.scalar x) = roi.count true := by
        unfold openCount
        rw [← range_count]
        apply List.countP_congr
        intro i _
        simp [valueAt, hx]
      obtain ⟨i, hi, hti⟩ := List.getElem_of_mem hr
      have hi' : roi[i]? = some true := by rw [List.getElem?_eq_getElem hi, hti]
      refine ⟨by rw [hc], fun h0 => ?_, fun _ => ⟨hx, ⟨i, hi', rfl⟩, fun j _ => ?_⟩⟩
      · have := List.count_pos_iff.2 hr
        omega
      · show x = .nan ∨ leB x x = true
        cases x <;> simp [leB]
    · have hx' : isOpen x = false := by simpa using hx
      rw [hx'] at h
      simp only [Bool.not_false, if_true, Option.some.injEq, Prod.mk.injEq] at h
      obtain ⟨rfl, rfl⟩ := h
      have hc : openCount roi (.scalar x) = 0 := by
        unfold openCount
        rw [List.countP_eq_zero]
        intro i _
        simp [valueAt, hx']
      exact ⟨by rw [hc]; simp, fun _ => rfl, fun h => by omega⟩
  · unfold scalars at h
    dsimp only at h
    by_cases hl : l.length = roi.length
    swap
    · rw [if_neg hl] at h; cases h
    rw [if_pos hl] at h
    rw [inRoi_eq roi l hl] at h
    rw [List.countP_map] at h
    have hc : (List.range roi.length).countP ((fun x => ltB .ninf x) ∘ fun i => if roi.getD i false then valueAt i (.map l) else XReal.ninf) = openCount roi (.map l) := by
      unfold openCount
      apply List.countP_congr
      intro i _
      simp only [Function.comp_apply, ltB_open]
      cases roi.getD i false <;> simp [isOpen]
    rw [hc] at h
    split_ifs at h with h0
    · simp only [Option.some.injEq, Prod.mk.injEq] at h
      obtain ⟨rfl, rfl⟩ := h
      have : openCount roi (.map l) = 0 := by
        rcases mul_eq_zero.1 h0 with h | h
        · exact absurd h hp.ne'
        · exact_mod_cast h
      exact ⟨rfl, fun _ => rfl, fun h => by omega⟩
    · rw [Option.map_eq_some_iff] at h
      obtain ⟨m', hm, he⟩ := h
      simp only [Prod.mk.injEq] at he
      obtain ⟨rfl, rfl⟩ := he
      have hpos : 0 < openCount roi (.map l) := by
        rcases Nat.eq_zero_or_pos (openCount roi (.map l)) with h | h
        · rw [h] at h0; simp at h0
        · exact h
      refine ⟨rfl, fun h => by omega, fun _ => ?_⟩
      obtain ⟨i, hi, hoi⟩ := openCount_pos.1 hpos
      have mem : ∀ j : ℕ, roi[j]? = some true → valueAt j (.map l) ∈ (List.range roi.length).map fun i => if roi.getD i false then valueAt i (.map l) else XReal.ninf := by
        intro j hj
        refine List.mem_map.2 ⟨j, List.mem_range.2 (List.getElem?_eq_some_iff.1 hj).1, ?_⟩
        rw [if_pos (roi_get.2 hj)]
      rcases nanmax_max hm with ⟨_, hall⟩ | ⟨hne, hmem, hmax⟩
      · rw [hall _ (mem i hi)] at hoi
        exact absurd hoi (by decide)
      · have hmo : isOpen m' = true := by
          rcases hmax _ (mem i hi) with h | h
          · rw [h] at hoi; exact absurd hoi (by decide)
          · cases m' with
            | nan => exact absurd rfl hne
            | ninf =>
              cases hv : valueAt i (.map l) <;> rw [hv] at h hoi <;> first | exact absurd h (by decide) | exact absurd hoi (by decide) | (simp [leB] at h)
            | fin q => rfl
            | pinf => rfl
        refine ⟨hmo, ?_, fun j hj => hmax _ (mem j hj)⟩
        obtain ⟨j, hj, hej⟩ := List.mem_map.1 hmem
        split_ifs at hej with hb
        · exact ⟨j, roi_get.1 hb, hej⟩
        · rw [← hej] at hmo
          exact absurd hmo (by decide)

theorem mapM_forall₂ {α β : Type} {f : α → Option β} {l : List α} {out : List β} (h : l.mapM f = some out) : List.Forall₂ (fun a b => f a = some b) l out := by
  induction l generalizing out with
  | nil =>
    simp at h
    subst h
    exact .nil
  | cons a l ih =>
    rw [List.mapM_cons] at h
    cases hf : f a with
    | none => rw [hf] at h; cases h
    | some b =>
      rw [hf] at h
      cases hm : l.mapM f with
      | none => rw [hm] at h; cases h
      | some bs =>
        rw [hm] at h
        cases h
        exact .cons hf (ih hm)

/-- C149. The table of a survey has one row for each basis function, with its weight, its greatest reward and the area it leaves open, and with those of the survey with the basis
functions up to and with it; the last row has thus the reward of the survey itself. A row is feasible exactly when the basis function is and leaves something open. -/
theorem C149_rows (kd : Kind) (roi : List Bool) (pix : ℚ) (hp : 0 < pix) (hr : true ∈ roi) (bs : List (Basis × ℚ)) (rows : List Report.Row)
    (h : rewardDf kd roi pix bs = some rows) :
    rows.length = bs.length ∧ ∀ k b, bs[k]? = some b → ∃ r v, rows[k]? = some r ∧ r.weight = b.2 ∧ Summary roi pix (call b.1) r.maxReward r.area ∧
      reward kd (bs.take (k + 1)) = some v ∧ Summary roi pix v r.accum r.accumArea ∧
      (r.feasible = true ↔ b.1.feasible = true ∧ 0 < openCount roi (call b.1)) := by
  have hf := mapM_forall₂ h
  have hlen := hf.length_eq
  rw [List.length_range] at hlen
  refine ⟨hlen.symm, ?_⟩
  intro k b hk
  have hkl : k < bs.length := (List.getElem?_eq_some_iff.1 hk).1
  have hrow := (List.forall₂_iff_get.1 hf).2 k (by rw [List.length_range]; exact hkl) (by omega)
  simp only [List.get_eq_getElem, List.getElem_range] at hrow
  unfold row at hrow
  rw [hk] at hrow
  dsimp only at hrow
  split at hrow
  · rename_i m a m' a' h1 h2
    rw [Option.bind_eq_some_iff] at h2
    obtain ⟨v, h3, h4⟩ := h2
    rw [Option.some.injEq] at hrow
    have s1 := scalars_summary hp hr h1
    refine ⟨rows[k], v, List.getElem?_eq_getElem (by omega), by rw [← hrow], by rw [← hrow]; exact s1, h3, by rw [← hrow]; exact scalars_summary hp hr h4, ?_⟩
    rw [← hrow]
    dsimp only
    have ha : a = 0 ↔ openCount roi (call b.1) = 0 := by
      rw [s1.1]
      constructor
      · intro h
        rcases mul_eq_zero.1 h with h | h
        · exact absurd h hp.ne'
        · exact_mod_cast h
      · intro h; rw [h]; simp
    split_ifs with h0
    · have := ha.1 h0
      constructor
      · intro h; cases h
      · rintro ⟨_, h⟩; omega
    · have : openCount roi (call b.1) ≠ 0 := fun h => h0 (ha.2 h)
      constructor
      · intro h; exact ⟨h, by omega⟩
      · exact And.left
  · cases hrow

/-! ### The open area shrinks -/

theorem basicFrom_cons (acc : Val) (x : Basis × ℚ) (bs : List (Basis × ℚ)) : basicFrom acc (x :: bs) = (plus acc (scale x.2 (call x.1))).bind fun v => basicFrom v bs := by
  conv_lhs => unfold basicFrom
  cases plus acc (scale x.2 (call x.1)) <;> rfl

theorem basicFrom_append (a b : List (Basis × ℚ)) : ∀ acc, basicFrom acc (a ++ b) = (basicFrom acc a).bind fun v => basicFrom v b := by
  induction a with
  | nil => intro acc; rfl
  | cons x a ih =>
    intro acc
    rw [List.cons_append, basicFrom_cons, basicFrom_cons]
    cases plus acc (scale x.2 (call x.1)) with
    | none => rfl
    | some v => exact ih v

theorem add_open {x y : XReal} (h : isOpen (XReal.add x y) = true) : isOpen x = true := by
  cases x <;> cases y <;> first | rfl | (exact absurd h (by decide)) | simp_all [XReal.add, isOpen]

theorem foldl_open (f : Basis × ℚ → XReal) (bs : List (Basis × ℚ)) : ∀ x, isOpen (bs.foldl (fun a b => XReal.add a (f b)) x) = true → isOpen x = true := by
  induction bs with
  | nil => intro x h; exact h
  | cons b bs ih => intro x h; exact add_open (ih _ h)

theorem openCount_le {roi : List Bool} {u v : Val} (h : ∀ i : ℕ, roi[i]? = some true → isOpen (valueAt i v) = true → isOpen (valueAt i u) = true) : openCount roi v ≤ openCount roi u := by
  unfold openCount
  apply List.countP_mono_left
  intro i _ hi
  rw [Bool.and_eq_true] at hi ⊢
  exact ⟨hi.1, h i (roi_get.1 hi.1) hi.2⟩

theorem reward_plain {a : Area} (ha : a.required = none) (bs : List (Basis × ℚ)) (hne : bs ≠ []) :
    reward (.markov a none) bs = if ∃ b ∈ bs, b.1.feasible = false then some (.scalar .ninf) else basic bs := by
  unfold reward rewardWith markovFeasible
  dsimp only
  split_ifs with h1 h2 h2
  · rfl
  · exact absurd ((checkLoop_false bs).1 h1) h2
  · exact absurd ((checkLoop_false bs).2 h2) h1
  · have hall : ∀ b ∈ bs, b.1.feasible = true := by
      intro b hb
      by_contra h
      exact h2 ⟨b, hb, by simpa using h⟩
    unfold markovArea
    rw [ha, checkLoop_true hne hall]
    dsimp only
    cases basic bs with
    | none => rfl
    | some v =>
      dsimp only
      unfold markovTail
      rw [ha]
      cases v <;> rfl

/-- C149. In the table of a survey that adds up its basis functions, without a wanted area or smoothing, the area left open never grows from row to row. -/
theorem C149_shrinks (a : Area) (ha : a.required = none) (roi : List Bool) (pix : ℚ) (hp : 0 < pix) (hr : true ∈ roi) (bs : List (Basis × ℚ))
    (rows : List Report.Row) (h : rewardDf (.markov a none) roi pix bs = some rows) (i j : ℕ) (hij : i ≤ j) (r s : Report.Row) (hi : rows[i]? = some r) (hj : rows[j]? = some s) :
    s.accumArea ≤ r.accumArea := by
  obtain ⟨hlen, hrows⟩ := C149_rows _ roi pix hp hr bs rows h
  have hjl : j < bs.length := by rw [← hlen]; exact (List.getElem?_eq_some_iff.1 hj).1
  have hil : i < bs.length := by omega
  obtain ⟨r', u, e1, _, _, f1, g1, _⟩ := hrows i _ (List.getElem?_eq_getElem hil)
  obtain ⟨s', v, e2, _, _, f2, g2, _⟩ := hrows j _ (List.getElem?_eq_getElem hjl)
  rw [hi, Option.some.injEq] at e1
  rw [hj, Option.some.injEq] at e2
  subst e1 e2
  rw [g1.1, g2.1]
  have hle : openCount roi v ≤ openCount roi u := by
    apply openCount_le
    intro p hp' hop
    have n1 : bs.take (i + 1) ≠ [] := by
      intro e
      have := congrArg List.length e
      rw [List.length_take, List.length_nil] at this
      omega
    have n2 : bs.take (j + 1) ≠ [] := by
      intro e
      have := congrArg List.length e
      rw [List.length_take, List.length_nil] at this
      omega
    rw [reward_plain ha _ n1] at f1
    rw [reward_plain ha _ n2] at f2
    have hsplit : bs.take (j + 1) = bs.take (i + 1) ++ (bs.take (j + 1)).drop (i + 1) := by
      have : bs.take (i + 1) = (bs.take (j + 1)).take (i + 1) := by rw [List.take_take, min_eq_left (by omega)]
      rw [this, List.take_append_drop]
    split_ifs at f2 with c2
    · rw [Option.some.injEq] at f2
      rw [← f2] at hop
      have : isOpen .ninf = true := hop
      exact absurd this (by decide)
    · rw [if_neg (fun ⟨b, hb, hbf⟩ => c2 ⟨b, by rw [hsplit]; exact List.mem_append_left _ hb, hbf⟩)] at f1
      unfold basic at f1 f2
      rw [hsplit, basicFrom_append, f1, Option.bind_some] at f2
      have hcov : Covers p v := by
        rcases v with x | l
        · trivial
        · by_contra hc
          have : l[p]? = none := List.getElem?_eq_none (by unfold Covers at hc; omega)
          have hv : valueAt p (.map l) = .nan := by
            show l.getD p .nan = .nan
            rw [List.getD_eq_getElem?_getD, this]
            rfl
          rw [hv] at hop
          exact absurd hop (by decide)
      obtain ⟨_, _, h3⟩ := basicFrom_at _ _ _ p f2 hcov
      rw [h3] at hop
      exact foldl_open _ _ _ hop
  have : (openCount roi v : ℚ) ≤ openCount roi u := by exact_mod_cast hle
  exact mul_le_mul_of_nonneg_left this hp.le

def plainArea : Area := ⟨none, 1, 1, fun _ _ => 0, 0, true⟩

def demoBs : List (Basis × ℚ) :=
  [(⟨true, .map [.fin 1, .nan, .fin 3, .fin 4]⟩, 2), (⟨true, .scalar (.fin 5)⟩, 1), (⟨true, .map [.fin 1, .fin 1, .fin 1, .nan]⟩, 1)]

example : rewardDf (.markov plainArea none) [true, true, false, true] 10 demoBs =
    some [⟨true, .fin 4, 20, 2, .fin 8, 20⟩, ⟨true, .fin 5, 30, 1, .fin 13, 20⟩, ⟨true, .fin 1, 20, 1, .fin 8, 10⟩] := by decide +kernel

/-! ### All surveys -/

theorem best_max (v : Val) : IsMax (entries v) (best v) := by
  unfold best
  split_ifs with h
  · left
    refine ⟨rfl, fun x hx => (isNan_iff x).1 (List.all_eq_true.1 h x hx)⟩
  · cases hn : nanmax (entries v) with
    | none =>
      rw [nanmax_none hn] at h
      exact absurd rfl h
    | some m => exact nanmax_max hn

theorem isMax_best {v : Val} {m : XReal} (h : IsMax (entries v) m) : m = best v := by
  by_cases he : entries v = []
  · have := best_max v
    rw [he] at h this
    rcases h with ⟨rfl, _⟩ | ⟨_, h, _⟩
    · rcases this with ⟨h, _⟩ | ⟨_, h, _⟩
      · exact h.symm
      · cases h
    · cases h
  · exact h.unique (best_max v) he

theorem mapM_mem {α β : Type} {f : α → Option β} {l : List α} {out : List β} (h : l.mapM f = some out) (y : β) : y ∈ out ↔ ∃ x ∈ l, f x = some y := by
  have hf := mapM_forall₂ h
  clear h
  induction hf with
  | nil => simp
  | cons hab _ ih =>
    rw [List.mem_cons]
    rw [show _ ↔ _ from ih]
    constructor
    · rintro (rfl | ⟨x, hx, hxy⟩)
      · exact ⟨_, List.mem_cons_self, hab⟩
      · exact ⟨x, List.mem_cons_of_mem _ hx, hxy⟩
    · rintro ⟨x, hx, hxy⟩
      rcases List.mem_cons.1 hx with rfl | hx
      · rw [hab, Option.some.injEq] at hxy
        exact .inl hxy.symm
      · exact .inr ⟨x, hx, hxy⟩

theorem mapM_some {α β : Type} {f : α → Option β} {l : List α} {out : List β} (h : l.mapM f = some out) (x : α) (hx : x ∈ l) : ∃ y ∈ out, f x = some y := by
  have hf := mapM_forall₂ h
  clear h
  induction hf with
  | nil => cases hx
  | cons hab _ ih =>
    rcases List.mem_cons.1 hx with rfl | hx
    · exact ⟨_, List.mem_cons_self, hab⟩
    · obtain ⟨y, hy, e⟩ := ih hx
      exact ⟨y, List.mem_cons_of_mem _ hy, e⟩

theorem mapM_flatten_mem {α β : Type} {f : α → Option (List β)} {l : List α} {out : List β} (h : (l.mapM f).map List.flatten = some out) (y : β) :
    y ∈ out ↔ ∃ x ∈ l, ∃ ys, f x = some ys ∧ y ∈ ys := by
  rw [Option.map_eq_some_iff] at h
  obtain ⟨outs, h, rfl⟩ := h
  rw [List.mem_flatten]
  constructor
  · rintro ⟨ys, h1, h2⟩
    obtain ⟨x, hx, e⟩ := (mapM_mem h ys).1 h1
    exact ⟨x, hx, ys, e, h2⟩
  · rintro ⟨x, hx, ys, e, h2⟩
    exact ⟨ys, (mapM_mem h ys).2 ⟨x, hx, e⟩, h2⟩

/-- Where a row of one survey comes from. -/
theorem svRows_mem {pix : ℚ} {t e : ℕ} {label : String} {s : Sv} {rows : List CoreRow} (h : svRows pix t e label s = some rows) (r : CoreRow) :
    r ∈ rows ↔ ∃ tab v, rewardDf s.kind s.roi pix s.bs = some tab ∧ reward s.kind s.bs = some v ∧ r.tier = t ∧ r.elem = e ∧ r.label = label ∧
      r.surveyReward = best v ∧ r.row ∈ tab := by
  unfold svRows at h
  split at h
  · cases h
  · rename_i h1
    cases h
    rw [h1]
    constructor
    · intro h; cases h
    · rintro ⟨tab, v, e, _, _, _, _, _, hm⟩
      rw [Option.some.injEq] at e
      rw [← e] at hm
      cases hm
  · rename_i rows' _ h1
    split at h
    · cases h
    · rename_i v hv
      cases h
      rw [List.mem_map]
      constructor
      · rintro ⟨x, hx, rfl⟩
        exact ⟨rows', v, h1, hv, rfl, rfl, rfl, rfl, hx⟩
      · rintro ⟨tab, v', e1, e2, rfl, rfl, rfl, e3, hm⟩
        rw [h1, Option.some.injEq] at e1
        rw [hv, Option.some.injEq] at e2
        subst e1 e2
        exact ⟨r.row, hm, by rw [← e3]⟩

/-- C149. The table of all surveys has, for each survey at each place, the rows of its own table with that place, its label and its greatest reward, and no others. -/
theorem C149_core (pix : ℚ) (tiers : List (List Sv)) (rows : List CoreRow) (h : coreDf pix tiers = some rows) :
    ∃ labels, surveyLabels ((tiers.map fun l => l.map Sv.named).map Item.many) = some labels ∧ ∀ r, r ∈ rows ↔
      ∃ l s ls tab v, tiers[r.tier]? = some l ∧ l[r.elem]? = some s ∧ labels[r.tier]? = some ls ∧ ls[r.elem]? = some r.label ∧
        rewardDf s.kind s.roi pix s.bs = some tab ∧ r.row ∈ tab ∧ reward s.kind s.bs = some v ∧ IsMax (entries v) r.surveyReward := by
  unfold coreDf at h
  have hm : (tiers.map fun l => Item.many (l.map Sv.named)) = (tiers.map fun l => l.map Sv.named).map Item.many := by
    rw [List.map_map]
    rfl
  rw [hm] at h
  split at h
  · cases h
  · rename_i labels hl
    refine ⟨labels, hl, fun r => ?_⟩
    have key : ((List.zipWith List.zip tiers labels).zipIdx.mapM fun x => tierRows pix x.2 x.1).map List.flatten = some rows := by
      split at h
      · cases h
      · cases h
      · rename_i rows' _ h'
        rw [Option.some.injEq] at h
        rw [h', h]
    rw [mapM_flatten_mem key]
    constructor
    · rintro ⟨⟨z, t⟩, hz, ys, hys, hr⟩
      rw [List.mem_zipIdx_iff_getElem?, List.getElem?_zipWith] at hz
      dsimp only at hys hz
      unfold tierRows at hys
      rw [mapM_flatten_mem hys] at hr
      obtain ⟨⟨⟨s, lab⟩, e⟩, hs, ys', hys', hr⟩ := hr
      rw [List.mem_zipIdx_iff_getElem?] at hs
      dsimp only at hys' hs
      obtain ⟨tab, v, h1, h2, rfl, rfl, rfl, h6, h7⟩ := (svRows_mem hys' r).1 hr
      cases ht : tiers[r.tier]? with
      | none => rw [ht] at hz; simp at hz
      | some l =>
        cases hlt : labels[r.tier]? with
        | none => rw [ht, hlt] at hz; simp at hz
        | some ls =>
          rw [ht, hlt] at hz
          simp only [Option.some.injEq] at hz
          subst hz
          rw [List.getElem?_zip_eq_some] at hs
          exact ⟨l, s, ls, tab, v, rfl, hs.1, rfl, hs.2, h1, h7, h2, by rw [h6]; exact best_max v⟩
    · rintro ⟨l, s, ls, tab, v, h1, h2, h3, h4, h5, h6, h7, h8⟩
      have hz : (List.zip l ls, r.tier) ∈ (List.zipWith List.zip tiers labels).zipIdx := by
        rw [List.mem_zipIdx_iff_getElem?, List.getElem?_zipWith]
        dsimp only
        rw [h1, h3]
      rw [Option.map_eq_some_iff] at key
      obtain ⟨outs, hk, _⟩ := key
      obtain ⟨ys, _, hys⟩ := mapM_some hk _ hz
      refine ⟨_, hz, ys, hys, ?_⟩
      dsimp only at hys
      unfold tierRows at hys
      rw [mapM_flatten_mem hys]
      have hs : ((s, r.label), r.elem) ∈ (List.zip l ls).zipIdx := by
        rw [List.mem_zipIdx_iff_getElem?]
        exact List.getElem?_zip_eq_some.2 ⟨h2, h4⟩
      rw [Option.map_eq_some_iff] at hys
      obtain ⟨outs', hk', _⟩ := hys
      obtain ⟨ys', _, hys'⟩ := mapM_some hk' _ hs
      exact ⟨_, hs, ys', hys', (svRows_mem hys' r).2 ⟨tab, v, h5, h7, rfl, rfl, rfl, isMax_best h8, h6⟩⟩

/-- C149. When no survey has a basis function there is no table: joining no tables raises. -/
theorem C149_empty (pix : ℚ) (tiers : List (List Sv)) (h : ∀ l ∈ tiers, ∀ s ∈ l, s.bs = []) : coreDf pix tiers = none := by
  cases hc : coreDf pix tiers with
  | none => rfl
  | some rows =>
    obtain ⟨labels, _, hrows⟩ := C149_core pix tiers rows hc
    have hne : rows ≠ [] := by
      rintro rfl
      unfold coreDf at hc
      split at hc
      · cases hc
      · split at hc
        · cases hc
        · cases hc
        · rename_i _ hx _
          rw [Option.some.injEq] at hc
          exact hx hc
    obtain ⟨r, hr⟩ := List.exists_mem_of_ne_nil rows hne
    obtain ⟨l, s, ls, tab, v, h1, h2, _, _, h5, h6, _, _⟩ := (hrows r).1 hr
    have hb := h l (List.mem_of_getElem? h1) s (List.mem_of_getElem? h2)
    rw [hb] at h5
    cases h5
    cases h6

/-- C149 does not hold for a scheduler whose surveys have no basis functions, such as a queue of scripted visits: the table raises, and so does a scheduler that keeps its rewards. -/
theorem C149_empty_violated : coreDf 10 [[⟨⟨some "script", "ScriptedSurvey"⟩, .base, [true, true], []⟩]] = none := by decide +kernel

example : coreDf 10 [[⟨⟨some "script", "ScriptedSurvey"⟩, .base, [true, true], []⟩], [⟨⟨none, "Greedy"⟩, .markov plainArea none, [true, true, false, true], demoBs⟩]] =
    some [⟨1, 0, "Greedy", .fin 12, ⟨true, .fin 4, 20, 2, .fin 8, 20⟩⟩, ⟨1, 0, "Greedy", .fin 12, ⟨true, .fin 5, 30, 1, .fin 13, 20⟩⟩,
      ⟨1, 0, "Greedy", .fin 12, ⟨true, .fin 1, 20, 1, .fin 8, 10⟩⟩] := by decide +kernel

/-- C149. In the list of the surveys of a tier exactly the survey chosen last is marked, and a reward is shown only for tiers up to the one of the choice. -/
theorem C149_chosen (tier : ℕ) (index : Option ℕ × Option ℕ) (rewards : List (Option Val)) (rows : List (Option XReal × Bool)) (h : surveysDf tier index rewards = some rows) :
    rows.length = rewards.length ∧ ∀ i r, rows[i]? = some r →
      (r.2 = true ↔ index = (some tier, some i)) ∧
      ((index.1 = none ∨ ∃ t, index.1 = some t ∧ t < tier) → r.1 = none) ∧
      (∀ t, index.1 = some t → tier ≤ t → (rewards[i]? = some none → r.1 = none) ∧
        ∀ v, rewards[i]? = some (some v) → entries v ≠ [] → (∃ x ∈ entries v, isOpen x = true) ∨ (∃ x, v = .scalar x) → ∃ m, r.1 = some m ∧ IsMax (entries v) m) := by
  unfold surveysDf at h
  split_ifs at h with he
  rw [Option.some.injEq] at h
  subst h
  refine ⟨List.length_mapIdx, ?_⟩
  intro i r hr
  rw [List.getElem?_mapIdx, Option.map_eq_some_iff] at hr
  obtain ⟨w, hw, rfl⟩ := hr
  refine ⟨?_, ?_, ?_⟩
  · unfold chosen
    dsimp only
    rw [Bool.and_eq_true, decide_eq_true_eq, decide_eq_true_eq, Prod.ext_iff]
  · dsimp only
    unfold shown
    rintro (h | ⟨t, h, hlt⟩)
    · rw [h]
    · rw [h]
      dsimp only
      exact if_pos hlt
  · intro t ht hle
    dsimp only
    unfold shown
    rw [ht, hw]
    dsimp only
    rw [if_neg (by omega)]
    constructor
    · intro h
      cases h
      rfl
    · intro v hv hne ho
      cases hv
      rcases v with x | l
      · refine ⟨x, rfl, ?_⟩
        by_cases hx : x = .nan
        · subst hx
          left
          exact ⟨rfl, by simp [entries]⟩
        · right
          refine ⟨hx, by simp [entries], ?_⟩
          intro y hy
          have : y = x := by simpa [entries] using hy
          subst this
          right
          cases y <;> simp [leB]
          exact hx rfl
      · rcases ho with ⟨x, hx, hox⟩ | ⟨x, hx⟩
        · dsimp only
          rw [if_neg]
          · cases hn : nanmax l with
            | none => exact absurd (nanmax_none hn) hne
            | some m => exact ⟨m, rfl, nanmax_max hn⟩
          · rw [List.countP_eq_zero]
            intro hall
            have := hall x hx
            rw [ltB_open] at this
            exact this hox
        · cases hx

example : surveysDf 1 (some 1, some 0) [some (.map [.nan, .fin 3]), some (.scalar .ninf), none] = some [(some (.fin 3), true), (some .ninf, false), (none, false)] := by decide +kernel

end Verif
