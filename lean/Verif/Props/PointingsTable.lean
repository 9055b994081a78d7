import Verif.Model.PointingsTable
import Verif.Props.Pointings
import Verif.Lemmas.CoreFill

/-! C203: the table of rewards of a survey of a fixed list of targets. -/

namespace Verif

open Pnt Rew XReal

/-- The survey's sum over some of the weights. -/
theorem total_snoc (g : Limits) (sky : Sky) (s : State) (ws : List (Pnt.Term × ℚ)) (w : Pnt.Term × ℚ) :
    total g sky s (ws ++ [w]) = List.zipWith add (total g sky s ws) ((term g sky s w.1).map (smul w.2)) := by
  unfold total; rw [List.foldl_append]; rfl

/-- What a row should say: the weighted values of one method, and the sum of the methods up to
it. A method is feasible if some target has a finite value. -/
def RowSays (r : Row) (w : Pnt.Term × ℚ) (part acc : List XReal) : Prop :=
  r.key = w.1 ∧ r.weight = w.2 ∧ IsMax part r.max ∧ r.n = part.countP XReal.isFinite ∧
    (r.feasible = true ↔ ∃ x ∈ part, x.isFinite = true) ∧ IsMax acc r.accum ∧ r.accumN = acc.countP XReal.isFinite

theorem unmasked_count (l : List XReal) : unmasked l = l.countP XReal.isFinite := by
  unfold unmasked; rw [List.countP_eq_length_filter]

theorem rowOf_says (w : Pnt.Term × ℚ) (part acc : List XReal) (r : Row) (h : rowOf w part acc = some r) :
    RowSays r w part acc ∧ nanmax acc = some r.accum := by
  unfold rowOf at h
  rcases hm : nanmax part with _ | m
  · rw [hm] at h; exact absurd h (by simp)
  · rcases ha : nanmax acc with _ | a
    · rw [hm, ha] at h; exact absurd h (by simp)
    · rw [hm, ha] at h
      injection h with h
      subst h
      refine ⟨⟨rfl, rfl, nanmax_max hm, unmasked_count _, ?_, nanmax_max ha, unmasked_count _⟩, rfl⟩
      show (!(decide (m = .nan) || decide (unmasked part = 0))) = true ↔ _
      rw [Bool.not_eq_true', Bool.or_eq_false_iff, decide_eq_false_iff_not, decide_eq_false_iff_not]
      have hpos : ¬ unmasked part = 0 ↔ ∃ x ∈ part, x.isFinite = true := by
        rw [unmasked_count, ← ne_eq, ← Nat.pos_iff_ne_zero, List.countP_pos_iff]
      rw [hpos]
      refine ⟨fun h => h.2, fun h => ⟨?_, h⟩⟩
      obtain ⟨x, hx, hf⟩ := h
      rintro rfl
      rcases nanmax_max hm with ⟨_, hall⟩ | ⟨hn, _⟩
      · rw [hall x hx] at hf; exact absurd hf (by decide)
      · exact hn rfl

theorem rowsFrom_spec (g : Limits) (sky : Sky) (s : State) : ∀ (ws pre : List (Pnt.Term × ℚ)) (rs : List Row),
    rowsFrom g sky s (total g sky s pre) ws = some rs →
      rs.length = ws.length ∧ ∀ i w r, ws[i]? = some w → rs[i]? = some r →
        RowSays r w ((term g sky s w.1).map (smul w.2)) (total g sky s (pre ++ ws.take (i + 1))) ∧
          nanmax (total g sky s (pre ++ ws.take (i + 1))) = some r.accum
  | [], pre, rs, h => by
    injection h with h
    subst h
    exact ⟨rfl, fun i w r e => absurd e (by simp)⟩
  | w0 :: ws, pre, rs, h => by
    unfold rowsFrom at h
    dsimp only at h
    rw [← total_snoc] at h
    rcases h1 : rowOf w0 ((term g sky s w0.1).map (smul w0.2)) (total g sky s (pre ++ [w0])) with _ | r0
    · rw [h1] at h; exact absurd h (by simp)
    · rcases h2 : rowsFrom g sky s (total g sky s (pre ++ [w0])) ws with _ | rs'
      · rw [h1, h2] at h; exact absurd h (by simp)
      · rw [h1, h2] at h
        injection h with h
        subst h
        obtain ⟨hl, ih⟩ := rowsFrom_spec g sky s ws (pre ++ [w0]) rs' h2
        refine ⟨by simp [hl], ?_⟩
        intro i w r hw hr
        rcases i with _ | i
        · rw [List.getElem?_cons_zero, Option.some.injEq] at hw hr
          subst hw; subst hr
          exact rowOf_says _ _ _ _ h1
        · rw [List.getElem?_cons_succ] at hw hr
          have := ih i w r hw hr
          rw [List.append_assoc] at this
          exact this

theorem rowsFrom_exists (g : Limits) (sky : Sky) (s : State) : ∀ (ws pre : List (Pnt.Term × ℚ)),
    (∀ k, 0 < k → total g sky s (pre ++ ws.take k) ≠ []) →
    (∀ w ∈ ws, term g sky s w.1 ≠ []) → ∃ rs, rowsFrom g sky s (total g sky s pre) ws = some rs
  | [], _, _, _ => ⟨[], rfl⟩
  | w0 :: ws, pre, h, ht => by
    obtain ⟨rs, hrs⟩ := rowsFrom_exists g sky s ws (pre ++ [w0])
      (fun k _ => by
        rw [List.append_assoc]
        exact h (k + 1) (Nat.succ_pos k)) (fun w hw => ht w (List.mem_cons_of_mem _ hw))
    have h1 := h 1 Nat.one_pos
    rw [List.take_succ_cons, List.take_zero] at h1
    unfold rowsFrom
    dsimp only
    rw [← total_snoc, hrs]
    rcases hr : rowOf w0 ((term g sky s w0.1).map (smul w0.2)) (total g sky s (pre ++ [w0])) with _ | r
    · exfalso
      unfold rowOf at hr
      rcases hm : nanmax ((term g sky s w0.1).map (smul w0.2)) with _ | m
      · exact ht w0 List.mem_cons_self (List.map_eq_nil_iff.1 (nanmax_none hm))
      · rcases ha : nanmax (total g sky s (pre ++ [w0])) with _ | a
        · exact h1 (nanmax_none ha)
        · rw [hm, ha] at hr; exact absurd hr (by simp)
    · exact ⟨_, rfl⟩

theorem add_finite_left {x y : XReal} (h : (add x y).isFinite = true) : x.isFinite = true := by
  cases x <;> cases y <;> simp_all [add, XReal.isFinite]

theorem count_zip : ∀ (a b : List XReal), (List.zipWith add a b).countP XReal.isFinite ≤ a.countP XReal.isFinite
  | [], _ => by simp
  | _ :: _, [] => by simp
  | x :: a, y :: b => by
    rw [List.zipWith_cons_cons, List.countP_cons, List.countP_cons]
    have ih := count_zip a b
    by_cases h : (add x y).isFinite = true
    · rw [if_pos h, if_pos (add_finite_left h)]; omega
    · rw [if_neg h]; split_ifs <;> omega

/-- C203, the part that holds: when the table is made for the conditions at which the reward was
last computed, it has one row per weight, each row tells of its method and of the sum of the
methods so far, the number of targets left never grows from row to row, and the last row ends
in the survey's reward. -/
theorem C203_table_partial (g : Limits) (weights : List (Pnt.Term × ℚ)) (sky : Sky) (s : State) (rs : List Row)
    (hfresh : s.cache.1 ≠ sky.mjd)
    (h : table g weights (some sky) sky.pressure sky (computed g weights sky s) = some rs) :
    rs.length = weights.length ∧
      (∀ i w r, weights[i]? = some w → rs[i]? = some r →
        RowSays r w ((term g sky s w.1).map (smul w.2)) (total g sky s (weights.take (i + 1)))) ∧
      rs.Pairwise (fun a b => b.accumN ≤ a.accumN) ∧
      (∀ r, rs.getLast? = some r → value g weights sky (computed g weights sky s) = some r.accum) := by
  have e : mixed sky sky sky.pressure = sky := rfl
  have hs : ∀ t, term g sky (computed g weights sky s) t = term g sky s t := by intro t; cases t <;> rfl
  have ht : ∀ ws, total g sky (computed g weights sky s) ws = total g sky s ws := by
    intro ws; unfold total; simp only [hs]; rfl
  have hspec := rowsFrom_spec g sky (computed g weights sky s) weights [] rs h
  simp only [hs, ht, List.nil_append] at hspec
  obtain ⟨hl, hr⟩ := hspec
  refine ⟨hl, fun i w r hw hi => (hr i w r hw hi).1, ?_, ?_⟩
  · rw [List.pairwise_iff_getElem]
    intro i j hi hj hij
    have hwi : weights[i]? = some weights[i] := List.getElem?_eq_getElem (by omega)
    have hwj : weights[j]? = some weights[j] := List.getElem?_eq_getElem (by omega)
    have ri := (hr i _ _ hwi (List.getElem?_eq_getElem hi)).1.2.2.2.2.2.2
    have rj := (hr j _ _ hwj (List.getElem?_eq_getElem hj)).1.2.2.2.2.2.2
    rw [ri, rj]
    have mono : ∀ d k, (total g sky s (weights.take (k + d))).countP XReal.isFinite ≤
        (total g sky s (weights.take k)).countP XReal.isFinite := by
      intro d
      induction d with
      | zero => intro k; exact le_refl _
      | succ d ih =>
        intro k
        refine le_trans ?_ (ih k)
        rw [show k + (d + 1) = (k + d) + 1 from rfl]
        by_cases hk : k + d < weights.length
        · rw [List.take_succ_eq_append_getElem hk, total_snoc]
          exact count_zip _ _
        · rw [List.take_of_length_le (by omega), List.take_of_length_le (by omega)]
    have := mono (j - i) (i + 1)
    rwa [show i + 1 + (j - i) = j + 1 from by omega] at this
  · intro r hlast
    have hne : rs ≠ [] := by rintro rfl; exact absurd hlast (by simp)
    have hpos : 0 < rs.length := List.length_pos_iff.2 hne
    rw [List.getLast?_eq_getElem?] at hlast
    have hw : weights[rs.length - 1]? = some (weights[rs.length - 1]'(by omega)) := List.getElem?_eq_getElem (by omega)
    have := (hr _ _ _ hw hlast).2
    rw [List.take_of_length_le (by omega)] at this
    unfold value rewards computed
    dsimp only
    rw [if_neg (by simp)]
    unfold rewards
    rw [if_pos hfresh]
    exact this

/-- C203: once a reward has been computed the table can be made, if there are targets and each
method has a value for every target. -/
theorem C203_exists (g : Limits) (weights : List (Pnt.Term × ℚ)) (old sky : Sky) (press : Option (List ℚ)) (s : State)
    (hn : s.targets ≠ [])
    (hlen : ∀ w ∈ weights, (term g (mixed old sky press) s w.1).length = s.targets.length) :
    ∃ rs, table g weights (some old) press sky s = some rs := by
  have hpos : 0 < s.targets.length := List.length_pos_iff.2 hn
  have hl : ∀ ws : List (Pnt.Term × ℚ), (∀ w ∈ ws, w ∈ weights) →
      (total g (mixed old sky press) s ws).length = s.targets.length := by
    intro ws
    induction ws using List.reverseRecOn with
    | nil => intro _; simp [total]
    | append_singleton ws w ih =>
      intro hw
      rw [total_snoc, List.length_zipWith, ih (fun v hv => hw v (List.mem_append_left _ hv)), List.length_map,
        hlen w (hw w (List.mem_append_right _ (List.mem_singleton.2 rfl))), min_self]
  apply rowsFrom_exists g (mixed old sky press) s weights []
  · intro k _
    rw [List.nil_append, ← List.length_pos_iff, hl _ (fun w hw => List.mem_of_mem_take hw)]
    exact hpos
  · intro w hw
    rw [← List.length_pos_iff, hlen w hw]
    exact hpos

theorem changes_spec (g : Limits) (sky : Sky) (s : State) : ∀ (weights : List (Pnt.Term × ℚ)) (cs : List (Pnt.Term × XReal)),
    changes g weights sky s = some cs → cs.length = weights.length ∧
      ∀ (i : ℕ) (w : Pnt.Term × ℚ) (c : Pnt.Term × XReal), weights[i]? = some w → cs[i]? = some c → c.1 = w.1 ∧ IsMax (term g sky s w.1) c.2
  | [], cs, h => by
    injection h with h
    subst h
    exact ⟨rfl, fun i w c e => absurd e (by simp)⟩
  | w0 :: ws, cs, h => by
    unfold changes at h
    rw [List.mapM_cons] at h
    rcases h1 : nanmax (term g sky s w0.1) with _ | m
    · rw [h1] at h; exact absurd h (by simp)
    · rcases h2 : changes g ws sky s with _ | cs'
      · unfold changes at h2; rw [h1, h2] at h; exact absurd h (by simp)
      · have ih := changes_spec g sky s ws cs' h2
        unfold changes at h2
        rw [h1, h2] at h
        injection h with h
        subst h
        refine ⟨by simp [ih.1], ?_⟩
        intro i w c hw hc
        rcases i with _ | i
        · rw [List.getElem?_cons_zero, Option.some.injEq] at hw hc
          subst hw; subst hc
          exact ⟨rfl, nanmax_max h1⟩
        · rw [List.getElem?_cons_succ] at hw hc
          exact ih.2 i w c hw hc

/-- C203: the list of changes names each method with its largest value, before it is weighted. -/
theorem C203_changes (g : Limits) (weights : List (Pnt.Term × ℚ)) (sky : Sky) (s : State) (cs : List (Pnt.Term × XReal))
    (h : changes g weights sky s = some cs) : cs.length = weights.length ∧
      ∀ (i : ℕ) (w : Pnt.Term × ℚ) (c : Pnt.Term × XReal), weights[i]? = some w → cs[i]? = some c → c.1 = w.1 ∧ IsMax (term g sky s w.1) c.2 :=
  changes_spec g sky s weights cs h

/-- A table for two targets, one of them too low: the altitude leaves one target. -/
example : ((table lim0 [(.slew, -1), (.alt, 0)] (some { skyP with alt := [80, 10] }) none { skyP with alt := [80, 10] }
    (computed lim0 [(.slew, -1), (.alt, 0)] { skyP with alt := [80, 10] } pair0)).map
      (fun rs => rs.map (fun r => (r.max, r.n, r.accum, r.accumN)))) =
    some [(.fin (-3), 2, .fin (-3), 2), (.fin 0, 1, .fin (-5), 1)] ∧ pair0.cache.1 ≠ skyP.mjd := by
  constructor <;> decide +kernel

/-! ### What fails -/

/-- The full property: at any moment a table can be made, and it ends in the survey's
reward. -/
def TableAgrees (g : Limits) (weights : List (Pnt.Term × ℚ)) (old : Option Sky) (press : Option (List ℚ)) (now : Sky)
    (s : State) : Prop :=
  ∃ rs r, table g weights old press now s = some rs ∧ rs.getLast? = some r ∧ value g weights now s = some r.accum

/-- C203 fails before the first reward: the table cannot be made, the altitudes being
unknown. -/
theorem C203_before_violated : ¬ TableAgrees lim0 weightsP none none skyP pair0 := by
  rintro ⟨rs, r, h, _⟩
  have : table lim0 weightsP none none skyP pair0 = none := by decide +kernel
  rw [this] at h
  exact absurd h (by simp)

theorem not_agrees {g : Limits} {weights : List (Pnt.Term × ℚ)} {old : Option Sky} {press : Option (List ℚ)} {now : Sky}
    {s : State} {x y : XReal}
    (h1 : ((table g weights old press now s).bind (fun rs => rs.getLast?)).map (fun r => r.accum) = some x)
    (h2 : value g weights now s = some y) (hxy : x ≠ y) : ¬ TableAgrees g weights old press now s := by
  rintro ⟨rs, r, h, hl, hv⟩
  rw [h, Option.bind_some, hl, Option.map_some, Option.some.injEq] at h1
  rw [h2, Option.some.injEq] at hv
  exact hxy (h1.symm.trans hv.symm)

/-- C203 fails when the time has moved on: both targets have set in the meantime, so that the
reward is now nan, but the table still uses the old altitudes. -/
theorem C203_later_violated :
    ¬ TableAgrees lim0 weightsP (some skyP) none { skyP with mjd := 101, alt := [10, 5] } (computed lim0 weightsP skyP pair0) :=
  not_agrees (x := .fin (-2)) (y := .nan) (by decide +kernel) (by decide +kernel) (by decide)

/-- C203 fails after a visit at the same time: the table knows of it, the reward does not. -/
theorem C203_visit_violated :
    ¬ TableAgrees lim0 weightsP (some skyP) none skyP (addOne ⟨"seq b", 100⟩ (computed lim0 weightsP skyP pair0)) :=
  not_agrees (x := .fin (-4)) (y := .fin (-2)) (by decide +kernel) (by decide +kernel) (by decide)

end Verif
