import Verif.Props.Slices
import Mathlib.Algebra.BigOperators.Ring.List

/-!
C89: what a footprint answers; C54: the rolling footprint as a whole; C91: bands that are not always loaded.
-/

namespace Verif

open Fp Ang

variable {K : Type} [Field K] [LinearOrder K] [IsStrictOrderedRing K] [FloorRing K]

/-! ### Answers of one footprint -/

/-- What should be answered for maps, given the coverage now and at the start: for each element the map times the coverage
gained, and with `norm` this as a fraction of the sum, if that is not zero. -/
def expected (maps now zero : List K) (norm : Bool) : List K :=
  let gained := (List.range maps.length).map (fun i => maps.getD i 0 * (now.getD i 0 - zero.getD i 0))
  if norm = true ∧ gained.sum ≠ 0 then gained.map (fun x => x / gained.sum) else gained

omit [LinearOrder K] [IsStrictOrderedRing K] [FloorRing K] in
theorem product_eq (maps c z : List K) (h1 : c.length = maps.length) (h2 : z.length = maps.length) :
    product maps c z = (List.range maps.length).map (fun i => maps.getD i 0 * (c.getD i 0 - z.getD i 0)) := by
  apply List.ext_getElem
  · simp [product, h1, h2]
  · intro i hi hi'
    have h : i < maps.length := by simpa using hi'
    have e : (product maps c z)[i] = maps[i] * (c[i]'(h1 ▸ h) - z[i]'(h2 ▸ h)) := by simp [product]
    rw [e, List.getElem_map, List.getElem_range, List.getD_eq_getElem _ _ h,
      List.getD_eq_getElem _ _ (h1 ▸ h), List.getD_eq_getElem _ _ (h2 ▸ h)]

omit [IsStrictOrderedRing K] [FloorRing K] in
theorem normed_eq (maps c z : List K) (norm : Bool) (h1 : c.length = maps.length) (h2 : z.length = maps.length) :
    normed norm (product maps c z) = expected maps c z norm := by
  unfold normed expected
  rw [product_eq maps c z h1 h2]
  dsimp only
  simp only [Bool.and_eq_true, decide_eq_true_eq]

/-- What can be done with a footprint: a request, or setting its maps. -/
inductive FootOp (K : Type) where
  | call (mjd : K) (norm : Bool)
  | set (maps : List K)

/-- One step. -/
def footStep (f : Foot K) : FootOp K → Foot K
  | .call mjd norm => (f.call mjd norm).1
  | .set maps => f.setMaps maps

/-- A history. -/
def footRun (f : Foot K) (ops : List (FootOp K)) : Foot K := ops.foldl footStep f

/-- The time of the last request of a history. -/
def lastAsked (ops : List (FootOp K)) : Option K :=
  (ops.filterMap (fun o => match o with | .call mjd _ => some mjd | .set _ => none)).getLast?

/-- The maps at the end of a history. -/
def mapsAfter (maps : List K) (ops : List (FootOp K)) : List K :=
  ((ops.filterMap (fun o => match o with | .call _ _ => none | .set m => some m)).getLast?).getD maps

theorem footRun_spec (f : Foot K) (hf : f.mjd = none) (ops : List (FootOp K)) :
    (footRun f ops).mjd = lastAsked ops ∧ (footRun f ops).maps = mapsAfter f.maps ops ∧
      (footRun f ops).coverage = f.coverage ∧ (footRun f ops).start = f.start ∧ (footRun f ops).zero = f.zero := by
  induction ops using List.reverseRecOn with
  | nil => exact ⟨hf, rfl, rfl, rfl, rfl⟩
  | append_singleton ops o ih =>
    obtain ⟨i1, i2, i3, i4, i5⟩ := ih
    have e : footRun f (ops ++ [o]) = footStep (footRun f ops) o := by unfold footRun; rw [List.foldl_append]; rfl
    rw [e]
    cases o with
    | set m =>
      refine ⟨?_, ?_, i3, i4, i5⟩
      · change (footRun f ops).mjd = _
        rw [i1]; unfold lastAsked; rw [List.filterMap_append]; simp
      · change m = _
        unfold mapsAfter; rw [List.filterMap_append]; simp
    | call mjd norm =>
      have hm : mapsAfter f.maps (ops ++ [.call mjd norm]) = mapsAfter f.maps ops := by
        unfold mapsAfter; rw [List.filterMap_append]; simp
      have hl : lastAsked (ops ++ [FootOp.call mjd norm]) = some mjd := by
        unfold lastAsked; rw [List.filterMap_append]; simp
      rw [hm, hl]
      change (((footRun f ops).update mjd norm).1).mjd = _ ∧ (((footRun f ops).update mjd norm).1).maps = _ ∧
        (((footRun f ops).update mjd norm).1).coverage = _ ∧ (((footRun f ops).update mjd norm).1).start = _ ∧
        (((footRun f ops).update mjd norm).1).zero = _
      unfold Foot.update
      by_cases hc : (footRun f ops).mjd = some mjd
      · rw [if_pos hc]; exact ⟨hc, i2, i3, i4, i5⟩
      · rw [if_neg hc]
        cases (footRun f ops).coverage (mjd - (footRun f ops).start) with
        | none => exact ⟨rfl, i2, i3, i4, i5⟩
        | some c => exact ⟨rfl, i2, i3, i4, i5⟩

/-- **C89 (partial).** In any history, a request for another time than that of the last request gets the answer for its
maps and its time; and the same request again gets the same answer. -/
theorem C89_answer_partial (start : K) (coverage : K → Option (List K)) (n : ℕ) (f : Foot K) (hf : Foot.new start coverage n = some f)
    (ops : List (FootOp K)) (mjd : K) (norm : Bool) (hnew : lastAsked ops ≠ some mjd)
    (hlen : ∀ t c, coverage t = some c → c.length = (mapsAfter (List.replicate n 0) ops).length) :
    ∃ z, coverage 0 = some z ∧
      ((footRun f ops).call mjd norm).2
        = (coverage (mjd - start)).map (fun c => expected (mapsAfter (List.replicate n 0) ops) c z norm) ∧
      (∀ c, coverage (mjd - start) = some c → (((footRun f ops).call mjd norm).1.call mjd norm).2 = ((footRun f ops).call mjd norm).2) := by
  unfold Foot.new at hf
  cases hz : coverage 0 with
  | none => rw [hz] at hf; cases hf
  | some z =>
    rw [hz, Option.map_some, Option.some.injEq] at hf
    subst hf
    obtain ⟨h1, h2, h3, h4, h5⟩ := footRun_spec (⟨start, coverage, z, List.replicate n 0, List.replicate n 0, none⟩ : Foot K) rfl ops
    generalize footRun (⟨start, coverage, z, List.replicate n 0, List.replicate n 0, none⟩ : Foot K) ops = g at *
    dsimp only at h2 h3 h4 h5
    refine ⟨z, rfl, ?_, ?_⟩
    · unfold Foot.call Foot.update
      rw [h1, if_neg hnew, h3, h4]
      cases hc : coverage (mjd - start) with
      | none => rfl
      | some c =>
        dsimp only
        rw [if_pos rfl, Option.map_some, h2, h5, normed_eq _ _ _ _ (hlen _ _ hc) (hlen _ _ hz)]
    · intro c hc
      have e : g.update mjd norm = ({ g with mjd := some mjd, current := normed norm (product g.maps c g.zero) }, true) := by
        unfold Foot.update
        rw [h1, if_neg hnew, h3, h4, hc]
      unfold Foot.call
      rw [e]
      unfold Foot.update
      simp

/-- Coverage that grows by the time for each of two elements, but is not known after time 10. -/
def simpleCover (t : ℚ) : Option (List ℚ) := if t ≤ 10 then some [t, t] else none

/-- The footprint of two elements with it. -/
def simpleFoot : Foot ℚ := ⟨100, simpleCover, [0, 0], [0, 0], [0, 0], none⟩

example : Foot.new (100 : ℚ) simpleCover 2 = some simpleFoot := rfl

example : ((footRun simpleFoot [.set [1, 3], .call 101 true]).call 102 true).2 = some [1 / 4, 3 / 4] ∧
    ((footRun simpleFoot [.set [1, 3], .call 101 true]).call 102 false).2 = some [2, 6] := by decide +kernel

/-- The statement for all requests. -/
def AlwaysExpected (K : Type) [Field K] [LinearOrder K] [IsStrictOrderedRing K] [FloorRing K] : Prop :=
  ∀ (start : K) (coverage : K → Option (List K)) (n : ℕ) (f : Foot K), Foot.new start coverage n = some f →
    ∀ (ops : List (FootOp K)) (mjd : K) (norm : Bool) (z : List K), coverage 0 = some z →
    ((footRun f ops).call mjd norm).2
        = (coverage (mjd - start)).map (fun c => expected (mapsAfter (List.replicate n 0) ops) c z norm)

/-- **C89 fails** when only `norm` differs: the answer is still the one with `norm`. -/
theorem C89_norm_violated : ¬ AlwaysExpected ℚ := by
  intro h
  have := h 100 simpleCover 2 simpleFoot rfl [.set [1, 3], .call 102 true] 102 false [0, 0] rfl
  revert this
  decide +kernel

/-- **C89 fails** when the maps are set between two requests for one time: the answer is for the old maps. -/
theorem C89_set_violated : ¬ AlwaysExpected ℚ := by
  intro h
  have := h 100 simpleCover 2 simpleFoot rfl [.set [1, 3], .call 102 true, .set [2, 2]] 102 true [0, 0] rfl
  revert this
  decide +kernel

/-- **C89 fails** after an exception: the request made again gets the answer for the time before. -/
theorem C89_raise_violated : ((footRun simpleFoot [.set [1, 3], .call 102 false]).call 120 false).2 = none ∧
    ((footRun simpleFoot [.set [1, 3], .call 102 false, .call 120 false]).call 120 false).2 = some [2, 6] := by decide +kernel

/-! ### Rolling footprints -/

theorem allSome_map {V W : Type} (l : List V) (f : V → Option W) (g : V → W) (h : ∀ v ∈ l, f v = some (g v)) :
    allSome (l.map f) = some (l.map g) := by
  induction l with
  | nil => rfl
  | cons a l ih =>
    rw [List.map_cons, h a (by simp)]
    unfold allSome
    rw [ih (fun v hv => h v (by simp [hv]))]; rfl

theorem phase_range (T P sun ra : K) (hT : 0 < T) (hP : 0 < P) : 0 ≤ phase T P sun ra ∧ phase T P sun ra < P := by
  unfold phase
  have a := md_nonneg hT (-ra + sun + T / 4)
  have b := md_lt hT (-ra + sun + T / 4)
  have h : 0 < P / T := div_pos hP hT
  refine ⟨mul_nonneg a h.le, ?_⟩
  calc md T (-ra + sun + T / 4) * (P / T) < T * (P / T) := mul_lt_mul_of_pos_right b h
    _ = P := by field_simp

/-- In the time after rolling the coverage of a rolling member is that without rolling. -/
theorem slopesCover_after {n : ℕ} (hn : 1 ≤ n) {scale P : K} {order : ℤ} {uniform delayed : Bool} {i nc ns ne : ℕ}
    (h2 : delayed = true → 2 ≤ cycleLength n uniform) (hs : 1 ≤ ns) (hP : 0 < P) (phs : List K) (hph : ∀ x ∈ phs, 0 ≤ x ∧ x < P) (t : K)
    (hk : ((ns - 1 + nc * cycleLength n uniform : ℕ) : K) * P ≤ t)
    (hin : t + 2 * P ≤ ((ns + nc * cycleLength n uniform + ne : ℕ) : K) * P) :
    slopesCover P (slopes n scale order uniform nc ns ne delayed i) phs t = lineCover P phs t := by
  unfold slopesCover lineCover
  refine allSome_map _ _ _ (fun x hx => ?_)
  obtain ⟨a, b⟩ := hph x hx
  have ht : 0 ≤ t + x - 0 := by
    have : (0 : K) ≤ ((ns - 1 + nc * cycleLength n uniform : ℕ) : K) * P := mul_nonneg (Nat.cast_nonneg _) hP.le
    linarith
  obtain ⟨k, y, h0, h1, e⟩ := season_split hP ht
  refine C54_after_partial hn h2 hs hP h0 h1 ?_ ?_ e
  · by_contra hc
    have h : k + 1 ≤ ns - 1 + nc * cycleLength n uniform := by omega
    have h' : ((k : K) + 1) * P ≤ ((ns - 1 + nc * cycleLength n uniform : ℕ) : K) * P :=
      mul_le_mul_of_nonneg_right (by exact_mod_cast h) hP.le
    have : (k + y) * P < (k + 1) * P := mul_lt_mul_of_pos_right (by linarith) hP
    linarith
  · by_contra hc
    have h : ns + nc * cycleLength n uniform + ne ≤ k + 1 := by omega
    have h' : ((ns + nc * cycleLength n uniform + ne : ℕ) : K) * P ≤ ((k : K) + 1) * P :=
      mul_le_mul_of_nonneg_right (by exact_mod_cast h) hP.le
    have : (k : K) * P ≤ (k + y) * P := mul_le_mul_of_nonneg_right (by linarith) hP.le
    have e1 : ((k : K) + 1) * P = k * P + P := by ring
    linarith

/-- At the start it is, too. -/
theorem slopesCover_zero {n : ℕ} (hn : 1 ≤ n) {scale P : K} {order : ℤ} {uniform delayed : Bool} {i nc ns ne : ℕ}
    (h2 : delayed = true → 2 ≤ cycleLength n uniform) (hs : 2 ≤ ns) (hP : 0 < P) (phs : List K) (hph : ∀ x ∈ phs, 0 ≤ x ∧ x < P) :
    slopesCover P (slopes n scale order uniform nc ns ne delayed i) phs 0 = lineCover P phs 0 := by
  unfold slopesCover lineCover
  refine allSome_map _ _ _ (fun x hx => ?_)
  obtain ⟨a, b⟩ := hph x hx
  refine C54_before hn h2 hP (k := 0) (x := x / P) (div_nonneg a hP.le) ((div_lt_one hP).2 b) (by omega) ?_
  field_simp; push_cast; ring

/-- The sum over members that all give arrays over the same elements. -/
theorem sumMembers_eq {V : Type} (mjd : K) (elems : List V) (fs : List (Foot K)) (gs : List (V → K))
    (h : List.Forall₂ (fun f g => (f.update mjd false).2 = true ∧ (f.update mjd false).1.current = elems.map g) fs gs) (a : V → K) :
    (sumMembers mjd fs (some (elems.map a))).2 = (some (elems.map (fun p => a p + (gs.map (fun g => g p)).sum)), true) := by
  induction h generalizing a with
  | nil => simp [sumMembers]
  | cons hf _ ih =>
    unfold sumMembers
    dsimp only
    rw [if_pos hf.1]
    dsimp only
    rw [hf.2]
    have e : ∀ b : V → K, plus (some (elems.map a)) (elems.map b) = some (elems.map (fun p => a p + b p)) := by
      intro b; unfold plus; dsimp only; rw [List.zipWith_map, List.zipWith_self]
    rw [e, ih]
    simp only [List.map_cons, List.sum_cons, add_assoc]

theorem make_update {V : Type} (start mjd : K) (coverage : K → Option (List K)) (elems : List V) (mp c z : V → K)
    (hz : coverage 0 = some (elems.map z)) (hc : coverage (mjd - start) = some (elems.map c)) :
    ∃ f, Foot.make start coverage (elems.map mp) = some f ∧ (f.update mjd false).2 = true ∧
      (f.update mjd false).1.current = elems.map (fun p => mp p * (c p - z p)) ∧
      ∀ norm, (f.call mjd norm).2 = some (normed norm (elems.map (fun p => mp p * (c p - z p)))) := by
  unfold Foot.make Foot.new
  rw [hz, Option.map_some, Option.map_some]
  refine ⟨_, rfl, ?_⟩
  have hu : ∀ norm, (Foot.setMaps (⟨start, coverage, elems.map z, List.replicate (elems.map mp).length 0,
      List.replicate (elems.map mp).length 0, none⟩ : Foot K) (elems.map mp)).update mjd norm
      = (⟨start, coverage, elems.map z, elems.map mp, normed norm (elems.map (fun p => mp p * (c p - z p))), some mjd⟩, true) := by
    intro norm
    unfold Foot.update Foot.setMaps
    dsimp only
    rw [if_neg (by simp), hc]
    dsimp only
    unfold product
    rw [List.zipWith_map, List.zipWith_self, List.zipWith_map, List.zipWith_self]
  refine ⟨by rw [hu], by rw [hu]; simp [normed], fun norm => ?_⟩
  unfold Foot.call
  rw [hu]; rfl

/-- **C54** (as a whole): in the time after rolling a rolling footprint answers what the footprint without rolling answers. -/
theorem C54_total_partial (s : Sky K) (hs : Sky.ok s) (hn : 1 ≤ s.nslice) (uniform : Bool) (h2 : 2 ≤ cycleLength s.nslice uniform)
    (he : uniform = true → ∀ p < s.npix, ¬ OnEdge s p) (hok : rollingOk s uniform = true) (P start scale mjd : K) (hP : 0 < P) (order : ℤ)
    (nc ns ne : ℕ) (h2s : 2 ≤ ns) (m : ℕ → K) (norm : Bool)
    (hk : ((ns - 1 + nc * cycleLength s.nslice uniform : ℕ) : K) * P ≤ mjd - start)
    (hin : mjd - start + 2 * P ≤ ((ns + nc * cycleLength s.nslice uniform + ne : ℕ) : K) * P) :
    ∃ rolling plain, rollingFeet s P start scale order uniform nc ns ne m = some rolling ∧
      Foot.make start (lineCover P (phases s P)) ((List.range s.npix).map m) = some plain ∧
      (rolling.call mjd norm).2 = (plain.call mjd norm).2 ∧ (plain.call mjd norm).2 ≠ none := by
  have hph : ∀ x ∈ phases s P, 0 ≤ x ∧ x < P := by
    intro x hx
    obtain ⟨p, _, rfl⟩ := List.mem_map.1 hx
    exact phase_range _ _ _ _ hs.1 hP
  let z : ℕ → K := fun p => stepLine P 1 0 0 (phase s.T P s.sunRa (s.ra p))
  let c : ℕ → K := fun p => stepLine P 1 0 (mjd - start) (phase s.T P s.sunRa (s.ra p))
  have lz : lineCover P (phases s P) 0 = some ((List.range s.npix).map z) := by
    unfold lineCover phases; rw [List.map_map]; rfl
  have lc : lineCover P (phases s P) (mjd - start) = some ((List.range s.npix).map c) := by
    unfold lineCover phases; rw [List.map_map]; rfl
  have sz : ∀ d j, slopesCover P (slopes s.nslice scale order uniform nc ns ne d j) (phases s P) 0 = some ((List.range s.npix).map z) :=
    fun d j => (slopesCover_zero hn (fun _ => h2) h2s hP _ hph).trans lz
  have sc : ∀ d j, slopesCover P (slopes s.nslice scale order uniform nc ns ne d j) (phases s P) (mjd - start)
      = some ((List.range s.npix).map c) :=
    fun d j => (slopesCover_after hn (fun _ => h2) (by omega) hP _ hph _ hk hin).trans lc
  obtain ⟨f0, a1, a2, a3⟩ := make_update start mjd _ (List.range s.npix) (fixedMap s.wfd m) c z lz lc
  obtain ⟨pl, b1, -, -, b3⟩ := make_update start mjd _ (List.range s.npix) m c z lz lc
  have key : ∀ d, ∃ fs, ∀ more : List (Option (Foot K)), allSome ((List.range s.nslice).map (fun j => Foot.make start
        (slopesCover P (slopes s.nslice scale order uniform nc ns ne d j) (phases s P))
        ((List.range s.npix).map (rollingMap s.wfd (members s uniform d j) m))) ++ more) = (allSome more).map (fun l => fs ++ l) ∧
      List.Forall₂ (fun f g => (f.update mjd false).2 = true ∧ (f.update mjd false).1.current = (List.range s.npix).map g) fs
        ((List.range s.nslice).map (fun j p => rollingMap s.wfd (members s uniform d j) m p * (c p - z p))) := by
    intro d
    generalize List.range s.nslice = js
    induction js with
    | nil => exact ⟨[], fun more => ⟨by simp, List.Forall₂.nil⟩⟩
    | cons j js ih =>
      obtain ⟨fs, hfs⟩ := ih
      obtain ⟨f, e1, e2, e3, -⟩ := make_update start mjd _ (List.range s.npix) (rollingMap s.wfd (members s uniform d j) m) c z (sz d j) (sc d j)
      refine ⟨f :: fs, fun more => ⟨?_, ?_⟩⟩
      · rw [List.map_cons, List.cons_append, e1]
        rw [show ∀ l : List (Option (Foot K)), allSome (some f :: l) = (allSome l).map (fun r => f :: r) from fun _ => rfl, (hfs more).1]
        cases allSome more <;> rfl
      · rw [List.map_cons]; exact List.Forall₂.cons ⟨e2, e3⟩ (hfs []).2
  obtain ⟨fs, hfs⟩ := key false
  obtain ⟨gs, hgs⟩ := key true
  have hall : allSome (rollingMembers s P start scale order uniform nc ns ne m) = some (f0 :: (fs ++ gs)) := by
    unfold rollingMembers
    rw [a1]
    unfold allSome
    rw [(hfs _).1]
    have := (hgs []).1
    rw [List.append_nil] at this
    rw [this]; simp [allSome]
  have hsum := sumMembers_eq mjd (List.range s.npix) (fs ++ gs) _ (List.rel_append (hfs []).2 (hgs []).2)
    (fun p => fixedMap s.wfd m p * (c p - z p))
  have htot : (List.range s.npix).map (fun p => fixedMap s.wfd m p * (c p - z p) +
      ((((List.range s.nslice).map (fun j p => rollingMap s.wfd (members s uniform false j) m p * (c p - z p))) ++
        ((List.range s.nslice).map (fun j p => rollingMap s.wfd (members s uniform true j) m p * (c p - z p)))).map (fun g => g p)).sum)
      = (List.range s.npix).map (fun p => m p * (c p - z p)) := by
    refine List.map_congr_left (fun p hp => ?_)
    have ht := C90_total_partial s hs hn uniform p (List.mem_range.1 hp) (fun h => he h p (List.mem_range.1 hp)) m
    conv_rhs => rw [← ht]
    unfold totalMap
    rw [List.map_append, List.sum_append, List.map_map, List.map_map, add_mul, add_mul, ← List.sum_map_mul_right, ← List.sum_map_mul_right,
      add_assoc]
    rfl
  refine ⟨⟨f0 :: (fs ++ gs), none, none⟩, pl, ?_, b1, ?_, ?_⟩
  · unfold rollingFeet
    rw [if_pos hok, hall]; rfl
  · rw [b3]
    have h1 : (sumMembers mjd (f0 :: (fs ++ gs)) none).2 = (some ((List.range s.npix).map (fun p => m p * (c p - z p))), true) := by
      unfold sumMembers
      dsimp only
      rw [if_pos a2]
      dsimp only
      rw [a3.1]
      unfold plus
      dsimp only
      rw [hsum, htot]
    have h2 : (Feet.update ⟨f0 :: (fs ++ gs), none, none⟩ mjd norm) = (⟨(sumMembers mjd (f0 :: (fs ++ gs)) none).1,
        some (normed norm ((List.range s.npix).map (fun p => m p * (c p - z p)))), some mjd⟩, true) := by
      unfold Feet.update
      dsimp only
      rw [if_neg (by simp), h1, if_pos rfl]; rfl
    unfold Feet.call
    rw [h2]; rfl
  · rw [b3]; simp

/-- **C54** (targets): without `norm`, what a footprint wants of each pixel never decreases with time, if its map is not
negative. -/
theorem C54_growth (s : Sky K) (P start mjd mjd' : K) (hP : 0 < P) (m : ℕ → K) (hm : ∀ p, 0 ≤ m p) (h : mjd ≤ mjd') :
    ∃ f a b, Foot.make start (lineCover P (phases s P)) ((List.range s.npix).map m) = some f ∧
      (f.call mjd false).2 = some a ∧ (f.call mjd' false).2 = some b ∧ List.Forall₂ (fun x y => x ≤ y) a b := by
  have l : ∀ t, lineCover P (phases s P) t = some ((List.range s.npix).map (fun p => stepLine P 1 0 t (phase s.T P s.sunRa (s.ra p)))) := by
    intro t; unfold lineCover phases; rw [List.map_map]; rfl
  obtain ⟨f, a1, -, -, a2⟩ := make_update start mjd _ (List.range s.npix) m _ _ (l 0) (l (mjd - start))
  obtain ⟨g, b1, -, -, b2⟩ := make_update start mjd' _ (List.range s.npix) m _ _ (l 0) (l (mjd' - start))
  rw [a1, Option.some.injEq] at b1
  subst b1
  refine ⟨f, _, _, a1, a2 false, b2 false, ?_⟩
  have nf : ∀ l : List K, normed false l = l := fun l => by simp [normed]
  rw [nf, nf, List.forall₂_map_left_iff, List.forall₂_map_right_iff, List.forall₂_same]
  intro p _
  exact mul_le_mul_of_nonneg_left (sub_le_sub_right (C54_line_monotone hP zero_le_one (by linarith)) _) (hm p)

example : ((Foot.make 100 (lineCover 1 (phases someSky 1)) ((List.range 12).map (fun _ => (1 : ℚ)))).bind (fun f => (f.call 103 false).2)).map List.length
    = some 12 := by decide +kernel

example : (rollingFeet someSky 1 100 (9 / 10) 0 true 1 2 3 (fun p => (p : ℚ))).bind (fun r => (r.call 104 true).2)
    = (Foot.make 100 (lineCover 1 (phases someSky 1)) ((List.range 12).map (fun p => (p : ℚ)))).bind (fun r => (r.call 104 true).2) ∧
    (rollingFeet someSky 1 100 (9 / 10) 0 true 1 2 3 (fun p => (p : ℚ))).bind (fun r => (r.call 102 true).2)
    ≠ (Foot.make 100 (lineCover 1 (phases someSky 1)) ((List.range 12).map (fun p => (p : ℚ)))).bind (fun r => (r.call 102 true).2) := by
  decide +kernel

/-! ### Bands not always loaded -/

/-- **C91**: what is wanted in a band loaded on some nights never decreases, is the fraction of its nights so far, nothing before the first
one and all after the last one. A band that is always loaded grows in proportion to the time. -/
theorem C91_loaded (len : K) (hlen : 0 < len) (nights : List K) (h : loadedOk (some nights) = true) :
    (∀ t t', t ≤ t' → perFilter len (some nights) t ≤ perFilter len (some nights) t') ∧
    (∀ t, (∀ n ∈ nights, t < n) → perFilter len (some nights) t = 0) ∧
    (∀ t, (∀ n ∈ nights, n ≤ t) → perFilter len (some nights) t = 1) ∧
    (∀ t, perFilter len (some nights) t * nights.length = (nights.countP (fun n => decide (n ≤ t)) : K)) ∧
    (∀ t, perFilter len none t * len = t) := by
  have hne : nights ≠ [] := by rintro rfl; simp [loadedOk] at h
  have hpos : (0 : K) < nights.length := by exact_mod_cast List.length_pos_iff.2 hne
  have e : ∀ t, perFilter len (some nights) t * nights.length = (nights.countP (fun n => decide (n ≤ t)) : K) := by
    intro t
    unfold perFilter
    dsimp only
    rw [List.countP_eq_length_filter]; field_simp
  refine ⟨?_, ?_, ?_, e, ?_⟩
  · intro t t' ht
    rw [← mul_le_mul_iff_of_pos_right hpos, e, e]
    exact_mod_cast List.countP_mono_left (fun n _ hn => by simp at hn ⊢; exact le_trans hn ht)
  · intro t ht
    have := e t
    rw [List.countP_eq_zero.2 (fun n hn => by simpa using ht n hn)] at this
    simpa [hpos.ne'] using this
  · intro t ht
    have := e t
    rw [List.countP_eq_length.2 (fun n hn => by simpa using ht n hn)] at this
    exact mul_right_cancel₀ hpos.ne' (by rw [this, one_mul])
  · intro t
    unfold perFilter; field_simp

example : perFilter (80 : ℚ) (some [1, 2, 15, 16]) 3 = 1 / 2 ∧ perFilter (80 : ℚ) none 20 = 1 / 4 := by decide +kernel

/-- **C91 fails** for a band that is never loaded: construction raises. -/
theorem C91_never_violated : loadedOk (some ([] : List ℚ)) = false := rfl

/-- **C91 fails** after the end of the survey for a band that is always loaded: more than all is wanted. -/
theorem C91_end_violated : perFilter (80 : ℚ) none 120 = 3 / 2 := by decide +kernel

end Verif
