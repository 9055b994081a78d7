import Verif.Props.SkyArea
import Verif.Props.AltAz

/-!
# Numbers of visits from survey maps, and the greatest altitude (C140, C141)
-/

namespace Verif

open Real Sky Sph

theorem sum_map_mul_right' {α : Type} (l : List α) (f : α → ℝ) (k : ℝ) : (l.map (fun x => f x * k)).sum = (l.map f).sum * k := by
  induction l with
  | nil => simp
  | cons a l ih => simp only [List.map_cons, List.sum_cons, ih]; ring

theorem sum_labels (m : List Cell) : ∀ (ls : List String), ls.Nodup → (∀ c ∈ m, c.label ∈ ls) → (ls.map (labelSum m)).sum = (m.map total).sum := by
  intro ls hnd hall
  induction m with
  | nil =>
    have : ls.map (labelSum []) = ls.map (fun _ => (0 : ℝ)) := by
      apply List.map_congr_left; intro l _; simp [labelSum]
    rw [this]
    simp
  | cons c m ih =>
    have hstep : ∀ l, labelSum (c :: m) l = (if c.label = l then total c else 0) + labelSum m l := by
      intro l
      unfold labelSum
      by_cases h : c.label = l
      · rw [List.filter_cons_of_pos (by simpa using h), if_pos h]
        simp
      · rw [List.filter_cons_of_neg (by simpa using h), if_neg h]
        simp
    have e : ls.map (labelSum (c :: m)) = ls.map (fun l => (if c.label = l then total c else 0) + labelSum m l) := List.map_congr_left (fun l _ => hstep l)
    have hsum : ∀ (ls : List String) (f g : String → ℝ), (ls.map (fun l => f l + g l)).sum = (ls.map f).sum + (ls.map g).sum := by
      intro ls f g
      induction ls with
      | nil => simp
      | cons a ls ih => simp only [List.map_cons, List.sum_cons, ih]; ring
    have hone : ∀ (ls : List String), ls.Nodup → c.label ∈ ls → (ls.map (fun l => if c.label = l then total c else 0)).sum = total c := by
      intro ls hnd hmem
      induction ls with
      | nil => simp at hmem
      | cons a ls ih =>
        rw [List.nodup_cons] at hnd
        simp only [List.map_cons, List.sum_cons]
        by_cases h : c.label = a
        · rw [if_pos h]
          have : ls.map (fun l => if c.label = l then total c else 0) = ls.map (fun _ => (0 : ℝ)) := by
            apply List.map_congr_left
            intro l hl
            rw [if_neg]
            rintro rfl
            exact hnd.1 (h ▸ hl)
          rw [this]
          simp
        · rw [if_neg h, ih hnd.2 ((List.mem_cons.1 hmem).resolve_left h), zero_add]
    rw [e, hsum, hone ls hnd (hall c List.mem_cons_self), ih (fun c' hc' => hall c' (List.mem_cons_of_mem _ hc'))]
    simp

/-- C140. When there is any weight, the expected visits of a pixel in the bands add up to its visits in all; over the sky, with the area of a visit, the visits are as many as
given; and the visits of a pixel are in proportion to its weights. -/
theorem C140_visits (m : List Cell) (nvis fov pix : ℝ) (hf : 0 < fov) (hp : 0 < pix) (out : List ((String → ℝ) × ℝ))
    (h : estimateVisits m nvis fov pix = some out) :
    out.length = m.length ∧ (∀ x ∈ out, (bands.map x.1).sum = x.2) ∧ (out.map (fun x => x.2 * pix / fov)).sum = nvis ∧
      ∃ k : ℝ, k * (m.map total).sum * pix = nvis * fov ∧ ∀ (i : ℕ) x c, out[i]? = some x → m[i]? = some c → (∀ b, x.1 b = k * c.w b) ∧ x.2 = k * total c := by
  unfold estimateVisits at h
  simp only at h
  split_ifs at h with h0
  rw [Option.some.injEq] at h
  subst h
  refine ⟨by simp, ?_, ?_, fov / pix * nvis / (m.map total).sum, ?_, ?_⟩
  · intro x hx
    obtain ⟨c, -, rfl⟩ := List.mem_map.1 hx
    simp only
    unfold total bands
    simp only [List.map_cons, List.map_nil, List.sum_cons, List.sum_nil]
    ring
  · rw [List.map_map]
    have : m.map ((fun x : (String → ℝ) × ℝ => x.2 * pix / fov) ∘ fun c => (fun b => c.w b / (m.map total).sum * (fov / pix) * nvis, total c / (m.map total).sum * (fov / pix) * nvis)) =
        m.map (fun c => total c * (nvis / (m.map total).sum)) := by
      apply List.map_congr_left
      intro c _
      simp only [Function.comp]
      field_simp
    rw [this, sum_map_mul_right']
    field_simp
  · field_simp
  · intro i x c hx hc
    rw [List.getElem?_map, hc] at hx
    simp only [Option.map_some, Option.some.injEq] at hx
    subst hx
    refine ⟨fun b => ?_, ?_⟩
    · simp only; ring
    · simp only; ring

/-- C140. The expected visits of the regions add up to the number given, each region is there once, and the number of a region is that of its pixels. -/
theorem C140_labels (m : List Cell) (nvis fov pix : ℝ) (hf : 0 < fov) (hp : 0 < pix) (out : List (String × ℝ)) (h : visitsPerLabel m nvis = some out) :
    (out.map (·.1)).Nodup ∧ (∀ l, (∃ c ∈ m, c.label = l) ↔ ∃ x ∈ out, x.1 = l) ∧ (out.map (·.2)).sum = nvis ∧
      ∃ vs, estimateVisits m nvis fov pix = some vs ∧ ∀ x ∈ out, x.2 = (((m.zip vs).filter (fun y => y.1.label = x.1)).map (fun y => y.2.2 * pix / fov)).sum := by
  unfold visitsPerLabel at h
  simp only at h
  have hsum := sum_labels m (labels m) (List.nodup_dedup _) (fun c hc => List.mem_dedup.2 (List.mem_map_of_mem hc))
  split_ifs at h with h0
  rw [Option.some.injEq] at h
  subst h
  rw [hsum] at h0
  refine ⟨?_, ?_, ?_, ?_⟩
  · rw [List.map_map]
    exact (List.map_id _).symm ▸ List.nodup_dedup _
  · intro l
    constructor
    · rintro ⟨c, hc, rfl⟩
      exact ⟨_, List.mem_map_of_mem (List.mem_dedup.2 (List.mem_map_of_mem hc)), rfl⟩
    · rintro ⟨x, hx, rfl⟩
      obtain ⟨l, hl, rfl⟩ := List.mem_map.1 hx
      obtain ⟨c, hc, e⟩ := List.mem_map.1 (List.mem_dedup.1 hl)
      exact ⟨c, hc, e⟩
  · rw [List.map_map]
    have : (labels m).map ((fun x : String × ℝ => x.2) ∘ fun l => (l, labelSum m l / ((labels m).map (labelSum m)).sum * nvis)) =
        (labels m).map (fun l => labelSum m l * (nvis / (m.map total).sum)) := by
      apply List.map_congr_left
      intro l _
      simp only [Function.comp, hsum]
      ring
    rw [this, sum_map_mul_right', hsum]
    field_simp
  · have hev : estimateVisits m nvis fov pix = some (m.map fun c => (fun b => c.w b / (m.map total).sum * (fov / pix) * nvis, total c / (m.map total).sum * (fov / pix) * nvis)) := by
      unfold estimateVisits
      simp only
      rw [if_neg h0]
    refine ⟨_, hev, ?_⟩
    intro x hx
    obtain ⟨l, -, rfl⟩ := List.mem_map.1 hx
    simp only [hsum]
    have key : ∀ m' : List Cell, labelSum m' l * (nvis / (m.map total).sum) =
        (((m'.zip (m'.map fun c => (fun b => c.w b / (m.map total).sum * (fov / pix) * nvis, total c / (m.map total).sum * (fov / pix) * nvis))).filter (fun y => y.1.label = l)).map
          (fun y : Cell × ((String → ℝ) × ℝ) => y.2.2 * pix / fov)).sum := by
      intro m'
      unfold labelSum
      induction m' with
      | nil => simp
      | cons c m' ih =>
        simp only [List.map_cons, List.zip_cons_cons]
        by_cases hc : c.label = l
        · rw [List.filter_cons_of_pos (by simpa using hc), List.filter_cons_of_pos (by simpa using hc)]
          simp only [List.map_cons, List.sum_cons]
          rw [← ih]
          field_simp
        · rw [List.filter_cons_of_neg (by simpa using hc), List.filter_cons_of_neg (by simpa using hc)]
          exact ih
    rw [← key m]
    ring

theorem goodSum_nonneg (m : List (Option ℝ)) : 0 ≤ goodSum m := by
  unfold goodSum
  apply List.sum_nonneg
  intro x hx
  obtain ⟨y, -, hy⟩ := List.mem_filterMap.1 hx
  cases y with
  | none => simp at hy
  | some v =>
    simp only [Option.bind_some] at hy
    split_ifs at hy with h
    simp only [Option.some.injEq] at hy
    linarith

theorem goodSum_pos {m : List (Option ℝ)} {v : ℝ} (hv : some v ∈ m) (h : 0 < v) : 0 < goodSum m := by
  unfold goodSum
  induction m with
  | nil => simp at hv
  | cons a m ih =>
    rcases List.mem_cons.1 hv with rfl | hm
    · rw [List.filterMap_cons_some (b := v) (by simp [h]), List.sum_cons]
      exact add_pos_of_pos_of_nonneg h (goodSum_nonneg m)
    · have := ih hm
      cases a with
      | none => simpa using this
      | some w =>
        by_cases hw : 0 < w
        · rw [List.filterMap_cons_some (b := w) (by simp [hw]), List.sum_cons]
          linarith
        · rw [List.filterMap_cons_none (by simp [hw])]
          exact this

/-- C140. When some pixel of some band is wanted, the shares of the bands are from 0 to 1, add up to 1, and are those of the sums over the pixels that are wanted. -/
theorem C140_bands (ms : List (String × List (Option ℝ))) (h : ∃ m ∈ ms, ∃ v, some v ∈ m.2 ∧ 0 < v) :
    ∃ out, bandRatios ms = some out ∧ out.map (·.1) = ms.map (·.1) ∧ (out.map (·.2)).sum = 1 ∧ (∀ x ∈ out, 0 ≤ x.2 ∧ x.2 ≤ 1) ∧
      ∀ (i : ℕ) x m, out[i]? = some x → ms[i]? = some m → x.2 * (ms.map (fun m => goodSum m.2)).sum = goodSum m.2 := by
  obtain ⟨m, hm, v, hv, h0⟩ := h
  have hall : ∀ x ∈ ms.map (fun m => goodSum m.2), 0 ≤ x := by
    intro x hx
    obtain ⟨m, -, rfl⟩ := List.mem_map.1 hx
    exact goodSum_nonneg _
  have hle : ∀ x ∈ ms.map (fun m => goodSum m.2), x ≤ (ms.map (fun m => goodSum m.2)).sum := fun x hx => List.single_le_sum hall x hx
  have hpos : 0 < (ms.map (fun m => goodSum m.2)).sum := lt_of_lt_of_le (goodSum_pos hv h0) (hle _ (List.mem_map_of_mem (f := fun m : String × List (Option ℝ) => goodSum m.2) hm))
  refine ⟨ms.map fun m => (m.1, goodSum m.2 / (ms.map (fun m => goodSum m.2)).sum), ?_, ?_, ?_, ?_, ?_⟩
  · unfold bandRatios
    simp only
    rw [if_neg hpos.ne']
  · rw [List.map_map]; rfl
  · rw [List.map_map]
    have : ms.map ((fun x : String × ℝ => x.2) ∘ fun m => (m.1, goodSum m.2 / (ms.map (fun m => goodSum m.2)).sum)) =
        ms.map (fun m => goodSum m.2 * (1 / (ms.map (fun m => goodSum m.2)).sum)) := by
      apply List.map_congr_left
      intro m _
      simp only [Function.comp]
      ring
    rw [this, sum_map_mul_right' ms (fun m => goodSum m.2)]
    field_simp
  · intro x hx
    obtain ⟨m, hm, rfl⟩ := List.mem_map.1 hx
    refine ⟨div_nonneg (goodSum_nonneg _) hpos.le, ?_⟩
    rw [div_le_one hpos]
    exact hle _ (List.mem_map_of_mem (f := fun m : String × List (Option ℝ) => goodSum m.2) hm)
  · intro i x m hx hm
    rw [List.getElem?_map, hm] at hx
    simp only [Option.map_some, Option.some.injEq] at hx
    subst hx
    simp only
    field_simp

/-- C140 does not hold in full: without any weight there are no shares and no numbers of visits, but `nan`. -/
theorem C140_none_violated : bandRatios [("r", [some 0, none])] = none ∧ estimateVisits [⟨"", fun _ => 0⟩] 100 9.6 1 = none := by
  constructor
  · unfold bandRatios goodSum
    simp
  · unfold estimateVisits total bands
    simp

example : ∃ out, estimateVisits [⟨"lowdust", fun b => if b = "r" then 1 else 1 / 2⟩, ⟨"", fun _ => 0⟩] 100 9.6 3 = some out := by
  unfold estimateVisits total bands
  simp only
  rw [if_neg]
  · exact ⟨_, rfl⟩
  · norm_num [show ("u" : String) ≠ "r" by decide, show ("g" : String) ≠ "r" by decide, show ("i" : String) ≠ "r" by decide, show ("z" : String) ≠ "r" by decide, show ("y" : String) ≠ "r" by decide]

/-- C141. No position of the sky at a declination is ever higher, at any time, than the value used for the map, and when it crosses the meridian it is that high. -/
theorem C141_highest (dec lat : ℝ) (hd : IsLat dec) (hl : IsLat lat) :
    (∀ ra lst, (altAz ra dec lat lst).1 ≤ elevMax dec lat) ∧ ∀ ra lst, lst / 12 * π = ra → (altAz ra dec lat lst).1 = elevMax dec lat := by
  obtain ⟨d1, d2⟩ := hd
  obtain ⟨l1, l2⟩ := hl
  have hc : 0 ≤ cos dec * cos lat := mul_nonneg (cos_nonneg_of_neg_pi_div_two_le_of_le d1 d2) (cos_nonneg_of_neg_pi_div_two_le_of_le l1 l2)
  have habs : |dec - lat| ≤ π := by rw [abs_le]; constructor <;> linarith
  have hsin : sin (elevMax dec lat) = sin dec * sin lat + cos dec * cos lat := by
    unfold elevMax
    rw [sin_pi_div_two_sub, cos_abs, cos_sub]
    ring
  have hrange : -(π / 2) ≤ elevMax dec lat ∧ elevMax dec lat ≤ π / 2 := by
    unfold elevMax
    constructor
    · linarith
    · linarith [abs_nonneg (dec - lat)]
  have hclip : clip (sin (elevMax dec lat)) = sin (elevMax dec lat) := by
    unfold clip
    rw [max_eq_left (neg_one_le_sin _), min_eq_left (sin_le_one _)]
  have hmono : ∀ x y : ℝ, x ≤ y → clip x ≤ clip y := by
    intro x y h
    unfold clip
    exact min_le_min (max_le_max h (le_refl _)) (le_refl _)
  refine ⟨fun ra lst => ?_, fun ra lst h => ?_⟩
  · show arcsin (clip (sin dec * sin lat + cos dec * cos lat * cos (lst / 12 * π - ra))) ≤ _
    rw [← arcsin_sin hrange.1 hrange.2]
    apply monotone_arcsin
    rw [← hclip]
    apply hmono
    rw [hsin]
    nlinarith [cos_le_one (lst / 12 * π - ra)]
  · show arcsin (clip (sin dec * sin lat + cos dec * cos lat * cos (lst / 12 * π - ra))) = _
    rw [h, sub_self, cos_zero, mul_one, ← hsin, hclip, arcsin_sin hrange.1 hrange.2]

/-- C141. A pixel is zero when it is at the limit of elevation or above at some time, and otherwise it is masked. -/
theorem C141_reached (ra dec lat limit mask : ℝ) (hd : IsLat dec) (hl : IsLat lat) :
    ((∃ lst, limit * (π / 180) ≤ (altAz ra dec lat lst).1) → allSky dec lat limit mask = 0) ∧
      ((∀ lst, (altAz ra dec lat lst).1 < limit * (π / 180)) → allSky dec lat limit mask = mask) := by
  obtain ⟨h1, h2⟩ := C141_highest dec lat hd hl
  refine ⟨?_, ?_⟩
  · rintro ⟨lst, h⟩
    unfold allSky
    rw [if_pos (h.trans (h1 ra lst))]
  · intro h
    unfold allSky
    rw [if_neg]
    have := h (ra / π * 12)
    rw [h2 ra (ra / π * 12) (by field_simp)] at this
    linarith

example : IsLat (0 : ℝ) ∧ IsLat (-(π / 6)) ∧ elevMax 0 (-(π / 6)) = π / 3 := by
  have := pi_pos
  refine ⟨⟨by linarith, by linarith⟩, ⟨by linarith, by linarith⟩, ?_⟩
  unfold elevMax
  rw [zero_sub, neg_neg, abs_of_pos (by positivity)]
  ring

end Verif
