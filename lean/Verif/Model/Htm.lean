import Verif.Model.Sphere
import Mathlib.Data.List.Sort
import Mathlib.Data.Nat.Size

/-!
Model of the triangular mesh on the sphere (`/repo/rubin_scheduler/utils/htm_module.py`). Line numbers refer to that file.
Numbers are real numbers; exceptions and recursion without end are `none`. Caches of computed values are left out.
-/

namespace Verif.Htm

open Real Sph

noncomputable section

/-! ### Vectors -/

def add (a b : Vec) : Vec := ⟨a.x + b.x, a.y + b.y, a.z + b.z⟩

def sub (a b : Vec) : Vec := ⟨a.x - b.x, a.y - b.y, a.z - b.z⟩

def smul (k : ℝ) (a : Vec) : Vec := ⟨k * a.x, k * a.y, k * a.z⟩

/-- `np.dot`. -/
def dot (a b : Vec) : ℝ := a.x * b.x + a.y * b.y + a.z * b.z

/-- `np.cross`. -/
def cross (a b : Vec) : Vec := ⟨a.y * b.z - a.z * b.y, a.z * b.x - a.x * b.z, a.x * b.y - a.y * b.x⟩

/-- A vector divided by its length (`v / np.sqrt(np.power(v, 2).sum())`). -/
def unit (a : Vec) : Vec := smul (1 / √(a.x ^ 2 + a.y ^ 2 + a.z ^ 2)) a

/-! ### Trixels -/

/-- A trixel: its number and its corners (69-70). -/
structure Trixel where
  id : ℕ
  c0 : Vec
  c1 : Vec
  c2 : Vec

/-- The length of a number written with two digits, `len("{0:b}".format(n))` (71). -/
def bits (n : ℕ) : ℕ := if n = 0 then 1 else n.size

/-- `level` (71, 337-354). -/
def Trixel.level (t : Trixel) : ℝ := (bits t.id : ℝ) / 2 - 1

/-- `_contains_one_pt` (138-158); `_contains_many_pts` (160-182) is the same for each point. -/
def Trixel.contains (t : Trixel) (p : Vec) : Prop :=
  0 ≤ dot (cross t.c0 t.c1) p ∧ 0 ≤ dot (cross t.c1 t.c2) p ∧ 0 ≤ dot (cross t.c2 t.c0) p

instance (t : Trixel) (p : Vec) : Decidable (t.contains p) := Classical.propDecidable _

/-- `w_arr` (200-208). -/
def Trixel.w0 (t : Trixel) : Vec := unit (add t.c1 t.c2)
def Trixel.w1 (t : Trixel) : Vec := unit (add t.c0 t.c2)
def Trixel.w2 (t : Trixel) : Vec := unit (add t.c0 t.c1)

/-- `get_child` (226-319). -/
def Trixel.child (t : Trixel) (k : ℕ) : Option Trixel :=
  if k = 0 then some ⟨t.id <<< 2, t.c0, t.w2, t.w1⟩
  else if k = 1 then some ⟨(t.id <<< 2) + 1, t.c1, t.w0, t.w2⟩
  else if k = 2 then some ⟨(t.id <<< 2) + 2, t.c2, t.w1, t.w0⟩
  else if k = 3 then some ⟨(t.id <<< 2) + 3, t.w0, t.w1, t.w2⟩
  else none

/-- `get_children` (286-290). -/
def Trixel.children (t : Trixel) : List Trixel :=
  [⟨t.id <<< 2, t.c0, t.w2, t.w1⟩, ⟨(t.id <<< 2) + 1, t.c1, t.w0, t.w2⟩,
    ⟨(t.id <<< 2) + 2, t.c2, t.w1, t.w0⟩, ⟨(t.id <<< 2) + 3, t.w0, t.w1, t.w2⟩]

/-- The trixels to begin with (420-462). -/
def n0 : Trixel := ⟨12, ⟨1, 0, 0⟩, ⟨0, 0, 1⟩, ⟨0, -1, 0⟩⟩
def n1 : Trixel := ⟨13, ⟨0, -1, 0⟩, ⟨0, 0, 1⟩, ⟨-1, 0, 0⟩⟩
def n2 : Trixel := ⟨14, ⟨-1, 0, 0⟩, ⟨0, 0, 1⟩, ⟨0, 1, 0⟩⟩
def n3 : Trixel := ⟨15, ⟨0, 1, 0⟩, ⟨0, 0, 1⟩, ⟨1, 0, 0⟩⟩
def s0 : Trixel := ⟨8, ⟨1, 0, 0⟩, ⟨0, 0, -1⟩, ⟨0, 1, 0⟩⟩
def s1 : Trixel := ⟨9, ⟨0, 1, 0⟩, ⟨0, 0, -1⟩, ⟨-1, 0, 0⟩⟩
def s2 : Trixel := ⟨10, ⟨-1, 0, 0⟩, ⟨0, 0, -1⟩, ⟨0, -1, 0⟩⟩
def s3 : Trixel := ⟨11, ⟨0, -1, 0⟩, ⟨0, 0, -1⟩, ⟨1, 0, 0⟩⟩

/-- `level_from_htmid` (476-503). -/
def levelFrom (i : ℕ) : Option ℕ :=
  if h : 15 < i then (levelFrom (i >>> 2)).map (· + 1)
  else if i < 8 then none else some 1
termination_by i
decreasing_by
  rw [Nat.shiftRight_eq_div_pow]
  omega

/-- The trixel to begin with for a number (523-544). -/
def baseOf (b : ℕ) : Option Trixel :=
  if b = 8 then some s0 else if b = 9 then some s1 else if b = 10 then some s2 else if b = 11 then some s3
  else if b = 12 then some n0 else if b = 13 then some n1 else if b = 14 then some n2 else if b = 15 then some n3 else none

/-- The loop of `trixel_from_htmid` (557-571): `n` rounds are left. -/
def descend (htmid level : ℕ) : ℕ → ℕ → ℕ → Trixel → Option Trixel
  | 0, _, _, ans => some ans
  | n + 1, ix, complement, ans =>
    let target := (htmid &&& complement) >>> (2 * (level - ix - 2))
    if 4 ≤ target then none
    else match ans.child target with
      | none => none
      | some c => descend htmid level n (ix + 1) (complement >>> 2) c

/-- `trixel_from_htmid` (506-573). -/
def trixelFrom (htmid : ℕ) : Option Trixel :=
  match levelFrom htmid with
  | none => none
  | some level =>
    match baseOf (htmid >>> (2 * (level - 1))) with
    | none => none
    | some ans => if level = 1 then some ans else descend htmid level (level - 1) 0 (3 <<< (2 * (level - 2))) ans

/-! ### All trixels of a level -/

/-- A dictionary. -/
abbrev Dict := ℕ → Option Trixel

def put (d : Dict) (k : ℕ) (t : Option Trixel) : Dict := fun j => if j = k then t else d j

/-- The children of a trixel added (624-627, 632-635). -/
def addChildren (d : Dict) (k : ℕ) (t : Trixel) : Dict :=
  put (put (put (put d (k <<< 2) (t.child 0)) ((k <<< 2) + 1) (t.child 1)) ((k <<< 2) + 2) (t.child 2)) ((k <<< 2) + 3) (t.child 3)

/-- The number of bits to drop (610-612): the first of 2, 4, ... below `n` that gives a known trixel, or the last. -/
def nRight (d : Dict) (htmid n : ℕ) : Option ℕ :=
  let rs := (List.range ((n - 1) / 2)).map (fun i => 2 * (i + 1))
  match rs.find? (fun r => (d (htmid >>> r)).isSome) with
  | some r => some r
  | none => rs.getLast?

/-- The loop that adds ancestors (606-627). A loop without values leaves `n_right` unset, which raises. -/
def grow (htmid n : ℕ) : ℕ → Dict → Option Dict
  | 0, _ => none
  | fuel + 1, d =>
    if (d (htmid >>> 2)).isSome then some d
    else match nRight d htmid n with
      | none => none
      | some r =>
        match (d (htmid >>> r)).orElse (fun _ => trixelFrom (htmid >>> r)) with
        | none => none
        | some t => grow htmid n fuel (addChildren (put d (htmid >>> r) (some t)) (htmid >>> r) t)

/-- One number of the loop (598-635). -/
def addOne (n htmid : ℕ) (d : Dict) : Option Dict :=
  if (d htmid).isSome then some d
  else match grow htmid n (n + 2) d with
    | none => none
    | some d' =>
      match d' (htmid >>> 2) with
      | none => none
      | some t => some (addChildren d' (htmid >>> 2) t)

/-- `get_all_trixels` (576-637). -/
def allTrixels (level : ℕ) : Option Dict :=
  let n := 2 * (level - 1)
  let start : Option Dict := (List.range' 8 8).foldl (fun d i => d.bind fun d => (trixelFrom i).map fun t => put d i (some t)) (some fun _ => none)
  ((List.range' 8 8).flatMap (fun t0 => (List.range (2 ^ n)).map (fun dt => (t0 <<< n) + dt))).foldl
    (fun d i => d.bind (addOne n i)) start

/-! ### The trixel of a point -/

/-- `_iterate_trixel_finder` (640-666). `some none` is a point in none of the children. -/
def iterFind (p : Vec) (maxLevel : ℝ) : ℕ → Trixel → Option (Option ℕ)
  | 0, _ => none
  | fuel + 1, parent =>
    match parent.children.find? (fun c => c.contains p) with
    | none => some none
    | some c => if c.level = maxLevel then some (some c.id) else iterFind p maxLevel fuel c

/-- The trixels to begin with in the order they are tried (696-713). -/
def bases : List Trixel := [s0, s1, s2, s3, n0, n1, n2, n3]

/-- `_find_htmid_slow` (669-715) for a point of the sphere, in radians; `fuel` bounds the recursion. -/
def findSlow (fuel : ℕ) (ra dec : ℝ) (maxLevel : ℝ) : Option (Option ℕ) :=
  match bases.find? (fun t => t.contains (xyz ra dec)) with
  | none => none
  | some parent => iterFind (xyz ra dec) maxLevel fuel parent

/-- One trixel of a level in `_find_htmid_fast` (781-807) for one point: the number so far, and the trixels with the point. -/
def fastOne (d : Dict) (p : Vec) (acc : ℕ × List ℕ) (parent : ℕ) : Option (ℕ × List ℕ) :=
  match d (parent <<< 2), d ((parent <<< 2) + 1), d ((parent <<< 2) + 2), d ((parent <<< 2) + 3) with
  | some t0, some t1, some t2, some t3 =>
    if t0.contains p then some (parent <<< 2, acc.2 ++ [parent <<< 2])
    else if t1.contains p then some ((parent <<< 2) + 1, acc.2 ++ [(parent <<< 2) + 1])
    else if t2.contains p then some ((parent <<< 2) + 2, acc.2 ++ [(parent <<< 2) + 2])
    else if t3.contains p then some ((parent <<< 2) + 3, acc.2 ++ [(parent <<< 2) + 3])
    else some acc
  | _, _, _, _ => none

/-- One level of `_find_htmid_fast` (779-808) for one point. -/
def fastStep (d : Dict) (p : Vec) (s : Option (ℕ × List ℕ)) : Option (ℕ × List ℕ) :=
  s.bind fun s => s.2.foldl (fun acc parent => acc.bind fun acc => fastOne d p acc parent) (some (s.1, []))

/-- `_find_htmid_fast` (718-810) for one point, with the dictionary it has; the points of an array do not influence each other.
A number that is missing in the dictionary raises, also for a child that is not asked for. -/
def findFast (d : Dict) (ra dec : ℝ) (maxLevel : ℕ) : Option ℕ :=
  if 10 < maxLevel then none
  else
    let p := xyz ra dec
    let found := bases.filter (fun t => t.contains p)
    ((fastStep d p)^[maxLevel - 1] (some ((found.getLast?.map (·.id)).getD 0, found.map (·.id)))).map (·.1)

/-- `find_htmid` (813-858) for arrays, with the dictionary of the fast version. A result that is no number raises. -/
def findMany (fuel : ℕ) (d : Dict) (pts : List (ℝ × ℝ)) (maxLevel : ℕ) : Option (List ℕ) :=
  if maxLevel ≤ 10 ∧ 100 < pts.length then pts.mapM (fun p => findFast d p.1 p.2 maxLevel)
  else pts.mapM (fun p => (findSlow fuel p.1 p.2 maxLevel).join)

end

/-! ### Ranges of numbers -/

/-- The values collected in the loop of `merge_trixel_bounds`: the least, the greatest, and `current_max`. -/
structure Run where
  lo : ℕ
  hi : ℕ
  cur : ℕ
deriving DecidableEq, Repr

/-- One row of the loop of `merge_trixel_bounds` (1119-1128). -/
def mergeStep (s : List (ℕ × ℕ) × Option Run) (row : ℕ × ℕ) : List (ℕ × ℕ) × Option Run :=
  match s.2 with
  | none => (s.1, some ⟨min row.1 row.2, max row.1 row.2, row.2⟩)
  | some r =>
    if row.1 ≤ r.cur + 1 then (s.1, some ⟨min r.lo (min row.1 row.2), max r.hi (max row.1 row.2), max r.cur row.2⟩)
    else (s.1 ++ [(r.lo, r.hi)], some ⟨min row.1 row.2, max row.1 row.2, row.2⟩)

/-- `merge_trixel_bounds` (1098-1132). Rows with equal first number may come in another order in the code. -/
def mergeBounds (bounds : List (ℕ × ℕ)) : List (ℕ × ℕ) :=
  let r := (bounds.insertionSort (fun a b => a.1 ≤ b.1)).foldl mergeStep ([], none)
  match r.2 with
  | none => r.1
  | some c => r.1 ++ [(c.lo, c.hi)]

/-- The loop of `join_trixel_bound_sets` (1161-1191), over what is left of the two lists. -/
def joinLoop : List (ℕ × ℕ) → List (ℕ × ℕ) → List (ℕ × ℕ)
  | r1 :: l1, r2 :: l2 =>
    if r1.1 ≤ r2.1 ∧ r2.2 ≤ r1.2 then r2 :: joinLoop (r1 :: l1) l2
    else if r2.1 ≤ r1.1 ∧ r1.2 ≤ r2.2 then r1 :: joinLoop l1 (r2 :: l2)
    else
      (if max r1.1 r2.1 ≤ min r1.2 r2.2 then [(max r1.1 r2.1, min r1.2 r2.2)] else []) ++
        (if r1.2 < r2.2 then joinLoop l1 (r2 :: l2) else joinLoop (r1 :: l1) l2)
  | _, _ => []
termination_by a b => a.length + b.length

/-- `join_trixel_bound_sets` (1134-1193). The first entry of an empty list raises. -/
def joinBounds (b1 b2 : List (ℕ × ℕ)) : Option (List (ℕ × ℕ)) :=
  let m1 := mergeBounds b1
  let m2 := mergeBounds b2
  match m1.head?, m2.head?, m1.getLast?, m2.getLast? with
  | some f1, some f2, some l1, some l2 =>
    let tmin := max f1.1 f2.1
    let tmax := min l1.2 l2.2
    let k1 := m1.filter (fun r => r.1 ≤ tmax && tmin ≤ r.2)
    let k2 := m2.filter (fun r => r.1 ≤ tmax && tmin ≤ r.2)
    if k1 = [] ∨ k2 = [] then some [] else some (mergeBounds (joinLoop k1 k2))
  | _, _, _, _ => none

/-! ### Half spaces -/

noncomputable section

/-- A half space: its vector of length one and its distance (894-895). -/
structure Half where
  v : Vec
  d : ℝ

/-- `HalfSpace.__init__` (894-895). -/
def half (vector : Vec) (length : ℝ) : Half := ⟨unit vector, length⟩

/-- `phi` (896-905). -/
def Half.phi (h : Half) : ℝ := if |h.d| < 1 then arccos h.d else if h.d < 0 then π else 0

/-- `contains_pt` (941-959) without a tolerance. -/
def Half.containsPt (h : Half) (p : Vec) : Prop := h.d < dot (unit p) h.v

/-- `contains_many_pts` (961-974) for one point. -/
def Half.containsUnit (h : Half) (p : Vec) : Prop := h.d < dot p h.v

/-- `intersects_edge` (976-1009). A division by zero gives infinity or `nan`, for which both comparisons fail. -/
def Half.meetsEdge (h : Half) (p1 p2 : Vec) : Prop :=
  let costheta := dot p1 p2
  let usq := (1 - costheta) / (1 + costheta)
  let gamma1 := dot h.v p1
  let gamma2 := dot h.v p2
  let b := gamma1 * (usq - 1) + gamma2 * (usq + 1)
  let a := -usq * (gamma1 + h.d)
  let c := gamma1 - h.d
  let det := b * b - 4 * a * c
  0 ≤ det ∧ a ≠ 0 ∧ ((0 ≤ (-b + √det) / (2 * a) ∧ (-b + √det) / (2 * a) ≤ 1) ∨ (0 ≤ (-b - √det) / (2 * a) ∧ (-b - √det) / (2 * a) ≤ 1))

/-- `intersects_circle` (1011-1035). The product of two vectors of length one is from -1 to 1, for which the cases are those of
`arccos`; the error for other products is left out. -/
def Half.meetsCircle (h : Half) (center : Vec) (radius : ℝ) : Prop := ¬ h.phi + radius < arccos (dot center h.v)

/-- The centre of the bounding circle (391-396). -/
def Trixel.centre (t : Trixel) : Vec := unit (cross (sub t.c1 t.c0) (sub t.c2 t.c1))

/-- The distance of its plane (400). -/
def Trixel.dd (t : Trixel) : ℝ := max (max (dot t.c0 t.centre) (dot t.c1 t.centre)) (dot t.c2 t.centre)

/-- `intersects_bounding_circle` (1037-1048): the radius passed is the distance of the plane. -/
def Half.meetsBounding (h : Half) (t : Trixel) : Prop := h.meetsCircle t.centre t.dd

inductive Part
  | full
  | some
  | outside
deriving DecidableEq

open Classical in
/-- `contains_trixel` (1050-1096). -/
def Half.part (h : Half) (t : Trixel) : Part :=
  if h.containsUnit t.c0 ∧ h.containsUnit t.c1 ∧ h.containsUnit t.c2 then .full
  else if h.containsUnit t.c0 ∨ h.containsUnit t.c1 ∨ h.containsUnit t.c2 then .some
  else if t.contains h.v then .some
  else if ¬ h.meetsBounding t then .outside
  else if h.meetsEdge t.c0 t.c1 ∨ h.meetsEdge t.c1 t.c2 ∨ h.meetsEdge t.c2 t.c0 then .some
  else .outside

/-- The number of ones before the loop over levels (1233-1235). -/
def ones : ℕ → ℕ
  | 0 => 0
  | n + 1 => (ones n + 3) <<< 2

/-- The order of `basic_trixels` (464-473). -/
def named : List Trixel := [n0, n1, n2, n3, s0, s1, s2, s3]

/-- The loop over levels (1240-1260): `n` levels are left, the next one is `lev`; the ranges so far, the trixels to look into and
the number of ones. -/
def findLoop (h : Half) (level : ℕ) : ℕ → ℕ → ℕ → List (ℕ × ℕ) → List Trixel → List (ℕ × ℕ) × List Trixel
  | 0, _, _, out, act => (out, act)
  | n + 1, lev, m, out, act =>
    let kids := act.flatMap Trixel.children
    findLoop h level n (lev + 1) (m >>> 2)
      (out ++ (kids.filter (fun c => h.part c = .full)).map (fun c => (c.id <<< (2 * (level - lev)), c.id <<< (2 * (level - lev)) + (m >>> 2))))
      (kids.filter (fun c => h.part c = .some))

/-- `find_all_trixels` (1196-1275). -/
def Half.findAll (h : Half) (level : ℕ) : List (ℕ × ℕ) :=
  let r := findLoop h level (level - 2) 2 (ones (level - 2)) [] named
  mergeBounds ((r.1 ++ ((r.2.flatMap Trixel.children).filter (fun c => h.part c ≠ .outside)).map (fun c => (c.id, c.id))).insertionSort
    (fun a b => a.1 ≤ b.1))

/-- `half_space_from_ra_dec` (1278-1297), in radians. -/
def halfAround (ra dec radius : ℝ) : Half := half (xyz ra dec) (cos radius)

/-- `half_space_from_points` (1300-1334), in radians. -/
def halfThrough (p1 p2 p3 : ℝ × ℝ) : Half :=
  let axis := unit (cross (xyz p1.1 p1.2) (xyz p2.1 p2.2))
  half (if dot axis (xyz p3.1 p3.2) < 0 then smul (-1) axis else axis) 0

open Classical in
/-- `intersect_half_spaces` (1337-1384). -/
def meetPoints (h1 h2 : Half) : List Vec :=
  let gamma := dot h1.v h2.v
  if abs (1 - abs gamma) < 1 / 10 ^ 20 then []
  else
    let denom := 1 - gamma ^ 2
    if denom < 0 then []
    else
      let num := h1.d ^ 2 + h2.d ^ 2 - 2 * gamma * h1.d * h2.d
      if denom < num then []
      else
        let uu := (h1.d - gamma * h2.d) / denom
        let vv := (h2.d - gamma * h1.d) / denom
        let ww := √((1 - num / denom) / denom)
        let cr := cross h1.v h2.v
        let p1 := add (add (smul uu h1.v) (smul vv h2.v)) (smul ww cr)
        let p2 := sub (add (smul uu h1.v) (smul vv h2.v)) (smul ww cr)
        if abs (1 - dot p1 p2) < 1 / 10 ^ 20 then [p1] else [p1, p2]

end

end Verif.Htm
