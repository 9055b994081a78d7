import Verif.Model.Sphere

/-!
Model of finding the pixels of the sky near positions: `_build_tree` (`/repo/rubin_scheduler/utils/tree_utils.py` 15-47), `hp_kd_tree` and
`HpInLsstFov` (`/repo/rubin_scheduler/scheduler/utils/utils.py` 636-721), and the search of `_hp_grow_mask`
(`/repo/rubin_scheduler/utils/healpy_utils.py` 397-450), whose use is in `Model/Shadow`.

The centres of the pixels (`_hpid2_ra_dec`) are an input. A tree is the list of its points; searching a tree is taken to find the points at no more than the
distance given, in the order of the list (scipy's order may differ). Angles are radians. `HpInComcamFov` is in `Model/Comcam`.
-/

namespace Verif.Fov

open Real Sph

noncomputable section

/-- `np.round`: the nearest whole number, halves to the even one. -/
def nearest (x : ℝ) : ℤ :=
  if x - ⌊x⌋ < 1 / 2 then ⌊x⌋ else if 1 / 2 < x - ⌊x⌋ then ⌊x⌋ + 1 else if ⌊x⌋ % 2 = 0 then ⌊x⌋ else ⌊x⌋ + 1

/-- A point with whole coordinates. -/
structure Grid where
  x : ℤ
  y : ℤ
  z : ℤ

/-- The rounded coordinates of a position (tree_utils.py 33-37; scheduler/utils/utils.py 712-715; healpy_utils.py 434, 440-442). -/
def toGrid (scale ra dec : ℝ) : Grid :=
  ⟨nearest ((xyz ra dec).x * scale), nearest ((xyz ra dec).y * scale), nearest ((xyz ra dec).z * scale)⟩

/-- `_build_tree` with a scale (tree_utils.py 31-47). Without positions it raises; so it does for angles of more than two full turns. -/
def buildTree (scale : ℝ) (centres : List (ℝ × ℝ)) : Option (List Grid) :=
  open Classical in
  if (∃ c ∈ centres, 2 * π < |c.1|) ∨ (∃ c ∈ centres, 2 * π < |c.2|) then none
  else if centres.isEmpty then none
  else some (centres.map fun c => toGrid scale c.1 c.2)

/-- Whether a point is found. -/
def near (p q : Grid) (r : ℤ) : Bool :=
  decide (0 ≤ r) && decide ((p.x - q.x) ^ 2 + (p.y - q.y) ^ 2 + (p.z - q.z) ^ 2 ≤ r ^ 2)

/-- `query_ball_point` for one point. -/
def query (tree : List Grid) (p : Grid) (r : ℤ) : List ℕ :=
  (List.range tree.length).filter (fun i => ((tree[i]?).map (fun q => near q p r)).getD false)

/-- `HpInLsstFov` after its constructor (scheduler/utils/utils.py 693-696). -/
structure Lsst where
  tree : List Grid
  radius : ℤ
  scale : ℝ

/-- `HpInLsstFov.__init__` (693-696). -/
def Lsst.make (centres : List (ℝ × ℝ)) (fovRadius scale : ℝ) : Option Lsst :=
  (buildTree scale centres).map fun t => ⟨t, nearest (radius3 fovRadius * scale), scale⟩

/-- `HpInLsstFov.__call__` (698-721) for one position. -/
def Lsst.one (f : Lsst) (ra dec : ℝ) : List ℕ := query f.tree (toGrid f.scale ra dec) f.radius

/-- `HpInLsstFov.__call__` (698-721): a list of pixels for one position, also in an array, and a list of lists for more. -/
def Lsst.many (f : Lsst) (ps : List (ℝ × ℝ)) : List ℕ ⊕ List (List ℕ) :=
  match ps with
  | [p] => .inl (f.one p.1 p.2)
  | _ => .inr (ps.map fun p => f.one p.1 p.2)

/-- `_hp_grow_mask` (healpy_utils.py 397-450) without its caches; `centres` are those of all pixels and `masked` numbers of pixels. An empty list
raises (448). -/
def growMask (centres : List (ℝ × ℝ)) (masked : List ℕ) (growSize scale : ℝ) : Option (List ℕ) :=
  match buildTree scale centres with
  | none => none
  | some tree =>
    match masked.mapM (fun i => centres[i]?) with
    | none => none
    | some [] => none
    | some cs =>
      let r := nearest (2 * sin (growSize / 2) * scale)
      some ((List.range tree.length).filter fun i => cs.any fun c => (query tree (toGrid scale c.1 c.2) r).contains i)

end

end Verif.Fov
