import Verif.Model.IntRounded
import Mathlib.Data.List.Rotate

/-!
Model of the visit-ordering solver (`/repo/rubin_scheduler/scheduler/utils/tsp.py` 79-262).

Towns are numbered.  The convex hull (scipy) is a parameter: it gets the numbers of the
remaining towns and returns those on the hull, or `none` when it raises QhullError.  Distances
are exact rationals (finite: `IntRounded` raises otherwise).
-/

namespace Verif.Tsp

/-- `route_length` (79-95): the closed path; `np.roll(town_indx, -1)` moves the first to the
end. -/
def routeLength (D : ℕ → ℕ → ℚ) (r : List ℕ) : ℚ := (List.zipWith D r (r.rotate 1)).sum

/-- `generate_hulls` (98-133), with fuel: `left` are the numbers not yet used, in order. -/
def hulls (hull : List ℕ → Option (List ℕ)) : ℕ → List ℕ → Option (List (List ℕ))
  | 0, left => if left = [] then some [] else none
  | n + 1, left =>
    if left = [] then some []
    else match hull left with
      | none => some [left]
      | some new => (hulls hull n (left.filter (fun i => i ∉ new))).map (fun rest => new :: rest)

/-- `deque.rotate(1)`: the last element goes to the front. -/
def rotateRight (r : List ℕ) : List ℕ := r.rotate (r.length - 1)

/-- The routes tried for one more town (154-157): rotated one step further each time, and the
new town at the end. -/
def tries (x : ℕ) : ℕ → List ℕ → List (List ℕ)
  | 0, _ => []
  | n + 1, r =>
    let r' := rotateRight r
    (r' ++ [x]) :: tries x n r'

/-- `np.min(np.where(lengths == np.nanmin(lengths)))` (158): the first of the shortest. -/
def firstBest (D : ℕ → ℕ → ℚ) : List (List ℕ) → Option (List ℕ)
  | [] => none
  | r :: rs => some (rs.foldl (fun b c => if routeLength D c < routeLength D b then c else b) r)

/-- One more town (148-159); `none`: minimum of an empty list raises. -/
def insert1 (D : ℕ → ℕ → ℚ) (r : List ℕ) (x : ℕ) : Option (List ℕ) :=
  firstBest D (tries x r.length r)

/-- `merge_hulls` (136-160); `none` when it raises (no hull: IndexError). -/
def merge (D : ℕ → ℕ → ℚ) : List (List ℕ) → Option (List ℕ)
  | [] => none
  | h :: hs => hs.flatten.foldlM (insert1 D) h

/-- `itertools.combinations(range(n), 3)` (185), in the same order. -/
def cuts (n : ℕ) : List (ℕ × ℕ × ℕ) :=
  (List.range n).flatMap (fun a => (List.range' (a + 1) (n - (a + 1))).flatMap (fun b =>
    (List.range' (b + 1) (n - (b + 1))).map (fun c => (a, b, c))))

/-- The eight routes for one choice of cuts (190-211). -/
def variants (r : List ℕ) (k : ℕ × ℕ × ℕ) : List (List ℕ) :=
  let c1 := (r.take k.2.1).drop k.1
  let c2 := (r.take k.2.2).drop k.2.1
  let c3 := r.drop k.2.2 ++ r.take k.1
  let rc2 := c2.reverse
  let rc3 := c3.reverse
  [c1 ++ c2 ++ c3, c1 ++ c3 ++ c2, c1 ++ rc2 ++ c3, c1 ++ c3 ++ rc2,
   c1 ++ c2 ++ rc3, c1 ++ rc3 ++ c2, c1 ++ rc2 ++ rc3, c1 ++ rc3 ++ rc2]

/-- The comparison at 216-223. -/
def shorter (cross : Bool) (a b : ℚ) : Bool := if cross then ltS Tol.default a b else decide (a < b)

/-- One candidate (214-223). -/
def consider (D : ℕ → ℕ → ℚ) (cross : Bool) (best : List ℕ × ℚ) (p : List ℕ) : List ℕ × ℚ :=
  let l := routeLength D p
  if shorter cross l best.2 then (p, l) else best

/-- `three_opt` (163-225). -/
def threeOpt (D : ℕ → ℕ → ℚ) (cross : Bool) (r : List ℕ) : List ℕ × ℚ :=
  ((cuts r.length).flatMap (variants r)).foldl (consider D cross) (r, routeLength D r)

/-- The optimisation loop (248-261), with fuel: the route and the number of improvements;
`none` when the loop has not ended. -/
def optimize (D : ℕ → ℕ → ℚ) (niter : ℤ) : ℕ → List ℕ → ℚ → ℕ → Option (List ℕ × ℕ)
  | 0, _, _, _ => none
  | n + 1, route, distance, count =>
    let new := threeOpt D true route
    if ltS Tol.default new.2 distance then
      if ((count + 1 : ℕ) : ℤ) = niter then some (new.1, count + 1)
      else optimize D niter n new.1 new.2 (count + 1)
    else some (route, count)

/-- `tsp_convex` (228-262) for `n` towns; `none` when it raises or has not ended. -/
def tspConvex (hull : List ℕ → Option (List ℕ)) (D : ℕ → ℕ → ℚ) (n : ℕ) (opt : Bool) (niter : ℤ) (fuel : ℕ) :
    Option (List ℕ) := do
  let hs ← hulls hull fuel (List.range n)
  let route ← merge D hs
  if opt then
    let r ← optimize D niter fuel route (routeLength D route) 0
    pure r.1
  else pure route

end Verif.Tsp
