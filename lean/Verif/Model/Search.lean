import Verif.Lib.Sort
import Mathlib.Algebra.Order.Field.Basic
import Mathlib.Algebra.Order.Field.Rat
import Mathlib.Data.List.GetD

/-!
Geometric searches: `cpp/point_cloud.cpp` and the candidate searches in `cpp/utils.cpp`.
Coordinates live in an arbitrary linearly ordered field `K` (exact arithmetic instead of doubles).
-/

namespace Verif.Search

variable {K : Type} [Field K] [LinearOrder K]

/-- Contract of `std::sort` with comparison `key a < key b`: some permutation in which no later
element is smaller.  Ties may be in any order. -/
def IsStdSort {α : Type} (key : α → K) (input output : List α) : Prop :=
  output.Perm input ∧ output.Pairwise (fun a b => key a ≤ key b)

/-- `x.data() + i * 3`: the three coordinates of point `i`. -/
abbrev Points (K : Type) := ℕ → Fin 3 → K

/-- `cpp/point_cloud.cpp:41-43`, `57-59`: squared distance as summed in the loops. -/
def dr (x : Points K) (i j : ℕ) (dx : K) : K :=
  dx * dx + (x j 1 - x i 1) * (x j 1 - x i 1) + (x j 2 - x i 2) * (x j 2 - x i 2)

/-- `cpp/point_cloud.cpp:34-47`: forward scan; `idx = n - k` is the current position
(`while (idx < npoints)`), `k` positions are left. -/
def scanFwd (x : Points K) (r : K) (xFwd : List ℕ) (i : ℕ) : ℕ → List ℕ
  | 0 => []
  | k + 1 =>
    let j := xFwd.getD (xFwd.length - (k + 1)) 0
    let dx := x j 0 - x i 0
    if dx > r then []
    else if dr x i j dx < r * r then j :: scanFwd x r xFwd i k
    else scanFwd x r xFwd i k

/-- `cpp/point_cloud.cpp:48-61`: backward scan from position `idx` (`while (idx > 0)`). -/
def scanBwd (x : Points K) (r : K) (xFwd : List ℕ) (i : ℕ) : ℕ → List ℕ
  | 0 => []
  | idx + 1 =>
    let j := xFwd.getD (idx + 1) 0
    let dx := x i 0 - x j 0
    if dx > r then []
    else if dr x i j dx < r * r then j :: scanBwd x r xFwd i idx
    else scanBwd x r xFwd i idx

/-- `cpp/point_cloud.cpp:14-67` `point_cloud_pairs`: neighbours of point `i`.  `xFwd` is the
`std::sort`ed index list (lines 20-24); `x_rev[i]` (lines 25-26) is the position of `i` in it.
`x_rev[i] - 1` is truncated at 0, where the C++ loop (from -1) does not run either. -/
def neighbours (x : Points K) (r : K) (xFwd : List ℕ) (i : ℕ) : List ℕ :=
  let pos := xFwd.idxOf i
  scanFwd x r xFwd i (xFwd.length - (pos + 1)) ++ scanBwd x r xFwd i (pos - 1)

/-- The adjacency list returned by `point_cloud_pairs` as a list of lists. -/
def pointCloudPairs (x : Points K) (r : K) (xFwd : List ℕ) : List (List ℕ) :=
  (List.range xFwd.length).map (neighbours x r xFwd)

/-- `cpp/utils.cpp:856-862`, `909-914`: squared midpoint distance (sum over three coordinates of
squared absolute differences). -/
def midDist (p q : Fin 3 → K) : K :=
  0 + |p 0 - q 0| * |p 0 - q 0| + |p 1 - q 1| * |p 1 - q 1| + |p 2 - q 2| * |p 2 - q 2|

/-- `cpp/utils.cpp:846-869`: indices (into the candidate array) that pass the radius test, with
their distances. -/
def candPatch (q : Fin 3 → K) (cand : List (Fin 3 → K)) (radius : K) : List (ℕ × K) :=
  (List.range cand.length).foldl (fun acc i =>
    let dist := midDist q (cand.getD i (fun _ => 0))
    if radius < 0 ∨ dist < radius * radius then acc ++ [(i, dist)] else acc) []

/-- `cpp/utils.cpp:832-878` `find_candidate_facets`; `perm` is the result of `std::sort` on the
positions of the patch by distance. -/
def findCandidateFacets (q : Fin 3 → K) (cand : List (Fin 3 → K)) (radius : K) (perm : List ℕ) :
    List ℕ :=
  let patch := candPatch q cand radius
  (List.range patch.length).map (fun i => (patch.getD (perm.getD i 0) (0, 0)).1)

/-- `cpp/utils.cpp:903-922`: inner loop with `break`: is some quadrature midpoint within the radius? -/
def anyWithin (c : Fin 3 → K) (r2 : K) : List (Fin 3 → K) → Bool
  | [] => false
  | q :: qs => if midDist q c < r2 then true else anyWithin c r2 qs

/-- `cpp/utils.cpp:880-927` `find_candidate_surface_segment`; candidates are (facet, midpoint). -/
def findSurfaceSegment (quad : List (Fin 3 → K)) (cand : List (ℕ × (Fin 3 → K))) (radius : K) :
    List ℕ :=
  if radius < 0 then cand.map (·.1)
  else cand.foldl (fun acc c => if anyWithin c.2 (radius * radius) quad then acc ++ [c.1] else acc) []

end Verif.Search
