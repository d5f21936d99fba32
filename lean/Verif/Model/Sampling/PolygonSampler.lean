import Verif.Model.Sampling.DiskSampler
import Verif.Model.Geometry.Planar
import Mathlib.Data.List.MinMax
import Mathlib.Data.List.Sort

/-!
# Polygon sampler

frackit/sampling/polygonsampler.hh, frackit/sampling/quadrilateralsampler.hh (the non-deprecated
implementation) and python/frackit/sampling/__init__.py.

One call is a function of the values that the distributions return during it.
-/

namespace Frackit
open Verif

/-- Values returned by the distributions and the point sampler of a `PolygonSampler` during a call,
frackit/sampling/polygonsampler.hh:323-332. -/
structure PolygonDraws where
  corners : Draws ℤ
  interval : Draws ℝ
  strikeLength : Draws ℝ
  dipLength : Draws ℝ
  strikeAngle : ℝ
  dipAngle : ℝ
  center : V3

/-- The loop over the number of corners, frackit/sampling/polygonsampler.hh:164-167; `num` and `count`
are the variables of the code, the `count`-th value is drawn. -/
def cornersLoop (s : Draws ℤ) (num : ℤ) (count : ℕ) : ℤ × ℕ :=
  if num < 3 ∧ count < 100 then cornersLoop s (s count) (count + 1) else (num, count)
termination_by 100 - count

open Classical in
/-- The loops over the lengths, frackit/sampling/polygonsampler.hh:250-252 and 256-259 (the first value
has been drawn before). -/
noncomputable def lengthLoop (s : Draws ℝ) (len : ℝ) (count : ℕ) : ℝ × ℕ :=
  if len < 0 ∧ count < 100 then lengthLoop s (s (count + 1)) (count + 1) else (len, count)
termination_by 100 - count

/-- `std::min_element` followed by `erase`: the (first) smallest element and the rest.  The list
must not be empty (undefined behaviour otherwise). -/
noncomputable def takeMin (f : ℝ → ℝ) (xs : List ℝ) : Outcome (ℝ × List ℝ) :=
  match xs.argmin f with
  | none => .ub
  | some x => .val (x, xs.erase x)

/-- `std::max_element` followed by `erase`. -/
noncomputable def takeMax (xs : List ℝ) : Outcome (ℝ × List ℝ) :=
  match xs.argmax id with
  | none => .ub
  | some x => .val (x, xs.erase x)

/-- The elements at even (for `parity = false`) or odd positions, i.e. the distribution over the two
sets, frackit/sampling/polygonsampler.hh:198-202. -/
def everySecond {α : Type} : Bool → List α → List α
  | _, [] => []
  | false, x :: xs => x :: everySecond true xs
  | true, _ :: xs => everySecond false xs

/-- `std::sort` of numbers: the result is unique. -/
noncomputable def sortReals (xs : List ℝ) : List ℝ := xs.insertionSort (· ≤ ·)

/-- `std::adjacent_difference` without its first entry, frackit/sampling/polygonsampler.hh:209-212
and 221-222. -/
def differences (xs : List ℝ) : List ℝ := List.zipWith (fun a b => b - a) xs xs.tail

/-- Increments in one coordinate direction, frackit/sampling/polygonsampler.hh:178-222 (the code
treats the two directions alternately). -/
noncomputable def coordinateDeltas (values : List ℝ) : Outcome (List ℝ) := do
  let (vMin, rest) ← takeMin id values
  let (vMax, rest) ← takeMax rest
  let vMin : ℝ := if vMin > 1 / 10 then 0 else vMin
  let vMax : ℝ := if vMax < 9 / 10 then 1 else vMax
  let set0 := sortReals (vMin :: everySecond false rest) ++ [vMax]
  let set1 := sortReals (vMin :: everySecond true rest) ++ [vMax]
  pure (differences set0 ++ (differences set1).map fun v => v * -1)

/-- The loop that combines the increments to edge vectors, frackit/sampling/polygonsampler.hh:236-245. -/
noncomputable def pairDeltas (maxDx2 : ℝ) : List ℝ → List ℝ → Outcome (List (ℝ × ℝ))
  | [], _ => .val []
  | dx :: dxs, dys => do
    let tmp := maxDx2 - dx * dx
    let (dy, rest) ← takeMin (fun dy => |tmp - dy * dy|) dys
    let ds ← pairDeltas maxDx2 dxs rest
    pure ((dx, dy) :: ds)

/-- The combined increments, frackit/sampling/polygonsampler.hh:225-245. -/
noncomputable def combineDeltas (deltaX deltaY : List ℝ) : Outcome (List (ℝ × ℝ)) := do
  let deltaX := sortReals deltaX
  let (maxDeltaX, _) ← takeMax deltaX
  let (maxDeltaY, _) ← takeMax deltaY
  pairDeltas (maxDeltaX * maxDeltaX + maxDeltaY * maxDeltaY) deltaX deltaY

open Classical in
/-- The lambda `getAngle`, frackit/sampling/polygonsampler.hh:267-276. -/
noncomputable def edgeAngle (v : V3) : ℝ :=
  if |v.y| < 1 / 10 ^ 6 then (if v.x > 0 then 0 else Real.pi)
  else if |v.x| < 1 / 10 ^ 6 then (if v.y > 0 then Real.pi / 2 else 3 * Real.pi / 2)
  else
    let angle := Real.arctan (v.y / v.x)
    if v.x > 0 then (if angle < 0 then 2 * Real.pi + angle else angle)
    else Real.pi + angle

/-- `std::sort` by a key: which order is chosen among elements with equal keys is left open. -/
structure SortsBy {α : Type} (key : α → ℝ) (sort : List α → List α) : Prop where
  perm : ∀ xs, (sort xs).Perm xs
  sorted : ∀ xs, (sort xs).Pairwise fun a b => key a ≤ key b

/-- The vertices from the edge vectors: partial sums, the last edge is left out,
frackit/sampling/polygonsampler.hh:293-306. -/
def partialSums : V3 → List V3 → List V3
  | p, [] => [p]
  | p, e :: es => p :: partialSums (p + e) es

/-- Bounding box of the vertices, frackit/sampling/polygonsampler.hh:297-306: minimum over all
vertices in a coordinate, starting from zero. -/
noncomputable def minOver (f : V3 → ℝ) (vs : List V3) : ℝ := vs.foldl (fun m v => min m (f v)) 0

/-- Maximum over all vertices in a coordinate, starting from zero. -/
noncomputable def maxOver (f : V3 → ℝ) (vs : List V3) : ℝ := vs.foldl (fun m v => max m (f v)) 0

/-- Center of the bounding box, frackit/sampling/polygonsampler.hh:313-315. -/
noncomputable def bboxCenter (vs : List V3) : V3 :=
  ⟨minOver V3.x vs + 0.5 * (maxOver V3.x vs - minOver V3.x vs),
   minOver V3.y vs + 0.5 * (maxOver V3.y vs - minOver V3.y vs),
   minOver V3.z vs + 0.5 * (maxOver V3.z vs - minOver V3.z vs)⟩

/-- The edge vectors in the x-y plane, in the order of the boundary: scaling and sorting,
frackit/sampling/polygonsampler.hh:263-281. -/
def planeEdges (sort : List V3 → List V3) (deltas : List (ℝ × ℝ)) (dipLength strikeLength : ℝ) :
    List V3 :=
  sort (deltas.map fun d => ⟨d.1 * dipLength, d.2 * strikeLength, 0⟩)

/-- Rotation of the edge vectors, combination to vertices and translation to the sampled center,
frackit/sampling/polygonsampler.hh:283-320. -/
noncomputable def placePolygon (edges : List V3) (strikeAngle dipAngle : ℝ) (c : V3) :
    Outcome (List V3) := do
  let strikeDir ← mkDirection ⟨-Real.sin strikeAngle, Real.cos strikeAngle, 0⟩
  let edges := rotateList edges ⟨0, 0, 1⟩ strikeAngle
  let edges := rotateList edges strikeDir dipAngle
  let vertices := partialSums 0 edges.dropLast
  let disp := c - bboxCenter vertices
  pure (vertices.map fun v => v + disp)

/-- The values drawn from the unit interval: first all x-values, then all y-values,
frackit/sampling/polygonsampler.hh:177-180. -/
def intervalValues (s : Draws ℝ) (first n : ℕ) : List ℝ := (List.range n).map fun i => s (first + i)

/-- `PolygonSampler::sampleCorners`, frackit/sampling/polygonsampler.hh:160-321. -/
noncomputable def sampleCorners (sort : List V3 → List V3) (d : PolygonDraws) : Outcome (List V3) :=
  let (numCorners, count) := cornersLoop d.corners 0 0
  if count = 100 then .thrown "Did not obtain a value >= 3 for the number of corners after 100 tries."
  else do
    let n := numCorners.toNat
    let deltaX ← coordinateDeltas (intervalValues d.interval 0 n)
    let deltaY ← coordinateDeltas (intervalValues d.interval n n)
    let deltas ← combineDeltas deltaX deltaY
    let (strikeLength, countStrike) := lengthLoop d.strikeLength (d.strikeLength 0) 0
    if countStrike = 100 then .thrown "Could not sample positive strike length in 100 tries"
    else
      let (dipLength, _countDip) := lengthLoop d.dipLength (d.dipLength 0) 0
      if countStrike = 100 then .thrown "Could not sample positive dip length in 100 tries"
      else placePolygon (planeEdges sort deltas dipLength strikeLength) d.strikeAngle d.dipAngle d.center

/-- `PolygonSampler::operator()`, frackit/sampling/polygonsampler.hh:153-154. -/
noncomputable def samplePolygon (sort : List V3 → List V3) (d : PolygonDraws) : Outcome Polygon := do
  let cs ← sampleCorners sort d
  Polygon.make cs

/-- `QuadrilateralSampler::operator()`, frackit/sampling/quadrilateralsampler.hh:165-172, with the corner
distribution `{4, 4}`, frackit/sampling/quadrilateralsampler.hh:155-158. -/
noncomputable def sampleQuadrilateral (sort : List V3 → List V3) (d : PolygonDraws) :
    Outcome Quadrilateral := do
  let cs ← sampleCorners sort { d with corners := fun _ => 4 }
  match cs with
  | [c0, c1, c2, c3] => pure (Quadrilateral.make c0 c1 c3 c2)
  | _ => .ub

end Frackit
