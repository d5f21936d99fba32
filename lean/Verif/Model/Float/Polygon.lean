import Verif.Model.Float.Rotation
import Verif.Model.Sampling.PolygonSampler

/-!
# Sampled polygons in double precision

frackit/sampling/polygonsampler.hh.  Minima, maxima and sorting of numbers are exact, so that `minOver`, `maxOver`, `takeMin`,
`takeMax` and `sortReals` are the ones of the model over the real numbers.
-/

namespace Frackit.Fp
open Verif

/-- The edge vectors rotated by strike and dip angle, frackit/sampling/polygonsampler.hh:283-288. -/
noncomputable def polygonEdges (edges : List V3) (strikeAngle dipAngle : ℝ) : Outcome (List V3) := do
  let strikeDir ← mkDirection ⟨-sin strikeAngle, cos strikeAngle, 0⟩
  let zAxis ← mkDirection ⟨0, 0, 1⟩
  pure ((edges.map fun e => rotate e zAxis strikeAngle).map fun e => rotate e strikeDir dipAngle)

/-- The vertices from the edge vectors, frackit/sampling/polygonsampler.hh:290-306. -/
noncomputable def partialSums : V3 → List V3 → List V3
  | p, [] => [p]
  | p, e :: es => p :: partialSums (move p e) es

/-- Center of the bounding box, frackit/sampling/polygonsampler.hh:313-315. -/
noncomputable def bboxCenter (vs : List V3) : V3 :=
  ⟨add (minOver V3.x vs) (mul 0.5 (sub (maxOver V3.x vs) (minOver V3.x vs))),
   add (minOver V3.y vs) (mul 0.5 (sub (maxOver V3.y vs) (minOver V3.y vs))),
   add (minOver V3.z vs) (mul 0.5 (sub (maxOver V3.z vs) (minOver V3.z vs)))⟩

/-- The end of `PolygonSampler::sampleCorners`, frackit/sampling/polygonsampler.hh:283-320; without edges, the loop over
`edgeVectors.size()-1` edges leaves the list. -/
noncomputable def placePolygon (edges : List V3) (strikeAngle dipAngle : ℝ) (c : V3) : Outcome (List V3) := do
  let edges ← polygonEdges edges strikeAngle dipAngle
  match edges with
  | [] => .ub
  | edges =>
    let vertices := partialSums 0 edges.dropLast
    let disp := vectorBetween (bboxCenter vertices) c
    pure (vertices.map fun v => move v disp)

/-- The condition of the assertion that the polygon is closed, frackit/sampling/polygonsampler.hh:309 (compiled out in
release builds), for the rotated edge vectors. -/
def polygonCloses (edges : List V3) : Prop :=
  match (partialSums 0 edges.dropLast).getLast?, edges.getLast? with
  | some v, some e => pointIsEqualDefault (move v e) 0
  | _, _ => False

/-- `std::adjacent_difference` without its first entry, frackit/sampling/polygonsampler.hh:209-212 and 221-222. -/
noncomputable def differences (xs : List ℝ) : List ℝ := List.zipWith (fun a b => sub b a) xs xs.tail

/-- Increments in one coordinate direction, frackit/sampling/polygonsampler.hh:182-222. -/
noncomputable def coordinateDeltas (values : List ℝ) : Outcome (List ℝ) := do
  let (vMin, rest) ← takeMin id values
  let (vMax, rest) ← takeMax rest
  let vMin : ℝ := if vMin > rnd (1 / 10) then 0 else vMin
  let vMax : ℝ := if vMax < rnd (9 / 10) then 1 else vMax
  let set0 := sortReals (vMin :: everySecond false rest) ++ [vMax]
  let set1 := sortReals (vMin :: everySecond true rest) ++ [vMax]
  pure (differences set0 ++ (differences set1).map fun v => mul v (-1))

/-- The loop that combines the increments to edge vectors, frackit/sampling/polygonsampler.hh:236-245. -/
noncomputable def pairDeltas (maxDx2 : ℝ) : List ℝ → List ℝ → Outcome (List (ℝ × ℝ))
  | [], _ => .val []
  | dx :: dxs, dys => do
    let tmp := sub maxDx2 (mul dx dx)
    let (dy, rest) ← takeMin (fun dy => |sub tmp (mul dy dy)|) dys
    let ds ← pairDeltas maxDx2 dxs rest
    pure ((dx, dy) :: ds)

/-- The combined increments, frackit/sampling/polygonsampler.hh:225-245. -/
noncomputable def combineDeltas (deltaX deltaY : List ℝ) : Outcome (List (ℝ × ℝ)) := do
  let deltaX := sortReals deltaX
  let (maxDeltaX, _) ← takeMax deltaX
  let (maxDeltaY, _) ← takeMax deltaY
  pairDeltas (add (mul maxDeltaX maxDeltaX) (mul maxDeltaY maxDeltaY)) deltaX deltaY

/-- The edge vectors in the x-y plane, frackit/sampling/polygonsampler.hh:263-281.  Simplification: the angles by which the
edges are sorted are not computed, `sort` is left open. -/
noncomputable def planeEdges (sort : List V3 → List V3) (deltas : List (ℝ × ℝ)) (dipLength strikeLength : ℝ) : List V3 :=
  sort (deltas.map fun d => ⟨mul d.1 dipLength, mul d.2 strikeLength, 0⟩)

/-- The first part of `PolygonSampler::sampleCorners`, frackit/sampling/polygonsampler.hh:162-281. -/
noncomputable def sampleEdges (sort : List V3 → List V3) (d : PolygonDraws) : Outcome (List V3) :=
  let (numCorners, count) := cornersLoop d.corners 0 0
  if count = 100 then .thrown "Did not obtain a value >= 3 for the number of corners after 100 tries."
  else do
    let n := numCorners.toNat
    let deltaX ← coordinateDeltas (intervalValues d.interval 0 n)
    let deltaY ← coordinateDeltas (intervalValues d.interval n n)
    let deltas ← combineDeltas deltaX deltaY
    let (strikeLength, countStrike) := lengthLoop d.strikeLength (d.strikeLength 0) 0
    if countStrike = 100 then .thrown "Could not sample positive strike length in 100 tries"
    else
      let (dipLength, _countDip) := lengthLoop d.dipLength (d.dipLength 0) 0
      if countStrike = 100 then .thrown "Could not sample positive dip length in 100 tries"
      else pure (planeEdges sort deltas dipLength strikeLength)

/-- `PolygonSampler::sampleCorners`, frackit/sampling/polygonsampler.hh:160-321. -/
noncomputable def sampleCorners (sort : List V3 → List V3) (d : PolygonDraws) : Outcome (List V3) := do
  let edges ← sampleEdges sort d
  placePolygon edges d.strikeAngle d.dipAngle d.center

end Frackit.Fp
