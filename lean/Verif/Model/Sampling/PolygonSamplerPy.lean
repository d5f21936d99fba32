import Verif.Model.Sampling.PolygonSampler
import Verif.Model.Geometry.Basic
import Mathlib.Analysis.SpecialFunctions.Complex.Arg

/-!
# Polygon sampler of the Python module

python/frackit/sampling/__init__.py, class `PolygonSampler`.  The functions shared with the C++ implementation
are those of `Verif.Model.Sampling.PolygonSampler`; the ones below differ.
-/

namespace Frackit
open Verif

/-- The loop over the number of corners, python/frackit/sampling/__init__.py:229-232: the counter is
never incremented.  `none`: the loop is still running. -/
def cornersLoopPy : ℕ → Draws ℤ → Option ℤ
  | 0, _ => none
  | fuel + 1, s => if s 0 < 3 then cornersLoopPy fuel (s.drop 1) else some (s 0)

open Classical in
/-- The search for the closest increment, python/frackit/sampling/__init__.py:287-291; the second component is
the variable `closestDy` (`none`: not assigned). -/
noncomputable def closestPy (tmp : ℝ) : List ℝ → ℝ → Option ℝ → Option ℝ
  | [], _, best => best
  | dy :: dys, closest, best =>
    if |tmp - dy * dy| < closest then closestPy tmp dys |tmp - dy * dy| (some dy)
    else closestPy tmp dys closest best

open Classical in
/-- The loop that combines the increments, python/frackit/sampling/__init__.py:281-294; `best` is the variable
`closestDy`, which keeps its value over the iterations. -/
noncomputable def pairDeltasPy (maxDx2 : ℝ) : Option ℝ → List ℝ → List ℝ → Outcome (List (ℝ × ℝ))
  | _, [], _ => .val []
  | best, dx :: dxs, dys =>
    match closestPy (maxDx2 - dx * dx) dys (maxDx2 * 100) best with
    | none => .thrown "UnboundLocalError"
    | some dy =>
      if dy ∈ dys then do
        let ds ← pairDeltasPy maxDx2 (some dy) dxs (dys.erase dy)
        pure ((dx, dy) :: ds)
      else .thrown "ValueError"

/-- The combined increments, python/frackit/sampling/__init__.py:274-294. -/
noncomputable def combineDeltasPy (deltaX deltaY : List ℝ) : Outcome (List (ℝ × ℝ)) := do
  let deltaX := sortReals deltaX
  let (maxDeltaX, _) ← takeMax deltaX
  let (maxDeltaY, _) ← takeMax deltaY
  pairDeltasPy (maxDeltaX * maxDeltaX + maxDeltaY * maxDeltaY) none deltaX deltaY

open Classical in
/-- `getAngle`, python/frackit/sampling/__init__.py:320-325; `atan2` is the argument of a complex number. -/
noncomputable def edgeAnglePy (v : V3) : ℝ :=
  if |v.y| < 1 / 10 ^ 6 then (if v.x > 0 then 0 else Real.pi)
  else if |v.x| < 1 / 10 ^ 6 then (if v.y > 0 then Real.pi / 2 else 3 * Real.pi / 2)
  else
    let angle := Complex.arg ⟨v.x, v.y⟩
    if v.y < 0 then 2 * Real.pi + angle else angle

open Classical in
/-- The loops over the lengths, python/frackit/sampling/__init__.py:302-312: the condition of both loops
tests the strike length, hence the test is a parameter that the loop does not change for the dip length. -/
noncomputable def dipLoopPy (strikeLength : ℝ) (s : Draws ℝ) (len : ℝ) (count : ℕ) : ℝ × ℕ :=
  if strikeLength < 0 ∧ count < 100 then dipLoopPy strikeLength s (s (count + 1)) (count + 1)
  else (len, count)
termination_by 100 - count

open Classical in
/-- Placement of the polygon, python/frackit/sampling/__init__.py:330-366, with the test whether the polygon is
closed. -/
noncomputable def placePolygonPy (edges : List V3) (strikeAngle dipAngle : ℝ) (c : V3) :
    Outcome (List V3) := do
  let strikeDir ← mkDirection ⟨-Real.sin strikeAngle, Real.cos strikeAngle, 0⟩
  let edges := rotateList edges ⟨0, 0, 1⟩ strikeAngle
  let edges := rotateList edges strikeDir dipAngle
  let vertices := partialSums 0 edges.dropLast
  if pointIsEqual (vertices.getLastD 0 + edges.getLastD 0) 0 confusion then
    let disp := c - bboxCenter vertices
    pure (vertices.map fun v => v + disp)
  else .thrown "Past last and first vertex of polygon are not equal!"

/-- `PolygonSampler.sampleCorners`, python/frackit/sampling/__init__.py:228-366.  `none`: the loop over the
number of corners has not ended yet. -/
noncomputable def sampleCornersPy (sort : List V3 → List V3) (fuel : ℕ) (d : PolygonDraws) :
    Option (Outcome (List V3)) :=
  match cornersLoopPy fuel d.corners with
  | none => none
  | some numCorners =>
    some do
      let n := numCorners.toNat
      let deltaX ← coordinateDeltas (intervalValues d.interval 0 n)
      let deltaY ← coordinateDeltas (intervalValues d.interval n n)
      let deltas ← combineDeltasPy deltaX deltaY
      if deltas.length ≠ n then .thrown "Error during edge vectors construction"
      else
        let (strikeLength, countStrike) := lengthLoop d.strikeLength (d.strikeLength 0) 0
        if countStrike = 100 then .thrown "Could not sample strike dimension > 0.0 in 100 tries"
        else
          let (dipLength, countDip) := dipLoopPy strikeLength d.dipLength (d.dipLength 0) 0
          if countDip = 100 then .thrown "Could not sample dip dimension > 0.0 in 100 tries"
          else
            placePolygonPy (planeEdges sort deltas dipLength strikeLength) d.strikeAngle d.dipAngle
              d.center

end Frackit
