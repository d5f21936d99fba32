import Verif.Model.Float.Centroid

/-!
# Containment in triangles and polygons in double precision

frackit/geometry/triangle.hh and polygon.hh once more, with the arithmetic of `double`.
-/

namespace Frackit.Fp
open Verif

/-- The sum of the areas of the sub-triangles in `Polygon::convexContains`, frackit/geometry/polygon.hh:207-210. -/
noncomputable def subAreas (cs : List V3) (p : V3) : ℝ :=
  add ((List.range (cs.length - 1)).foldl
      (fun s i => add s (triangleArea (cs.getD i 0) (cs.getD (i + 1) 0) p)) 0)
    (triangleArea (cs.getD (cs.length - 1) 0) (cs.getD 0 0) p)

/-- `Polygon::convexContains`, frackit/geometry/polygon.hh:200-215, for at least three corners.  If the first three corners
are on a line, the normal of the plane is `NaN` and no point is found on it. -/
def polygonConvexContains (cs : List V3) (p : V3) (eps : ℝ) (checkIfOnPlane : Bool) : Prop :=
  (checkIfOnPlane = true →
    ∃ pl, planeOfPoints (cs.getD 0 0) (cs.getD 1 0) (cs.getD 2 0) = .val pl ∧ planeContains pl p eps) ∧
  |sub (polygonSums cs).2 (subAreas cs p)| < mul eps eps

/-- `Polygon::contains(p, eps, checkIfOnPlane)`, frackit/geometry/polygon.hh:172-178.  Simplification: the member
`isConvex_`, which the constructor computes, is the argument `isConvex`. -/
def polygonContains (isConvex : Bool) (cs : List V3) (p : V3) (eps : ℝ) (checkIfOnPlane : Bool := true) : Outcome Prop :=
  if isConvex then .val (polygonConvexContains cs p eps checkIfOnPlane)
  else .thrown "contains() query for non-convex polygons"

/-- `Polygon::contains(p, checkIfOnPlane)`, frackit/geometry/polygon.hh:188-193.  If the area is zero, so are all terms of
the sum for the centre; the centre and the tolerance are `NaN` and the comparisons false. -/
noncomputable def polygonContainsDefault (isConvex : Bool) (cs : List V3) (p : V3) (checkIfOnPlane : Bool := true) :
    Outcome Prop :=
  match polygonCenter cs with
  | .val c => polygonContains isConvex cs p (mul confusion (length (vectorBetween (cs.getD 0 0) c))) checkIfOnPlane
  | _ => if isConvex then .val False else .thrown "contains() query for non-convex polygons"

/-- `Triangle(p0, p1, p2).contains(p, eps, checkIfOnPlane)`, frackit/geometry/triangle.hh:96-98, 111, 145-160.  If the
corners are on a line, the normal is `NaN` and no point is found on the plane. -/
def triangleContains (p0 p1 p2 p : V3) (eps : ℝ) (checkIfOnPlane : Bool := true) : Prop :=
  (checkIfOnPlane = true → ∃ n, mkDirection (crossProduct (vectorBetween p0 p1) (vectorBetween p0 p2)) = .val n ∧
    |scalarProduct (vectorBetween p0 p) n| < eps) ∧
  |sub (triangleArea p0 p1 p2)
    (add (add (add 0 (triangleArea p0 p1 p)) (triangleArea p1 p2 p)) (triangleArea p2 p0 p))| < mul eps eps

end Frackit.Fp
