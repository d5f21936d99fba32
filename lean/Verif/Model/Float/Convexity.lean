import Verif.Model.Float.Geometry

/-!
# Convexity of polygons and quadrilaterals in double precision

frackit/geometry/polygon.hh and quadrilateral.hh once more, with the arithmetic of `double`.  `std::signbit(x)` is taken as
`x < 0`; the scalar products are never -0, as they are sums that begin with 0.
-/

namespace Frackit.Fp
open Verif

/-- `Polygon::edge(i).direction()`, frackit/geometry/polygon.hh:144-148 and segment.hh:93, for `i` below the number of
corners. -/
noncomputable def edgeDirection (cs : List V3) (i : ℕ) : Outcome V3 :=
  mkDirection (vectorBetween (cs.getD i 0) (cs.getD ((i + 1) % cs.length) 0))

open Classical in
/-- `Polygon::determineConvexity_`, frackit/geometry/polygon.hh:226-244, for at least three corners.  Simplification: if an
edge has zero length, its direction is `NaN`; this is the outcome `nan`. -/
noncomputable def polygonConvexity (cs : List V3) : Outcome Prop :=
  if ∃ i < cs.length, edgeDirection cs i = .nan then .nan
  else .val (∀ t0 t1, edgeDirection cs (cs.length - 1) = .val t0 → edgeDirection cs 0 = .val t1 →
    ∀ i d e, 1 ≤ i → i < cs.length - 1 → edgeDirection cs i = .val d → edgeDirection cs (i + 1) = .val e →
      ¬ scalarProduct (crossProduct d e) (crossProduct t0 t1) < 0)

/-- `Quadrilateral::determineConvexity_`, frackit/geometry/quadrilateral.hh:203-221. -/
def quadConvexity (p0 p1 p2 p3 : V3) : Prop :=
  let v1 := vectorBetween p0 p1
  let v2 := vectorBetween p1 p3
  let v3 := vectorBetween p3 p2
  let v4 := vectorBetween p2 p0
  let n1 := crossProduct v4 v1
  ¬ scalarProduct n1 (crossProduct v1 v2) < 0 ∧ ¬ scalarProduct n1 (crossProduct v2 v3) < 0 ∧
    ¬ scalarProduct n1 (crossProduct v3 v4) < 0

end Frackit.Fp
