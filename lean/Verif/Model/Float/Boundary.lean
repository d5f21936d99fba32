import Verif.Model.Float.Geometry
import Verif.Model.Distance.Distance

/-!
# Boundaries of quadrilaterals and polygons in double precision

The functions of frackit/distance/distancetoboundary.hh and pointonboundary.hh for points once more, with the arithmetic
of `double`.  The corners of the edges are copies of the corners of the geometry, and the minimum of two numbers is not
rounded.
-/

namespace Frackit.Fp
open Verif

/-- Distance between a point and the edge with the given index, frackit/distance/distance.hh:210-213. -/
noncomputable def edgeDist (edge : ℕ → Outcome Segment) (p : V3) (i : ℕ) : Outcome ℝ := do
  let s ← edge i
  pure (distPointSegment p s)

/-- `computeDistanceToBoundary(point, quadrilateral)`, frackit/distance/distancetoboundary.hh:114-126. -/
noncomputable def boundaryDistQuad (p : V3) (q : Quadrilateral) : Outcome ℝ :=
  distLoop (edgeDist q.edge p) doubleMax (List.range q.numEdges)

/-- `computeDistanceToBoundary(point, polygon)`, frackit/distance/distancetoboundary.hh:135-147. -/
noncomputable def boundaryDistPolygon (p : V3) (pg : Polygon) : Outcome ℝ :=
  distLoop (edgeDist pg.edge p) doubleMax (List.range pg.numEdges)

open Classical in
/-- The loops of `pointOnGeometryBoundary`, frackit/distance/pointonboundary.hh:93-96 and 112-115, with
`pointOnGeometry(point, segment, eps)`, frackit/distance/pointongeometry.hh:59-64. -/
noncomputable def onEdgeLoop (edge : ℕ → Outcome Segment) (p : V3) (eps : ℝ) : List ℕ → Outcome Bool
  | [] => .val false
  | i :: t => do
      let s ← edge i
      if distPointSegment p s < eps then pure true else onEdgeLoop edge p eps t

/-- `pointOnGeometryBoundary(point, quadrilateral, eps)`, frackit/distance/pointonboundary.hh:88-97. -/
noncomputable def onBoundaryQuad (p : V3) (q : Quadrilateral) (eps : ℝ) : Outcome Bool :=
  onEdgeLoop q.edge p eps (List.range q.numEdges)

/-- `pointOnGeometryBoundary(point, polygon, eps)`, frackit/distance/pointonboundary.hh:107-116. -/
noncomputable def onBoundaryPolygon (p : V3) (pg : Polygon) (eps : ℝ) : Outcome Bool :=
  onEdgeLoop pg.edge p eps (List.range pg.numEdges)

end Frackit.Fp
