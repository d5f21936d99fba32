import Verif.Model.Geometry.Planar
import Verif.Model.Geometry.Elliptical

/-!
# Distances computed without OpenCASCADE

frackit/distance/{distance,distancetoboundary,pointongeometry,pointonboundary}.hh

Not modelled: the overloads that forward to `BRepExtrema_DistShapeShape` (distance.hh:69-146,
distancetoboundary.hh:91-105, 156-200, 212-354).
-/

namespace Frackit
open Verif

/-- `computeDistance(point, point)`, frackit/distance/distance.hh:154-157. -/
noncomputable def distPointPoint (p1 p2 : V3) : ℝ := (p2 - p1).len

/-- `computeDistance(point, line)`, frackit/distance/distance.hh:165-168. -/
noncomputable def distPointLine (p : V3) (l : Line) : ℝ := (l.projection p - p).len

/-- `computeDistance(line, point)`, frackit/distance/distance.hh:176-179. -/
noncomputable def distLinePoint (l : Line) (p : V3) : ℝ := distPointLine p l

open Classical in
/-- `computeDistance(point, segment)`, frackit/distance/distance.hh:187-202.  For a degenerate
segment the projection is `NaN`, and `contains` is false for it. -/
noncomputable def distPointSegment (p : V3) (s : Segment) : ℝ :=
  let d1 := (s.source - p).len
  let d2 := (s.target - p).len
  match s.supportingLine with
  | .val line =>
      let proj := line.projection p
      if s.containsDefault proj then (proj - p).len else min d1 d2
  | _ => min d1 d2

/-- `computeDistance(segment, point)`, frackit/distance/distance.hh:210-213. -/
noncomputable def distSegmentPoint (s : Segment) (p : V3) : ℝ := distPointSegment p s

/-- The loop of `computeDistance(geo1, vector)`, frackit/distance/distance.hh:243-246; `dist` is the
distance between the first geometry and one of the vector, which may fail. -/
noncomputable def distLoop {α : Type} (dist : α → Outcome ℝ) : ℝ → List α → Outcome ℝ
  | m, [] => .val m
  | m, a :: t => do
      let d ← dist a
      distLoop dist (min m d) t

/-- `computeDistance(geo1, vector)`, frackit/distance/distance.hh:237-249. -/
noncomputable def distVector {α : Type} (dist : α → Outcome ℝ) (l : List α) : Outcome ℝ :=
  distLoop dist doubleMax l

/-- `computeDistance` between a geometry and a list of the Python bindings,
python/frackit/geometry/__init__.py:141-156: `min(d(geo, g) for g in list)`; the minimum of an empty
list is an error. -/
noncomputable def pyDistList {α : Type} (dist : α → Outcome ℝ) : List α → Outcome ℝ
  | [] => .thrown "min() arg is an empty sequence"
  | a :: t => do
      let d ← dist a
      distLoop dist d t

/-- `Polygon::edge(i)`, frackit/geometry/polygon.hh:144-148 (assert compiled out): an invalid index
reads beyond the corners. -/
def Polygon.edge (pg : Polygon) (i : ℕ) : Outcome Segment :=
  if i < pg.corners.length then .val (polygonEdge pg.corners i) else .ub

/-- `Polygon::numEdges`, frackit/geometry/polygon.hh:142. -/
def Polygon.numEdges (pg : Polygon) : ℕ := pg.corners.length

/-- `Quadrilateral::numEdges`, frackit/geometry/quadrilateral.hh:131. -/
def Quadrilateral.numEdges (_ : Quadrilateral) : ℕ := 4

/-- Distance between a point and the edge with the given index. -/
noncomputable def edgeDist (edge : ℕ → Outcome Segment) (p : V3) (i : ℕ) : Outcome ℝ := do
  let s ← edge i
  pure (distSegmentPoint s p)

/-- `computeDistanceToBoundary(point, quadrilateral)`, frackit/distance/distancetoboundary.hh:114-126. -/
noncomputable def boundaryDistQuad (p : V3) (q : Quadrilateral) : Outcome ℝ :=
  distLoop (edgeDist q.edge p) doubleMax (List.range q.numEdges)

/-- `computeDistanceToBoundary(point, polygon)`, frackit/distance/distancetoboundary.hh:135-147. -/
noncomputable def boundaryDistPolygon (p : V3) (pg : Polygon) : Outcome ℝ :=
  distLoop (edgeDist pg.edge p) doubleMax (List.range pg.numEdges)

open Classical in
/-- `pointOnGeometry(point, segment, eps)`: in 3d the overload for shapes,
frackit/distance/pointongeometry.hh:59-64, is the more specialised one. -/
noncomputable def pointOnSegment (p : V3) (s : Segment) (eps : ℝ) : Bool :=
  decide (distPointSegment p s < eps)

/-- The loops of `pointOnGeometryBoundary`, frackit/distance/pointonboundary.hh:93-96 and 112-115. -/
noncomputable def onEdgeLoop (edge : ℕ → Outcome Segment) (p : V3) (eps : ℝ) :
    List ℕ → Outcome Bool
  | [] => .val false
  | i :: t => do
      let s ← edge i
      if pointOnSegment p s eps = true then pure true else onEdgeLoop edge p eps t

/-- `pointOnGeometryBoundary(point, quadrilateral, eps)`, frackit/distance/pointonboundary.hh:88-97. -/
noncomputable def onBoundaryQuad (p : V3) (q : Quadrilateral) (eps : ℝ) : Outcome Bool :=
  onEdgeLoop q.edge p eps (List.range q.numEdges)

/-- `pointOnGeometryBoundary(point, polygon, eps)`, frackit/distance/pointonboundary.hh:107-116. -/
noncomputable def onBoundaryPolygon (p : V3) (pg : Polygon) (eps : ℝ) : Outcome Bool :=
  onEdgeLoop pg.edge p eps (List.range pg.numEdges)

end Frackit
