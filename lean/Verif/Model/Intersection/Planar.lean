import Verif.Model.Intersection.SegmentSegment
import Verif.Model.Geometry.Planar

/-!
# Intersections of planar geometries with lines and with each other

frackit/intersection/algorithms/algo_planargeom_line.hh, algo_planargeom_planargeom.hh and the
functions calling them.
-/

namespace Frackit
open Verif

/-- What the algorithms use of a planar geometry: supporting plane, centre, `contains` without check
of the plane, and the results of the boolean operations with its shape
(frackit/intersection/algorithms/algo_planargeom_line.hh:105-119):

* `commonEdges segment tol`: edges (with their vertices) of the intersection of segment and shape;
* `cutVertices segment tol`: vertices of the segment cut by the shape. -/
structure FaceGeom where
  plane : Plane
  center : V3
  contains : V3 → ℝ → Outcome Prop
  commonEdges : Segment → ℝ → List (List V3)
  cutVertices : Segment → ℝ → List V3

/-- The segment used in place of the line,
frackit/intersection/algorithms/algo_planargeom_line.hh:95-100. -/
noncomputable def probingSegment (center : V3) (line : Line) (charLength : ℝ) : Segment :=
  let source := line.projection center
  let target := source
  let dir := (charLength * 20.0) • line.dir
  ⟨source + dir, target - dir⟩

open Classical in
/-- `intersect_planarGeometry_line`, frackit/intersection/algorithms/algo_planargeom_line.hh:56-139. -/
noncomputable def intersectPlanarLine (K : Kernel) (face : FaceGeom) (line : Line)
    (charLength containsEps eps : ℝ) : Outcome IsGeom := do
  match ← intersectPlaneLine K face.plane line eps with
  | .empty => pure .empty
  | .point p => do
      let c ← face.contains p containsEps
      if c then pure (.point p) else pure .empty
  | .line _ =>
      let seg := probingSegment face.center line charLength
      match face.commonEdges seg (0.1 * eps) with
      | [vertices] =>
          match vertices with
          | v0 :: v1 :: _ => pure (.segment ⟨v0, v1⟩)
          | _ => .ub
      | _ =>
          let vertices := face.cutVertices seg (0.1 * eps)
          if vertices.length = 2 then pure .empty
          else
            match vertices.find? fun p =>
                decide (¬ pointIsEqual p seg.source eps ∧ ¬ pointIsEqual p seg.target eps) with
            | some p => pure (.point p)
            | none => .thrown "Unexpected code behaviour"

open Classical in
/-- The case distinction on the intersections of the two faces with the common line,
frackit/intersection/algorithms/algo_planargeom_planargeom.hh:94-129. -/
noncomputable def combineOnLine (K : Kernel) (is1 is2 : IsGeom) (eps : ℝ) : Outcome IsGeom :=
  match is1, is2 with
  | .segment seg1, .segment seg2 => do
      match ← intersectSegmentSegment K seg1 seg2 eps with
      | .segment s => pure (.segment s)
      | .point p => pure (.point p)
      | _ => pure .empty
  | .segment seg1, .point p2 => if seg1.contains p2 eps then .val (.point p2) else .val .empty
  | .point p1, .segment seg2 => if seg2.contains p1 eps then .val (.point p1) else .val .empty
  | _, _ => .val .empty

/-- `intersect_planarGeometry_planarGeometry`,
frackit/intersection/algorithms/algo_planargeom_planargeom.hh:61-137. -/
noncomputable def intersectPlanarPlanar (K : Kernel) (face1 face2 : FaceGeom)
    (charLength containsEps1 containsEps2 eps : ℝ) : Outcome IsGeom := do
  match ← intersectPlanePlane K face1.plane face2.plane eps with
  | .empty => pure .empty
  | .line isLine => do
      let is1 ← intersectPlanarLine K face1 isLine charLength containsEps1 eps
      let is2 ← intersectPlanarLine K face2 isLine charLength containsEps2 eps
      combineOnLine K is1 is2 eps
  | .plane _ => .thrown "NotImplemented: two-dimensional intersections between two faces"

/-! ## Geometries as faces, and characteristic lengths -/

/-- Results of boolean operations with the shape of a geometry (see `FaceGeom`). -/
structure ShapeOps where
  commonEdges : Segment → ℝ → List (List V3)
  cutVertices : Segment → ℝ → List V3

/-- A disk as argument of the algorithms (frackit/geometry/disk.hh:98-112). -/
def diskFace (d : Elliptical) (ops : ShapeOps) : FaceGeom where
  plane := d.supportingPlane
  center := d.center
  contains p eps := .val (Disk.contains d p eps false)
  commonEdges := ops.commonEdges
  cutVertices := ops.cutVertices

/-- A quadrilateral as argument of the algorithms (frackit/geometry/quadrilateral.hh). -/
noncomputable def quadFace (q : Quadrilateral) (ops : ShapeOps) : Outcome FaceGeom := do
  let plane ← q.plane
  let center ← q.center
  pure ⟨plane, center, fun p eps => .val (q.contains p eps false), ops.commonEdges, ops.cutVertices⟩

/-- A polygon as argument of the algorithms (frackit/geometry/polygon.hh). -/
noncomputable def polygonFace (pg : Polygon) (ops : ShapeOps) : Outcome FaceGeom := do
  let plane ← pg.plane
  let center ← pg.center
  pure ⟨plane, center, fun p eps => pg.contains p eps false, ops.commonEdges, ops.cutVertices⟩

/-- `charLength` of `intersect_disk_line`, frackit/intersection/algorithms/algo_disk_line.hh:51-52
(and of frackit/intersection/algorithms/algo_cylsurface_disk.hh:47). -/
def diskCharLength (d : Elliptical) : ℝ := d.majLen

/-- Edges of a quadrilateral in the order of their indices, frackit/geometry/quadrilateral.hh:133-144. -/
def quadEdges (q : Quadrilateral) : List Segment :=
  [⟨q.p0, q.p1⟩, ⟨q.p1, q.p3⟩, ⟨q.p0, q.p2⟩, ⟨q.p2, q.p3⟩]

/-- `charLength` of `intersect_quadrilateral_line`,
frackit/intersection/algorithms/algo_quadrilateral_line.hh:49-53. -/
noncomputable def quadLineCharLength (q : Quadrilateral) : ℝ :=
  (quadEdges q).foldl (fun c e => max c e.length) 0

/-- `charLength` of `intersect_disk_disk`, frackit/intersection/algorithms/algo_disk_disk.hh:49-51. -/
noncomputable def diskDiskCharLength (d1 d2 : Elliptical) : ℝ := max d1.majLen d2.majLen

/-- Squared length, frackit/geometry/segment.hh:97. -/
def Segment.squaredLength (s : Segment) : ℝ := (s.target - s.source).sqLen

/-- `sqrt(charLength)` of `intersect_quadrilateral_disk`,
frackit/intersection/algorithms/algo_quadrilateral_disk.hh:51-58. -/
noncomputable def quadDiskCharLength (q : Quadrilateral) (d : Elliptical) : ℝ :=
  Real.sqrt ((quadEdges q).foldl (fun c e => max c e.squaredLength) (d.majLen * d.majLen))

/-- `sqrt(charLength)` of `intersect_quadrilateral_quadrilateral`,
frackit/intersection/algorithms/algo_quadrilateral_quadrilateral.hh:52-61. -/
noncomputable def quadQuadCharLength (q1 q2 : Quadrilateral) : ℝ :=
  Real.sqrt ((quadEdges q2).foldl (fun c e => max c e.squaredLength)
    ((quadEdges q1).foldl (fun c e => max c e.squaredLength) 0))

/-- `sqrt(charLength)` of `intersect_polygon_disk`; the size of the disk is not used,
frackit/intersection/algorithms/algo_polygon_disk.hh:53-61. -/
noncomputable def polygonDiskCharLength (corners : List V3) (center : V3) : ℝ :=
  Real.sqrt (corners.foldl (fun c p => max c (⟨center, p⟩ : Segment).squaredLength) 0)

/-- `sqrt(charLength)` of `intersect_polygon_polygon`,
frackit/intersection/algorithms/algo_polygon_polygon.hh:52-63. -/
noncomputable def polygonPolygonCharLength (corners1 : List V3) (center1 : V3) (corners2 : List V3)
    (center2 : V3) : ℝ :=
  Real.sqrt (corners2.foldl (fun c p => max c (2 * (⟨center2, p⟩ : Segment).squaredLength))
    (corners1.foldl (fun c p => max c (2 * (⟨center1, p⟩ : Segment).squaredLength)) 0))

/-- `intersect_disk_line`, frackit/intersection/algorithms/algo_disk_line.hh:45-54. -/
noncomputable def intersectDiskLine (K : Kernel) (d : Elliptical) (ops : ShapeOps) (line : Line)
    (eps : ℝ) : Outcome IsGeom :=
  intersectPlanarLine K (diskFace d ops) line (diskCharLength d) confusion eps

/-- `intersect_quadrilateral_line`, frackit/intersection/algorithms/algo_quadrilateral_line.hh:43-56. -/
noncomputable def intersectQuadLine (K : Kernel) (q : Quadrilateral) (ops : ShapeOps) (line : Line)
    (eps : ℝ) : Outcome IsGeom := do
  let f ← quadFace q ops
  intersectPlanarLine K f line (quadLineCharLength q) eps eps

/-- `intersect_disk_disk`, frackit/intersection/algorithms/algo_disk_disk.hh:43-59. -/
noncomputable def intersectDiskDisk (K : Kernel) (d1 d2 : Elliptical) (ops1 ops2 : ShapeOps)
    (eps : ℝ) : Outcome IsGeom :=
  intersectPlanarPlanar K (diskFace d1 ops1) (diskFace d2 ops2) (diskDiskCharLength d1 d2)
    confusion confusion eps

/-- `intersect_quadrilateral_disk`,
frackit/intersection/algorithms/algo_quadrilateral_disk.hh:45-60. -/
noncomputable def intersectQuadDisk (K : Kernel) (q : Quadrilateral) (d : Elliptical)
    (ops1 ops2 : ShapeOps) (eps : ℝ) : Outcome IsGeom := do
  let f ← quadFace q ops1
  intersectPlanarPlanar K f (diskFace d ops2) (quadDiskCharLength q d) eps eps eps

open Classical in
/-- `intersect_quadrilateral_quadrilateral`,
frackit/intersection/algorithms/algo_quadrilateral_quadrilateral.hh:43-63. -/
noncomputable def intersectQuadQuad (K : Kernel) (q1 q2 : Quadrilateral) (ops1 ops2 : ShapeOps)
    (eps : ℝ) : Outcome IsGeom :=
  if ¬ q1.isConvex ∨ ¬ q2.isConvex then
    .thrown "Quad-Quad intersection algorithm not robust for concave quads"
  else do
    let f1 ← quadFace q1 ops1
    let f2 ← quadFace q2 ops2
    intersectPlanarPlanar K f1 f2 (quadQuadCharLength q1 q2) eps eps eps

/-- `intersect_polygon_disk`, frackit/intersection/algorithms/algo_polygon_disk.hh:46-63. -/
noncomputable def intersectPolygonDisk (K : Kernel) (pg : Polygon) (d : Elliptical)
    (ops1 ops2 : ShapeOps) (eps : ℝ) : Outcome IsGeom := do
  let f ← polygonFace pg ops1
  intersectPlanarPlanar K f (diskFace d ops2) (polygonDiskCharLength pg.corners f.center) eps eps eps

open Classical in
/-- `intersect_polygon_polygon`, frackit/intersection/algorithms/algo_polygon_polygon.hh:43-65. -/
noncomputable def intersectPolygonPolygon (K : Kernel) (pg1 pg2 : Polygon) (ops1 ops2 : ShapeOps)
    (eps : ℝ) : Outcome IsGeom :=
  if ¬ pg1.isConvex ∨ ¬ pg2.isConvex then
    .thrown "Polygon-Polygon algorithm only works for convex polygons"
  else do
    let f1 ← polygonFace pg1 ops1
    let f2 ← polygonFace pg2 ops2
    intersectPlanarPlanar K f1 f2
      (polygonPolygonCharLength pg1.corners f1.center pg2.corners f2.center) eps eps eps

end Frackit
