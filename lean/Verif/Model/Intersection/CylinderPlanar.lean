import Verif.Model.Intersection.Planar

/-!
# Intersection of a lateral cylinder surface with a planar geometry

frackit/intersection/algorithms/algo_cylsurface_planargeom.hh and the functions calling it.
-/

namespace Frackit
open Verif

/-- What the algorithm uses of a wire of the geometry kernel: whether it is closed
(`BRep_Tool::IsClosed`), its first and last vertex (`TopExp::Vertices`), and for each of its edges the
distance of a point to the curve of the edge (`GeomAPI_ProjectPointOnCurve`; `none` if there is no
projection). -/
structure WireShape where
  closed : Bool
  first : V3
  last : V3
  edgeDistances : List (V3 → Option ℝ)

/-- Results of the boolean operations,
frackit/intersection/algorithms/algo_cylsurface_planargeom.hh:164-168, 173-178, 201-202, 229-233:

* `hasContainedFaces`: the part of the face inside the solid cylinder has a face;
* `faceWires`: wires of the intersection of the boundary of the face with the cylinder surface;
* `cutVertices`: vertices of the boundary of the face cut by the cylinder surface;
* `containedWires`: wires of the intersection of the boundary of the contained part with the surface. -/
structure CylPlanarOps where
  hasContainedFaces : Bool
  faceWires : List WireShape
  cutVertices : List V3
  containedWires : List WireShape

open Classical in
/-- `Detail::makeArc`, frackit/intersection/algorithms/algo_cylsurface_planargeom.hh:65-94 (asserts
compiled out). -/
noncomputable def makeArc (wire : WireShape) (ellipse : Elliptical) (eps : ℝ) : Outcome EllipseArc := do
  let arc1 ← EllipseArc.make ellipse wire.first wire.last
  let arc2 ← EllipseArc.make ellipse wire.last wire.first
  let center1 := arc1.getPoint 0.5
  let center2 := arc2.getPoint 0.5
  let near (c : V3) (edge : V3 → Option ℝ) : Prop := ∃ d, edge c = some d ∧ d < eps
  match wire.edgeDistances.find? fun e => decide (near center1 e ∨ near center2 e) with
  | some e => if near center1 e then pure arc1 else pure arc2
  | none => pure arc2

open Classical in
/-- `infEllipse`, frackit/intersection/algorithms/algo_cylsurface_planargeom.hh:132-161; `none` stands
for the default-constructed ellipse of the parallel case.  `std::get<Point>` throws for another
alternative. -/
noncomputable def infEllipse (K : Kernel) (c : CylinderSurface) (face : FaceGeom)
    (charLength eps : ℝ) : Outcome (Option Elliptical) :=
  let dn := face.plane.normal
  let ca := c.bottom.normal
  let faceGeomIsParallel := gpIsNormal dn ca angular
  let faceGeomIsOrthogonal := gpIsParallel dn ca angular
  if faceGeomIsOrthogonal then do
    let e ← Elliptical.make (face.plane.projection c.centerSegment.source) c.bottom.major c.bottom.minor
      c.radius c.radius
    pure (some e)
  else if ¬ faceGeomIsParallel then do
    let cylDir := charLength • ca
    let majAxis ← mkDirection (face.plane.projection (face.center + cylDir) - face.center)
    let minAxis ← mkDirection (dn.cross majAxis)
    let majAxis := if isRightHandSystem majAxis minAxis dn then majAxis else invertDirection majAxis
    let majAxisLength := |c.radius / Real.cos (gpAngle dn ca)|
    let cylAxisLine ← c.centerSegment.supportingLine
    match ← intersectPlaneLine K face.plane cylAxisLine eps with
    | .point center => do
        let e ← Elliptical.make center majAxis minAxis majAxisLength c.radius
        pure (some e)
    | _ => .thrown "bad_variant_access"
  else pure none

/-- Parts of the result for the wires on the cylinder surface (arcs or segments),
frackit/intersection/algorithms/algo_cylsurface_planargeom.hh:183-195, 240-249. -/
noncomputable def wireGeom (inf : Option Elliptical) (wire : WireShape) (eps : ℝ) : Outcome IsGeom :=
  match inf with
  | some e => do
      let a ← makeArc wire e eps
      pure (.arc a)
  | none => .val (.segment ⟨wire.first, wire.last⟩)

/-- Map with outcomes, from first to last. -/
def mapOutcome {α β : Type} (f : α → Outcome β) : List α → Outcome (List β)
  | [] => .val []
  | a :: as => do
      let b ← f a
      let bs ← mapOutcome f as
      pure (b :: bs)

open Classical in
/-- Deduplicated candidates for touching points,
frackit/intersection/algorithms/algo_cylsurface_planargeom.hh:204-214. -/
noncomputable def touchCandidates (c : CylinderSurface) (eps : ℝ) (vertices : List V3) : List V3 :=
  vertices.foldl (fun cands p =>
    if c.contains p eps then
      if ∃ tp ∈ cands, pointIsEqual tp p eps then cands else cands ++ [p]
    else cands) []

/-- The loop over the wires of the contained part,
frackit/intersection/algorithms/algo_cylsurface_planargeom.hh:236-250: `Sum.inl e` is the early return
of the ellipse.  A closed wire in the parallel case returns a default-constructed ellipse, whose
members are indeterminate (`ub`). -/
noncomputable def containedLoop (inf : Option Elliptical) (eps : ℝ) :
    List WireShape → Outcome (Elliptical ⊕ List IsGeom)
  | [] => .val (.inr [])
  | w :: ws =>
      if w.closed then
        match inf with
        | some e => .val (.inl e)
        | none => .ub
      else do
        let g ← wireGeom inf w eps
        match ← containedLoop inf eps ws with
        | .inl e => pure (.inl e)
        | .inr gs => pure (.inr (g :: gs))

open Classical in
/-- Whether a touching point is on a segment or arc found before,
frackit/intersection/algorithms/algo_cylsurface_planargeom.hh:256-262. -/
noncomputable def onSome (p : V3) (eps : ℝ) : List IsGeom → Outcome Bool
  | [] => .val false
  | .segment s :: gs => if s.contains p eps then .val true else onSome p eps gs
  | .arc a :: gs => do
      let b ← a.contains p eps
      if b then pure true else onSome p eps gs
  | _ :: gs => onSome p eps gs

/-- The touching points that are added to the result,
frackit/intersection/algorithms/algo_cylsurface_planargeom.hh:253-264. -/
noncomputable def remainingPoints (eps : ℝ) (found : List IsGeom) : List V3 → Outcome (List IsGeom)
  | [] => .val []
  | p :: ps => do
      let b ← onSome p eps found
      let rest ← remainingPoints eps found ps
      pure (if b then rest else .point p :: rest)

/-- `intersect_cylinderSurface_planarGeometry`,
frackit/intersection/algorithms/algo_cylsurface_planargeom.hh:111-273 (asserts compiled out).  All
wires give arcs or all give segments, so that one list suffices for `isArcs` and `isSegments`. -/
noncomputable def intersectCylinderPlanar (K : Kernel) (c : CylinderSurface) (face : FaceGeom)
    (ops : CylPlanarOps) (charLength eps : ℝ) : Outcome (List IsGeom) := do
  let inf ← infEllipse K c face charLength eps
  if ops.hasContainedFaces = false ∧ ops.faceWires ≠ [] then
    mapOutcome (fun w => wireGeom inf w eps) ops.faceWires
  else
    let touch := touchCandidates c eps ops.cutVertices
    if ops.hasContainedFaces = false then
      if touch = [] then pure [.empty] else pure (touch.map .point)
    else do
      match ← containedLoop inf eps ops.containedWires with
      | .inl e => pure [.ellipse e]
      | .inr found => do
          let points ← remainingPoints eps found touch
          let result := points ++ found
          pure (if result = [] then [.empty] else result)

/-- `intersect_cylinderSurface_disk`,
frackit/intersection/algorithms/algo_cylsurface_disk.hh:42-47. -/
noncomputable def intersectCylinderDisk (K : Kernel) (c : CylinderSurface) (d : Elliptical)
    (shape : ShapeOps) (ops : CylPlanarOps) (eps : ℝ) : Outcome (List IsGeom) :=
  intersectCylinderPlanar K c (diskFace d shape) ops (diskCharLength d) eps

/-- `charLength` of `intersect_cylinderSurface_quadrilateral`,
frackit/intersection/algorithms/algo_cylsurface_quadrilateral.hh:55-61. -/
noncomputable def cylQuadCharLength (q : Quadrilateral) : ℝ :=
  Real.sqrt ((quadEdges q).foldl (fun c e => max c e.squaredLength) 0)

open Classical in
/-- `intersect_cylinderSurface_quadrilateral`,
frackit/intersection/algorithms/algo_cylsurface_quadrilateral.hh:46-62. -/
noncomputable def intersectCylinderQuad (K : Kernel) (c : CylinderSurface) (q : Quadrilateral)
    (shape : ShapeOps) (ops : CylPlanarOps) (eps : ℝ) : Outcome (List IsGeom) :=
  if ¬ q.isConvex then
    .thrown "Cylindersurface-Quadrilateral algorithm not robust for concave quadrilaterals!"
  else do
    let f ← quadFace q shape
    intersectCylinderPlanar K c f ops (cylQuadCharLength q) eps

/-- `charLength` of `intersect_cylinderSurface_polygon`,
frackit/intersection/algorithms/algo_cylsurface_polygon.hh:58-63. -/
noncomputable def cylPolygonCharLength (corners : List V3) (center : V3) : ℝ :=
  Real.sqrt (corners.foldl (fun c p => max c (2 * (⟨center, p⟩ : Segment).squaredLength)) 0)

open Classical in
/-- `intersect_cylinderSurface_polygon`,
frackit/intersection/algorithms/algo_cylsurface_polygon.hh:46-64. -/
noncomputable def intersectCylinderPolygon (K : Kernel) (c : CylinderSurface) (pg : Polygon)
    (shape : ShapeOps) (ops : CylPlanarOps) (eps : ℝ) : Outcome (List IsGeom) :=
  if ¬ pg.isConvex then .thrown "CylinderSurface-Polygon algorithm only works for convex polygons"
  else do
    let f ← polygonFace pg shape
    intersectCylinderPlanar K c f ops (cylPolygonCharLength pg.corners f.center) eps

end Frackit
