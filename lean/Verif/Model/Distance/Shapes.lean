import Verif.Model.Distance.Distance
import Verif.Model.Python.Classes

/-!
# Shapes of geometries and distances computed with the geometry kernel

frackit/occ/breputilities.hh (`getShape`), frackit/distance/{distance,distancetoboundary,pointonboundary}.hh,
frackit/precision/defaultepsilon.hh, frackit/python/geometry/distancetoboundary.hh,
python/frackit/geometry/__init__.py.

The algorithms of OpenCASCADE that build primitive shapes and compute distances between shapes are the
fields of `ShapeKernel`; which of them is called with which arguments is modelled.
-/

namespace Frackit
open Verif

/-- The classes of the TopoDS package. -/
inductive ShapeKind where
  | vertex
  | edge
  | wire
  | face
  | shell
  | solid
  | compound
deriving DecidableEq

/-- A shape of the geometry kernel: its class, the points it occupies, and the points of its outer
boundary (`BRepTools::OuterWire` of a face, `BRepClass3d::OuterShell` of a solid). -/
structure Shape where
  kind : ShapeKind
  points : Set V3
  outer : Set V3

/-- Builders and algorithms of OpenCASCADE.  `none`: `IsDone()` is false; an error raised within
OpenCASCADE is an `Outcome` other than a value.

* `vertex`: `BRepBuilderAPI_MakeVertex`; `edge`: `BRepBuilderAPI_MakeEdge` of two points;
* `ellipseWire`, `ellipseFace`: wire of, and face bounded by, `gp_Elips(gp_Ax2(center, normal, major), a, b)`;
* `ellipseEdge`: edge of `Geom_TrimmedCurve(Geom_Ellipse(gp_Elips(gp_Ax2(center, normal, major), a, b)), u1, u2)`;
* `wireFace`: face bounded by the wire made from the given edges (between vertices);
* `cylinder`: solid and lateral face of `BRepPrimAPI_MakeCylinder(gp_Ax2(center, axis, base), r, h, 2π)`;
* `box`: `BRepPrimAPI_MakeBox`; `sphere`: `BRepPrimAPI_MakeSphere`;
* `extrema`: `BRepExtrema_DistShapeShape` with the default flags;
* `bounds`: the bounding box computed by `BRepBndLib`. -/
structure ShapeKernel where
  vertex : V3 → Option Shape
  edge : V3 → V3 → Option Shape
  ellipseWire : (center normal major : V3) → (a b : ℝ) → Outcome Shape
  ellipseFace : (center normal major : V3) → (a b : ℝ) → Outcome Shape
  ellipseEdge : (center normal major : V3) → (a b u1 u2 : ℝ) → Outcome Shape
  wireFace : List (V3 × V3) → Outcome Shape
  cylinder : (center axis base : V3) → (r h : ℝ) → Option (Shape × Shape)
  box : V3 → V3 → Option Shape
  sphere : V3 → ℝ → Option Shape
  extrema : Shape → Shape → Option ℝ
  bounds : Shape → Box

/-- The value of a builder that is done, an exception otherwise. -/
def doneOr {α : Type} (msg : String) : Option α → Outcome α
  | some a => .val a
  | none => .thrown msg

/-- Arguments of the distance functions: internal geometries, lines, and shapes. -/
inductive DistArg where
  | geom (g : AnyGeometry)
  | line (l : Line)
  | shape (s : Shape)

variable (K : ShapeKernel)

/-- `getShape(ellipse)`, frackit/occ/breputilities.hh:220-232. -/
def ellipseShape (e : Elliptical) : Outcome Shape :=
  K.ellipseWire e.center e.normal e.major e.majLen e.minLen

/-- `getShape(circle)`, frackit/occ/breputilities.hh:238-246. -/
noncomputable def circleShape (c : Elliptical) : Outcome Shape := do
  let e ← Elliptical.make c.center c.major c.minor c.majLen c.majLen
  ellipseShape K e

open Classical in
/-- `getGeomHandle(arc)`, frackit/occ/geomutilities.hh:78-89, with `getGeomHandle(ellipse)`, :62-71, and
`getShape(arc)`, frackit/occ/breputilities.hh:252-254. -/
noncomputable def arcShape (arc : EllipseArc) : Outcome Shape :=
  let angleSource := arc.sourceAngle
  let angleTarget :=
    if arc.targetAngle < angleSource then arc.targetAngle + 2 * Real.pi else arc.targetAngle
  K.ellipseEdge arc.ellipse.center arc.ellipse.normal arc.ellipse.major arc.ellipse.majLen arc.ellipse.minLen
    angleSource angleTarget

/-- `getShape(segment)` and `makeEdge`, frackit/occ/breputilities.hh:131-141, 169-171. -/
def segmentShape (s : Segment) : Outcome Shape :=
  doneOr "Could not create segment edge" (K.edge s.source s.target)

/-- `getShape(quadrilateral)`, frackit/occ/breputilities.hh:260-275.  The vertices made for the corners
are shared by the edges; a failure of one of them is an exception. -/
def quadShape (q : Quadrilateral) : Outcome Shape := do
  let _ ← doneOr "Could not create vertex shape" (K.vertex q.p0)
  let _ ← doneOr "Could not create vertex shape" (K.vertex q.p1)
  let _ ← doneOr "Could not create vertex shape" (K.vertex q.p2)
  let _ ← doneOr "Could not create vertex shape" (K.vertex q.p3)
  K.wireFace [(q.p0, q.p1), (q.p1, q.p3), (q.p3, q.p2), (q.p2, q.p0)]

/-- The vertices of the corners, frackit/occ/breputilities.hh:287-290. -/
def cornerVertices : List V3 → Outcome Unit
  | [] => .val ()
  | c :: t => do
      let _ ← doneOr "Could not create vertex shape" (K.vertex c)
      cornerVertices t

/-- `getShape(polygon)`, frackit/occ/breputilities.hh:281-302 (assert compiled out): without a second
corner the access to the vertices is out of bounds. -/
def polygonShape (pg : Polygon) : Outcome Shape := do
  let _ ← cornerVertices K pg.corners
  match pg.corners with
  | c0 :: c1 :: t =>
      let n := t.length + 2
      let corner (i : ℕ) : V3 := (c0 :: c1 :: t).getD i 0
      K.wireFace ((corner 0, corner 1) ::
        (List.range' 1 (n - 1)).map fun i => (corner i, corner ((i + 1) % n)))
  | _ => .ub

/-- `getShape(cylinder)`, frackit/occ/breputilities.hh:177-193. -/
noncomputable def cylinderShape (c : Cylinder) : Outcome Shape := do
  let lateral ← c.lateralFace
  let bottom := lateral.bottom
  let r ← doneOr "Could not build cylinder"
    (K.cylinder bottom.center bottom.normal bottom.major bottom.majLen lateral.height)
  pure r.1

/-- `getShape(cylinderSurface)`, frackit/occ/breputilities.hh:199-214. -/
def cylinderSurfaceShape (c : CylinderSurface) : Outcome Shape := do
  let r ← doneOr "Could not build cylinder"
    (K.cylinder c.bottom.center c.bottom.normal c.bottom.major c.bottom.majLen c.height)
  pure r.2

/-- `getShape(geometry)`, frackit/occ/breputilities.hh:147-360: the overload for the type of the
geometry; the general template, which throws, for the other types. -/
noncomputable def getShape : DistArg → Outcome Shape
  | .shape s => .val s
  | .line _ => .thrown "getShape() not implemented for Line"
  | .geom (.point p) => doneOr "Could not create vertex shape" (K.vertex p)
  | .geom (.segment s) => segmentShape K s
  | .geom (.circle c) => circleShape K c
  | .geom (.ellipse e) => ellipseShape K e
  | .geom (.arc a _) => arcShape K a
  | .geom (.triangle _) => .thrown "getShape() not implemented for Triangle"
  | .geom (.quadrilateral q) => quadShape K q
  | .geom (.polygon pg) => polygonShape K pg
  | .geom (.disk d) => K.ellipseFace d.center d.normal d.major d.majLen d.minLen
  | .geom (.cylinderSurface c) => cylinderSurfaceShape K c
  | .geom (.box b) => doneOr "Could not build box" (K.box ⟨b.xMin, b.yMin, b.zMin⟩ ⟨b.xMax, b.yMax, b.zMax⟩)
  | .geom (.sphere s) => doneOr "Could not build sphere shape" (K.sphere s.center s.radius)
  | .geom (.cylinder c) => cylinderShape K c
  | .geom (.hollowCylinder _) => .thrown "getShape() not implemented for HollowCylinder"

/-- `getBoundingBox(geo)`, frackit/geometryutilities/getboundingbox.hh:40-42 and
frackit/occ/breputilities.hh:447-456. -/
noncomputable def getBoundingBox (a : DistArg) : Outcome Box := do
  let s ← getShape K a
  pure (K.bounds s)

/-- `computeDistance(shape1, shape2)`, frackit/distance/distance.hh:69-80. -/
def distShapes (s1 s2 : Shape) : Outcome ℝ := doneOr "Could not compute BRep distance" (K.extrema s1 s2)

/-- The pairs of types with their own overload, frackit/distance/distance.hh:154-213. -/
noncomputable def closedDistance : DistArg → DistArg → Option ℝ
  | .geom (.point p), .geom (.point q) => some (distPointPoint p q)
  | .geom (.point p), .line l => some (distPointLine p l)
  | .line l, .geom (.point p) => some (distLinePoint l p)
  | .geom (.point p), .geom (.segment s) => some (distPointSegment p s)
  | .geom (.segment s), .geom (.point p) => some (distSegmentPoint s p)
  | _, _ => none

/-- `computeDistance(geo1, geo2)`, frackit/distance/distance.hh:98-213. -/
noncomputable def computeDistance (a b : DistArg) : Outcome ℝ :=
  match closedDistance a b with
  | some d => .val d
  | none => do
      let s1 ← getShape K a
      let s2 ← getShape K b
      distShapes K s1 s2

/-! ## Distance to the boundary -/

/-- `computeDistanceToBoundary(point, box)`, frackit/distance/distancetoboundary.hh:156-168;
`numFaces` is 6, frackit/geometry/box.hh:165-166. -/
noncomputable def boundaryDistBox (p : V3) (b : Box) : Outcome ℝ :=
  distLoop (fun i => do
    let q ← b.face i
    computeDistance K (.geom (.quadrilateral q)) (.geom (.point p))) doubleMax (List.range 6)

/-- `computeDistanceToBoundary(geo, disk)`, frackit/distance/distancetoboundary.hh:91-105, 212-224. -/
noncomputable def boundaryDistDisk (s : Outcome Shape) (d : Elliptical) : Outcome ℝ := do
  let s ← s
  let e ← Disk.boundingEllipse d
  let w ← ellipseShape K e
  distShapes K s w

/-- `computeDistanceToBoundary(geo, cylinderSurface)`, frackit/distance/distancetoboundary.hh:180-201. -/
noncomputable def boundaryDistSurface (s : Outcome Shape) (c : CylinderSurface) : Outcome ℝ := do
  let s ← s
  let lower ← circleShape K c.bottom
  let d1 ← distShapes K s lower
  let upper ← circleShape K c.top
  let d2 ← distShapes K s upper
  pure (min d1 d2)

/-- The loops over the edges, frackit/distance/distancetoboundary.hh:267-273, 295-301. -/
noncomputable def boundaryDistEdges (s : Shape) (edge : ℕ → Outcome Segment) (n : ℕ) : Outcome ℝ :=
  distLoop (fun i => do
    let e ← edge i
    computeDistance K (.shape s) (.geom (.segment e))) doubleMax (List.range n)

/-- The outer wire of a face or outer shell of a solid. -/
def Shape.boundary (s : Shape) (kind : ShapeKind) : Shape := ⟨kind, s.outer, ∅⟩

/-- `computeDistanceToBoundary(geo1, geo2)`, frackit/distance/distancetoboundary.hh:66-354: the overload
for the types.  `ub` stands for calls that do not compile: a `TopoDS_Shape` has no coordinate type, hence
there is no overload for a shape and a cylinder surface, solid, or another geometry. -/
noncomputable def computeDistanceToBoundary : DistArg → DistArg → Outcome ℝ
  | .shape s, .geom (.disk d) => boundaryDistDisk K (.val s) d
  | .shape s, .geom (.quadrilateral q) => boundaryDistEdges K s q.edge q.numEdges
  | .shape s, .geom (.polygon pg) => boundaryDistEdges K s pg.edge pg.numEdges
  | .shape s, .shape t =>
      if t.kind = .face then distShapes K s (t.boundary .wire) else .ub
  | .shape _, _ => .ub
  | .geom (.point p), .geom (.quadrilateral q) => boundaryDistQuad p q
  | .geom (.point p), .geom (.polygon pg) => boundaryDistPolygon p pg
  | .geom (.point p), .geom (.box b) => boundaryDistBox K p b
  | a, .geom (.disk d) => boundaryDistDisk K (getShape K a) d
  | a, .geom (.cylinderSurface c) => boundaryDistSurface K (getShape K a) c
  | a, .shape t =>
      if t.kind = .face then do
        let s ← getShape K a
        distShapes K s (t.boundary .wire)
      else if t.kind = .solid then do
        let s ← getShape K a
        distShapes K s (t.boundary .shell)
      else .ub
  | _, _ => .thrown "Distance to boundary computation not implemented"

/-! ## Python -/

/-- `getShape(object)` in Python, frackit/python/occutilities/breputilities.hh:97-112, 318-343: the first overload
that accepts the object.  Lines are not registered. -/
noncomputable def pyGetShape : DistArg → Outcome Shape
  | .shape s => .val s
  | .line _ => .thrown "TypeError"
  | .geom g => pyDispatch shapeOverloads (fun g => getShape K (.geom g)) g

/-- `_geometry.computeDistance`, frackit/python/geometry/distance.hh:45-65. -/
noncomputable def pyDistanceBinding : DistArg → DistArg → Outcome ℝ
  | .geom (.point p), .geom (.point q) => computeDistance K (.geom (.point p)) (.geom (.point q))
  | .geom (.segment s), .geom (.point p) => computeDistance K (.geom (.segment s)) (.geom (.point p))
  | .geom (.point p), .geom (.segment s) => computeDistance K (.geom (.point p)) (.geom (.segment s))
  | .shape s, .shape t => computeDistance K (.shape s) (.shape t)
  | _, _ => .thrown "TypeError"

/-- `computeDistance(geo1, geo2)` in Python for a `geo2` that is no list, python/frackit/geometry/__init__.py:150-155:
if the call with the arguments fails, the shapes are tried. -/
noncomputable def pyComputeDistance (a b : DistArg) : Outcome ℝ :=
  match pyDistanceBinding K a b with
  | .val d => .val d
  | .ub => .ub
  | _ => do
      let s ← pyGetShape K a
      let t ← pyGetShape K b
      computeDistance K (.shape s) (.shape t)

/-- The list `[doComputation(g) for g in geo2]`, python/frackit/geometry/__init__.py:158. -/
noncomputable def pyDistances (a : DistArg) : List DistArg → Outcome (List ℝ)
  | [] => .val []
  | b :: t => do
      let d ← pyComputeDistance K a b
      let ds ← pyDistances a t
      pure (d :: ds)

/-- `computeDistance(geo1, geo2)` in Python for a list `geo2`, python/frackit/geometry/__init__.py:157-158; `min` of
an empty list is an error. -/
noncomputable def pyComputeDistanceList (a : DistArg) (l : List DistArg) : Outcome ℝ := do
  match (← pyDistances K a l) with
  | [] => .thrown "ValueError"
  | d :: ds => pure (ds.foldl min d)

/-- The pairs of types registered for `computeDistanceToBoundary`,
frackit/python/geometry/distancetoboundary.hh:58-96. -/
def pyBoundaryRegistered : DistArg → DistArg → Bool
  | .geom (.point _), .geom (.quadrilateral _) => true
  | .geom (.point _), .geom (.polygon _) => true
  | .geom (.point _), .geom (.box _) => true
  | .shape _, .geom (.disk _) => true
  | .shape _, .geom (.cylinderSurface _) => true
  | .shape _, .geom (.quadrilateral _) => true
  | .shape _, .geom (.polygon _) => true
  | .shape _, .shape t => decide (t.kind = .face ∨ t.kind = .solid)
  | _, _ => false

/-- `_geometry.computeDistanceToBoundary`: the registered functions call `Frackit::computeDistance`,
frackit/python/geometry/distancetoboundary.hh:39-41. -/
noncomputable def pyBoundaryBinding (a b : DistArg) : Outcome ℝ :=
  if pyBoundaryRegistered a b = true then computeDistance K a b
  else .thrown "incompatible function arguments"

/-- `computeDistanceToBoundary(geo1, geo2)` in Python, python/frackit/geometry/__init__.py:158-172: if the
call with the arguments fails, the shape of the first one is tried. -/
noncomputable def pyComputeDistanceToBoundary (a b : DistArg) : Outcome ℝ :=
  match pyBoundaryBinding K a b with
  | .val d => .val d
  | _ => do
      let s ← pyGetShape K a
      pyBoundaryBinding K (.shape s) b

/-! ## Points on the boundary -/

/-- `defaultEpsilon(geometry)`, frackit/precision/defaultepsilon.hh:56-157. -/
noncomputable def defaultEpsilon : DistArg → Outcome ℝ
  | .geom (.segment s) => .val (confusion * s.length)
  | .geom (.circle c) => .val (confusion * c.majLen)
  | .geom (.ellipse e) => .val (confusion * 0.5 * (e.majLen + e.minLen))
  | .geom (.disk d) => do
      let e ← Disk.boundingEllipse d
      pure (confusion * 0.5 * (e.majLen + e.minLen))
  | .geom (.quadrilateral q) => .val (0.5 * Real.sqrt q.area * confusion)
  | .geom (.polygon pg) => do
      let a ← pg.area
      pure (0.5 * Real.sqrt a * confusion)
  | .geom (.cylinderSurface c) => .val (confusion * 0.5 * (c.radius + c.height))
  | .geom (.box b) => .val b.defaultEps
  | .geom (.sphere s) => .val (confusion * s.radius)
  | .shape s =>
      let b := K.bounds s
      .val (((⟨b.xMax, b.yMax, b.zMax⟩ : V3) - ⟨b.xMin, b.yMin, b.zMin⟩).len * confusion)
  | _ => .val confusion

open Classical in
/-- `pointOnGeometry(p, shape, eps)`, frackit/distance/pointongeometry.hh:59-64: the overload chosen for
every three-dimensional point. -/
noncomputable def pointOnGeometry (p : V3) (b : DistArg) (eps : ℝ) : Outcome Bool := do
  let d ← computeDistance K (.geom (.point p)) b
  pure (decide (d < eps))

/-- `pointOnGeometryBoundary(p, geometry, eps)`, frackit/distance/pointonboundary.hh:57-149.  The overload
for faces (line 146-149) ignores the given tolerance and uses the default one of the wire. -/
noncomputable def pointOnGeometryBoundary (p : V3) (b : DistArg) (eps : ℝ) : Outcome Bool :=
  match b with
  | .geom (.disk d) => do
      let e ← Disk.boundingEllipse d
      pointOnGeometry K p (.geom (.ellipse e)) eps
  | .geom (.quadrilateral q) => onBoundaryQuad p q eps
  | .geom (.polygon pg) => onBoundaryPolygon p pg eps
  | .geom (.cylinderSurface c) => do
      let up ← pointOnGeometry K p (.geom (.circle c.top)) eps
      if up = true then pure true else pointOnGeometry K p (.geom (.circle c.bottom)) eps
  | .shape s =>
      if s.kind = .face then do
        let e ← defaultEpsilon K (.shape (s.boundary .wire))
        pointOnGeometry K p (.shape (s.boundary .wire)) e
      else .thrown "Point on boundary not implemented"
  | _ => .thrown "Point on boundary not implemented"

end Frackit
