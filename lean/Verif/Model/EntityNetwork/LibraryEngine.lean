import Verif.Model.EntityNetwork.Constraints
import Verif.Model.Intersection.Angle
import Verif.Model.Intersection.Intersect
import Verif.Model.Magnitude.Magnitude

/-!
# The functions of the library used by the constraints

The includes of frackit/entitynetwork/constraints.hh and frackit/entitynetwork/constraints_impl/: which function is
called for which entities.
-/

namespace Frackit
open Verif

/-- Algorithms of OpenCASCADE used by the functions called by the constraints: those of `intersect` and of the distances
(`isk`), the curves of edges and the surfaces of faces (for the angles), the length of the curve of an arc
(`GCPnts_AbscissaPoint::Length`) and of an edge, the area of a face (`BRepGProp::SurfaceProperties`). -/
structure LibraryKernel where
  isk : IsKernel
  curves : ℕ → CurveGeom
  surface : Shape → SurfaceGeom
  arcLength : EllipseArc → ℝ
  edgeLength : ℕ → ℝ
  faceArea : ℕ → ℝ

/-- An entity as argument of `intersect`. -/
def DistArg.toIs : DistArg → IsArg
  | .geom g => .geom g
  | .line l => .line l
  | .shape s => .shape s

/-- The results of `intersect` of two entities; planes are no entities. -/
def Intersected.toResult : Intersected → Outcome IsResult
  | .geoms r => .val r
  | .planes _ => .ub
  | .planeLine _ => .ub

/-- An entity as argument of `IntersectionAngle`: planar geometries by their supporting plane,
frackit/intersection/intersectionangle.hh:140-161 and frackit/geometryutilities/isplanar.hh:41-62; for the types without
an overload the general template throws, frackit/intersection/intersectionangle.hh:88-99. -/
noncomputable def angleArgument (L : LibraryKernel) : DistArg → Outcome AngleGeo
  | .geom (.disk d) => .val (.planar d.supportingPlane)
  | .geom (.quadrilateral q) => do
      let pl ← q.plane
      pure (.planar pl)
  | .geom (.polygon pg) => do
      let pl ← pg.plane
      pure (.planar pl)
  | .geom (.cylinderSurface c) => .val (.cylSurface c)
  | .shape s => .val (.face (L.surface s))
  | _ => .thrown "Intersection angle not implemented"

/-- `computeMagnitude` of a part of an intersection, frackit/magnitude/magnitude.hh:47-107; not called for points and empty
intersections, frackit/entitynetwork/constraints_impl/admissiblemagnitude.hh:42-45. -/
noncomputable def partMagnitude (L : LibraryKernel) : IsGeom → Outcome ℝ
  | .segment s => computeMagnitude (.segment s)
  | .arc a => computeMagnitude (.arc a (L.arcLength a))
  | .ellipse e => computeMagnitude (.ellipse e)
  | .polygon p => computeMagnitude (.polygon p)
  | .edge k _ _ => .val (L.edgeLength k)
  | .face k => .val (L.faceArea k)
  | .point p => computeMagnitude (.point p)
  | .empty => .ub

/-- The calls made by `EntityNetworkConstraints::evaluate_` and the functions in constraints_impl for surfaces as
entities: frackit/entitynetwork/constraints.hh:285-286 (`intersect` with the default or the given tolerance), 299
(angle), 314 (distance), frackit/entitynetwork/constraints_impl/admissiblemagnitude.hh:47 and
frackit/entitynetwork/constraints_impl/distancetoboundary.hh:83-85 (`pointOnGeometryBoundary` with the default tolerance,
frackit/distance/pointonboundary.hh:155-157, and `computeDistanceToBoundary`), 138 (ellipse). -/
noncomputable def libraryEngine (L : LibraryKernel) : Engine DistArg where
  dim := 2
  intersect a b eps := do
    let r ← (match eps with
      | none => intersectDefault L.isk a.toIs b.toIs
      | some e => Frackit.intersect L.isk a.toIs b.toIs e)
    r.toResult
  magnitude := partMagnitude L
  angle a b r := do
    let g1 ← angleArgument L a
    let g2 ← angleArgument L b
    intersectionAngle L.curves g1 g2 r
  distance a b := computeDistance L.isk.shapes a b
  onBoundary p e := do
    let eps ← defaultEpsilon L.isk.shapes e
    pointOnGeometryBoundary L.isk.shapes p e eps
  boundaryDist p e := computeDistanceToBoundary L.isk.shapes (.geom (.point p)) e
  ellipseBoundaryDist el e := computeDistanceToBoundary L.isk.shapes (.geom (.ellipse el)) e

end Frackit
