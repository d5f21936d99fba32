import Verif.Model.Intersection.Kernel
import Verif.Model.Geometry.Cylinder

/-!
# Intersection angles

frackit/intersection/intersectionangle.hh
-/

namespace Frackit
open Verif

/-- Surface of a face of the geometry kernel:

* `params p`: `GeomAPI_ProjectPointOnSurf::LowerDistanceParameters` for the point `p`;
* `lowerDistance p`: `GeomAPI_ProjectPointOnSurf::LowerDistance`;
* `d1 u v`: the two derivatives of `Geom_Surface::D1`. -/
structure SurfaceGeom where
  params : V3 → ℝ × ℝ
  lowerDistance : V3 → ℝ
  d1 : ℝ → ℝ → V3 × V3

/-- Curve of an edge of the geometry kernel: `FirstParameter`, `LastParameter` and `Value`. -/
structure CurveGeom where
  first : ℝ
  last : ℝ
  value : ℝ → V3

/-- Geometries for which overloads exist: planar geometries (by their supporting plane), cylinder
surfaces, and faces of the geometry kernel. -/
inductive AngleGeo where
  | planar (pl : Plane)
  | cylSurface (c : CylinderSurface)
  | face (s : SurfaceGeom)

/-- Angle between two planes, frackit/intersection/intersectionangle.hh:108-118 (assert compiled
out). -/
noncomputable def planeAngle (plane1 plane2 : Plane) : ℝ :=
  Real.arccos |plane1.normal.dot plane2.normal|

/-- `min(resultAngle, angle)` with `std::min(a, b) = (b < a) ? b : a`: a `NaN` as second argument
leaves the result unchanged. -/
noncomputable def minStep (result : ℝ) : Outcome ℝ → Outcome ℝ
  | .val x => .val (if x < result then x else result)
  | .nan => .val result
  | .thrown m => .thrown m
  | .ub => .ub

/-- Loops of the form `resultAngle = max(); for (x : xs) resultAngle = min(resultAngle, f(x))`,
frackit/intersection/intersectionangle.hh:240-252, 283-295, 420-431, 450-461, 530-534. -/
noncomputable def minAngle {α : Type} (f : α → Outcome ℝ) (xs : List α) : Outcome ℝ :=
  xs.foldl (fun r x => do let r ← r; minStep r (f x)) (.val doubleMax)

/-- Planar geometry and cylinder surface in a point,
frackit/intersection/intersectionangle.hh:171-174 (and for the source of a segment, 203-206). -/
noncomputable def cylinderAngleAt (pl : Plane) (c : CylinderSurface) (p : V3) : Outcome ℝ := do
  let t ← c.getTangentPlane p
  pure (planeAngle pl t)

/-- Sample parameters for arcs and edges, frackit/intersection/intersectionangle.hh:240, 421, 451. -/
noncomputable def fiveParams : List ℝ := [0, 0.25, 0.5, 0.75, 1]

/-- Sample parameters for ellipses, frackit/intersection/intersectionangle.hh:284-285. -/
noncomputable def nineParams : List ℝ := [0, 0.125, 0.25, 0.375, 0.5, 0.625, 0.75, 0.875, 1]

/-- Tangent plane of a surface for given parameters,
frackit/intersection/intersectionangle.hh:337-353, 380-388. -/
noncomputable def surfacePlaneAt (s : SurfaceGeom) (p : V3) (u v : ℝ) : Outcome Plane := do
  let (b1, b2) := s.d1 u v
  let n ← mkDirection (b1.cross b2)
  Plane.ofNormal p n

/-- Two faces in a point, frackit/intersection/intersectionangle.hh:317-356 (asserts compiled out). -/
noncomputable def faceFaceAngleAt (s1 s2 : SurfaceGeom) (p : V3) : Outcome ℝ := do
  let t1 ← surfacePlaneAt s1 p (s1.params p).1 (s1.params p).2
  let t2 ← surfacePlaneAt s2 p (s2.params p).1 (s2.params p).2
  pure (planeAngle t1 t2)

/-- Planar geometry and face in a point, frackit/intersection/intersectionangle.hh:366-390 (asserts
compiled out).  Line 383 passes the projection object in place of its first parameter; the implicit
conversion `GeomAPI_ProjectPointOnSurf::operator Standard_Real` yields the distance. -/
noncomputable def planarFaceAngleAt (pl : Plane) (s : SurfaceGeom) (p : V3) : Outcome ℝ := do
  let t ← surfacePlaneAt s p (s.lowerDistance p) (s.params p).2
  pure (planeAngle pl t)

/-- Minimum over the sample points of an edge, frackit/intersection/intersectionangle.hh:412-432,
442-462. -/
noncomputable def kernelEdgeAngle (angleAt : V3 → Outcome ℝ) (curve : CurveGeom) : Outcome ℝ :=
  minAngle (fun f => angleAt (curve.value (curve.first + f * (curve.last - curve.first)))) fiveParams

/-- Planar geometry first, cylinder surface second: the overloads for points, segments, arcs and
ellipses, frackit/intersection/intersectionangle.hh:171-174, 203-206, 234-253, 276-296; otherwise the
generic overload throws, frackit/intersection/intersectionangle.hh:88-99. -/
noncomputable def planarCylinderAngle (pl : Plane) (c : CylinderSurface) : IsGeom → Outcome ℝ
  | .point p => cylinderAngleAt pl c p
  | .segment s => cylinderAngleAt pl c s.source
  | .arc a => minAngle (fun t => cylinderAngleAt pl c (a.getPoint t)) fiveParams
  | .ellipse e => minAngle (fun t => cylinderAngleAt pl c (Ellipse.getPoint e t)) nineParams
  | _ => .thrown "Intersection angle not implemented"

/-- Planar geometry first, face second, frackit/intersection/intersectionangle.hh:366-390, 442-462,
489-492. -/
noncomputable def planarFaceAngle (curves : ℕ → CurveGeom) (pl : Plane) (s : SurfaceGeom) :
    IsGeom → Outcome ℝ
  | .point p => planarFaceAngleAt pl s p
  | .edge k _ _ => kernelEdgeAngle (planarFaceAngleAt pl s) (curves k)
  | .face _ => .val 0
  | _ => .thrown "Intersection angle not implemented"

/-- `IntersectionAngle::operator()(geo1, geo2, isGeom)`,
frackit/intersection/intersectionangle.hh:88-505. -/
noncomputable def angleGeom (curves : ℕ → CurveGeom) : AngleGeo → AngleGeo → IsGeom → Outcome ℝ
  | .planar p1, .planar p2, .point _ => .val (planeAngle p1 p2)
  | .planar p1, .planar p2, .segment _ => .val (planeAngle p1 p2)
  | .planar pl, .cylSurface c, g => planarCylinderAngle pl c g
  | .cylSurface c, .planar pl, g => planarCylinderAngle pl c g
  | .face s1, .face s2, .point p => faceFaceAngleAt s1 s2 p
  | .face s1, .face s2, .edge k _ _ => kernelEdgeAngle (faceFaceAngleAt s1 s2) (curves k)
  | .planar pl, .face s, g => planarFaceAngle curves pl s g
  | .face s, .planar pl, g => planarFaceAngle curves pl s g
  | _, .face _, .face _ => .val 0
  | .face _, _, .face _ => .val 0
  | _, _, _ => .thrown "Intersection angle not implemented"

/-- `IntersectionAngle::operator()` for variants and vectors,
frackit/intersection/intersectionangle.hh:513-517, 524-535. -/
noncomputable def intersectionAngle (curves : ℕ → CurveGeom) (geo1 geo2 : AngleGeo) :
    IsResult → Outcome ℝ
  | .single g => angleGeom curves geo1 geo2 g
  | .list gs => minAngle (angleGeom curves geo1 geo2) gs

end Frackit
