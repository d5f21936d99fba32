import Verif.Model.Geometry.Planar
import Verif.Model.Geometry.Cylinder

/-!
# Magnitudes (length, area, volume) of geometries

frackit/magnitude/{length,area,volume,magnitude}.hh

The function templates are resolved at compile time by the geometry type; the type is an explicit
constructor here.
-/

namespace Frackit
open Verif

/-- The bounded geometry types of frackit/geometry for which `computeMagnitude` is instantiated.
Lines and planes (unbounded; no `length()`/`area()`, does not compile) are left out.  For an arc, the
length OpenCASCADE returns for its geometry handle is part of the input. -/
inductive AnyGeometry where
  | point (p : V3)
  | segment (s : Segment)
  | circle (c : Elliptical)
  | ellipse (e : Elliptical)
  | arc (a : EllipseArc) (occLength : ℝ)
  | triangle (t : Triangle)
  | quadrilateral (q : Quadrilateral)
  | polygon (p : Polygon)
  | disk (d : Elliptical)
  | cylinderSurface (c : CylinderSurface)
  | box (b : Box)
  | sphere (s : Sphere)
  | cylinder (c : Cylinder)
  | hollowCylinder (c : HollowCylinder)

/-- `Geometry::myDimension()`: point.hh:55, segment.hh:59, circle.hh:64, ellipse.hh:62,
ellipsearc.hh:58, triangle.hh:65, quadrilateral.hh:71, polygon.hh:71, disk.hh:54,
cylindersurface.hh:61, box.hh:52, sphere.hh:47, cylinder.hh:58, hollowcylinder.hh:60 (all in
frackit/geometry). -/
def AnyGeometry.dimension : AnyGeometry → ℕ
  | .point _ => 0
  | .segment _ => 1
  | .circle _ => 1
  | .ellipse _ => 1
  | .arc _ _ => 1
  | .triangle _ => 2
  | .quadrilateral _ => 2
  | .polygon _ => 2
  | .disk _ => 2
  | .cylinderSurface _ => 2
  | .box _ => 3
  | .sphere _ => 3
  | .cylinder _ => 3
  | .hollowCylinder _ => 3

open Classical in
/-- `computeLength`, frackit/magnitude/length.hh:54-56 (default: `length()` of the geometry, here the
segment), 96-98 (circle), 104-106 (ellipse), 112-118 (arc).  Other types have no `length()`: the
call does not compile, shown as `ub`. -/
noncomputable def computeLength : AnyGeometry → Outcome ℝ
  | .segment s => .val s.length
  | .circle c => .val (2 * Real.pi * c.majLen)
  | .ellipse e => .val (Real.pi * (e.majLen + e.minLen))
  | .arc a occ =>
    if a.isFullEllipse then .val (Real.pi * (a.ellipse.majLen + a.ellipse.minLen)) else .val occ
  | _ => .ub

/-- `computeArea`, frackit/magnitude/area.hh:46-48: `area()` of the geometry.  Other types have no
`area()`: the call does not compile, shown as `ub`. -/
noncomputable def computeArea : AnyGeometry → Outcome ℝ
  | .triangle t => .val t.area
  | .quadrilateral q => .val q.area
  | .polygon p => p.area
  | .disk d => .val (Disk.area d)
  | .cylinderSurface c => .val c.area
  | _ => .ub

/-- `computeVolume`, frackit/magnitude/volume.hh:43-45: `volume()` of the geometry.  Other types have
no `volume()`: the call does not compile, shown as `ub`. -/
noncomputable def computeVolume : AnyGeometry → Outcome ℝ
  | .box b => .val b.volume
  | .sphere s => .val s.volume
  | .cylinder c => .val c.volume
  | .hollowCylinder c => .val c.volume
  | _ => .ub

/-- `computeMagnitude(geometry)`, frackit/magnitude/magnitude.hh:48-74: dispatch on the dimension of
the geometry. -/
noncomputable def computeMagnitude (g : AnyGeometry) : Outcome ℝ :=
  match g.dimension with
  | 0 => .val 0
  | 1 => computeLength g
  | 2 => computeArea g
  | _ => computeVolume g

end Frackit
