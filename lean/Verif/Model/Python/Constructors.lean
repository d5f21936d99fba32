import Verif.Model.Geometry.PyFactories
import Verif.Model.Geometry.Planar
import Verif.Model.Geometry.Cylinder
import Verif.Model.Geometry.Box
import Verif.Model.Python.Classes

/-!
# Constructors of geometries in Python

frackit/python/geometry/*.hh, for geometries in three-dimensional space.  The arguments are assigned to the parameters
by `bindArguments`, and the overloads are tried in the order of registration.  (Simplified: integers and floating point
numbers are not distinguished, because no two overloads differ only in this.)
-/

namespace Frackit
open Verif

/-- A Python object that is passed to or returned by a constructor.  An element of a list is `none` if it is not a
point in three-dimensional space. -/
inductive PyThing where
  | num (x : ℝ)
  | point (p : V3)
  | direction (d : V3)
  | list (l : List (Option V3))
  | elliptical (e : Elliptical)
  | ellipse (e : Elliptical)
  | arc (a : EllipseArc)
  | circle (e : Elliptical)
  | disk (e : Elliptical)
  | segment (s : Segment)
  | line (l : Line)
  | plane (pl : Plane)
  | triangle (t : Triangle)
  | quadrilateral (q : Quadrilateral)
  | polygon (p : Polygon)
  | cylinderSurface (c : CylinderSurface)
  | cylinder (c : Cylinder)
  | hollowCylinder (c : HollowCylinder)
  | box (b : Box)
  | sphere (s : Sphere)
  | other

namespace PyThing

/-- The conversion to `const Ellipse&`: an ellipse arc is derived from an ellipse
(frackit/python/geometry/ellipsearc.hh:44). -/
def toEllipse : PyThing → Option Elliptical
  | ellipse e => some e
  | arc a => some a.ellipse
  | _ => none

/-- A constructor: the names of its parameters and the object it constructs from their values, `none` if a value is
not of the type of the parameter. -/
structure Ctor where
  names : List String
  build : List PyThing → Option (Outcome PyThing)

/-- `Outcome.map`. -/
def wrap {α : Type} (f : α → PyThing) (o : Outcome α) : Option (Outcome PyThing) := some (o >>= fun a => .val (f a))

/-- The constructors of a class in the order of registration: frackit/python/geometry/segment.hh:46,
frackit/python/geometry/line.hh:47, frackit/python/geometry/ellipticalgeometry.hh:44-46,
frackit/python/geometry/ellipse.hh:49-50, frackit/python/geometry/ellipsearc.hh:45-46,
frackit/python/geometry/circle.hh:53-54, frackit/python/geometry/plane.hh:49-53,
frackit/python/geometry/triangle.hh:46, frackit/python/geometry/quadrilateral.hh:46-47,
frackit/python/geometry/polygon.hh:47, frackit/python/geometry/disk.hh:44,
frackit/python/geometry/cylindersurface.hh:42-43, frackit/python/geometry/cylinder.hh:44-46,
frackit/python/geometry/hollowcylinder.hh:43-45, frackit/python/geometry/box.hh:41-43,
frackit/python/geometry/sphere.hh:41. A parameter with default value (frackit/python/geometry/cylinder.hh:44) is
modelled by two constructors. The default constructors set all coordinates to zero, because pybind11 value-initializes
the object. Points, vectors and directions: see `Verif.Model.Geometry.PyFactories`; segments and lines in one and two
dimensions and wrappers of shapes are left out. -/
noncomputable def ctors : PyClass → List Ctor
  | .segment 3 => [⟨["source", "target"], fun
      | [.point p, .point q] => wrap segment (.val ⟨p, q⟩)
      | _ => none⟩]
  | .line 3 => [⟨["supportPoint", "direction"], fun
      | [.point p, .direction d] => wrap line (.val ⟨p, d⟩)
      | _ => none⟩]
  | .elliptical => [⟨[], fun
      | [] => wrap elliptical (.val ⟨0, 0, 0, 0, 0, 0⟩)
      | _ => none⟩,
    ⟨["center", "majorAxis", "minorAxis", "majorAxisLength", "minorAxisLength"], fun
      | [.point c, .direction u, .direction v, .num a, .num b] => wrap elliptical (Elliptical.make c u v a b)
      | _ => none⟩]
  | .ellipse => [⟨["center", "majorAxis", "minorAxis", "majorAxisLength", "minorAxisLength"], fun
      | [.point c, .direction u, .direction v, .num a, .num b] => wrap ellipse (Elliptical.make c u v a b)
      | _ => none⟩]
  | .ellipseArc => [⟨["supportingEllipse", "source", "target"], fun
      | [e, .point p, .point q] => e.toEllipse.bind fun e => wrap arc (EllipseArc.make e p q)
      | _ => none⟩]
  | .circle => [⟨["center", "normal", "radius"], fun
      | [.point c, .direction n, .num r] => wrap circle (Circle.make c n r)
      | _ => none⟩]
  | .plane => [⟨[], fun
      | [] => wrap plane (.val ⟨0, 0, 0, 0⟩)
      | _ => none⟩,
    ⟨["supportPoint", "normal"], fun
      | [.point p, .direction n] => wrap plane (Plane.ofNormal p n)
      | _ => none⟩,
    ⟨["p1", "p2", "p3"], fun
      | [.point p, .point q, .point r] => wrap plane (Plane.ofPoints p q r)
      | _ => none⟩,
    ⟨["supportPoint", "base1", "base2", "normal"], fun
      | [.point p, .direction a, .direction b, .direction n] => wrap plane (.val (Plane.ofBasis p a b n))
      | _ => none⟩]
  | .triangle => [⟨["p1", "p2", "p3"], fun
      | [.point p, .point q, .point r] => wrap triangle (.val (Triangle.make p q r))
      | _ => none⟩]
  | .quadrilateral => [⟨["p1", "p2", "p3", "p4"], fun
      | [.point p, .point q, .point r, .point s] => wrap quadrilateral (.val (Quadrilateral.make p q r s))
      | _ => none⟩]
  | .polygon => [⟨["corners"], fun
      | [.list l] => (l.mapM id).bind fun l => wrap polygon (Polygon.make l)
      | _ => none⟩]
  | .disk => [⟨["ellipse"], fun
      | [e] => e.toEllipse.bind fun e => wrap disk (Elliptical.make e.center e.major e.minor e.majLen e.minLen)
      | _ => none⟩]
  | .cylinderSurface => [⟨["radius", "height"], fun
      | [.num r, .num h] => wrap cylinderSurface (CylinderSurface.axisAligned r h)
      | _ => none⟩,
    ⟨["bottomCircle", "height"], fun
      | [.circle k, .num h] => wrap cylinderSurface (CylinderSurface.ofCircle k h)
      | _ => none⟩]
  | .cylinder => [⟨["radius", "height", "zOffset"], fun
      | [.num r, .num h, .num z] => wrap cylinder (Cylinder.axisAligned r h z)
      | _ => none⟩,
    ⟨["radius", "height"], fun
      | [.num r, .num h] => wrap cylinder (Cylinder.axisAligned r h 0)
      | _ => none⟩,
    ⟨["bottomCircle", "height"], fun
      | [.circle k, .num h] => wrap cylinder (Cylinder.ofCircle k h)
      | _ => none⟩,
    ⟨["bottom", "height"], fun
      | [.disk d, .num h] => wrap cylinder (Cylinder.ofDisk d h)
      | _ => none⟩]
  | .hollowCylinder => [⟨["innerRadius", "outerRadius", "height"], fun
      | [.num r, .num s, .num h] => wrap hollowCylinder (HollowCylinder.axisAligned r s h)
      | _ => none⟩,
    ⟨["bottomCenter", "axis", "innerRadius", "outerRadius", "height"], fun
      | [.point c, .direction a, .num r, .num s, .num h] => wrap hollowCylinder (HollowCylinder.make c a r s h)
      | _ => none⟩]
  | .box => [⟨["xmin", "ymin", "zmin", "xmax", "ymax", "zmax"], fun
      | [.num a, .num b, .num c, .num d, .num e, .num f] => wrap box (Box.make a b c d e f)
      | _ => none⟩,
    ⟨["firstCorner", "secondCorner"], fun
      | [.point p, .point q] => wrap box (Box.ofCorners p q)
      | _ => none⟩]
  | .sphere => [⟨["center", "radius"], fun
      | [.point c, .num r] => wrap sphere (.val ⟨c, r⟩)
      | _ => none⟩]
  | _ => []

/-- The first constructor that accepts the arguments. -/
def firstOf (args : List PyThing) (kw : KwOf PyThing) : List Ctor → Option (Outcome PyThing)
  | [] => none
  | c :: r =>
      match (bindArguments c.names args kw).bind c.build with
      | some o => some o
      | none => firstOf args kw r

/-- `Class(args..., keywords...)` in Python; `none` is a `TypeError`. -/
noncomputable def construct (cls : PyClass) (args : List PyThing) (kw : KwOf PyThing) : Option (Outcome PyThing) :=
  firstOf args kw (ctors cls)

end PyThing
end Frackit
