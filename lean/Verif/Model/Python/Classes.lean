import Verif.Model.Magnitude.Magnitude

/-!
# Classes and overloads of the Python package

frackit/python/geometry/*.hh, frackit/python/occutilities/breputilities.hh

The Python package is made with pybind11.  A function that is registered several times under one name calls, in
Python, the first registered overload that accepts the argument; an object is accepted by the overloads for its
class and for the base classes its class was registered with.  No implicit conversions between classes are
registered.
-/

namespace Frackit
open Verif

/-- The classes exported by frackit/python/geometry/brepwrappers.hh:80-90. -/
inductive WrapperKind where
  | shape | vertex | edge | wire | face | shell | solid | compound
deriving DecidableEq

/-- The classes of the module `_geometry`; `d` is the dimension of the space. -/
inductive PyClass where
  | geometry
  | pointBase (d : ℕ) | point (d : ℕ)
  | vectorBase (d : ℕ) | vector (d : ℕ)
  | direction (d : ℕ) | segment (d : ℕ) | line (d : ℕ)
  | elliptical | ellipse | ellipseArc | circle
  | plane | triangle | quadrilateral | polygon | disk | cylinderSurface
  | cylinder | hollowCylinder | box | sphere
  | wrapper (k : WrapperKind)
  | emptyIntersection (d : ℕ)
deriving DecidableEq

namespace PyClass

/-- The base classes in the registration `py::class_<Class, Bases...>`: frackit/python/geometry/point.hh:50, 86,
frackit/python/geometry/vector.hh:46, 74, frackit/python/geometry/direction.hh:44,
frackit/python/geometry/segment.hh:45, frackit/python/geometry/line.hh:46,
frackit/python/geometry/ellipticalgeometry.hh:43, frackit/python/geometry/ellipse.hh:48,
frackit/python/geometry/ellipsearc.hh:44, frackit/python/geometry/circle.hh:43, frackit/python/geometry/plane.hh:48,
frackit/python/geometry/triangle.hh:45, frackit/python/geometry/quadrilateral.hh:45,
frackit/python/geometry/polygon.hh:46, frackit/python/geometry/disk.hh:43,
frackit/python/geometry/cylindersurface.hh:41, frackit/python/geometry/cylinder.hh:43,
frackit/python/geometry/hollowcylinder.hh:42, frackit/python/geometry/box.hh:40, frackit/python/geometry/sphere.hh:40,
frackit/python/geometry/brepwrappers.hh:39, 61, frackit/python/geometry/emptyintersection.hh:40,
frackit/python/geometry/geometry.hh:31. -/
def bases : PyClass → List PyClass
  | geometry => []
  | pointBase _ => [geometry]
  | point d => [pointBase d]
  | vectorBase _ => [geometry]
  | vector d => [vectorBase d]
  | direction _ => [geometry]
  | segment _ => [geometry]
  | line _ => [geometry]
  | elliptical => []
  | ellipse => [geometry, elliptical]
  | ellipseArc => [ellipse]
  | circle => [geometry, elliptical]
  | plane => [geometry]
  | triangle => [geometry]
  | quadrilateral => [geometry]
  | polygon => [geometry]
  | disk => [geometry, elliptical]
  | cylinderSurface => [geometry]
  | cylinder => [geometry]
  | hollowCylinder => [geometry]
  | box => [geometry]
  | sphere => [geometry]
  | wrapper _ => []
  | emptyIntersection _ => []

/-- The class and its direct and indirect base classes: there are at most two generations above a class. -/
def ancestors (c : PyClass) : List PyClass := c :: (c.bases ++ c.bases.flatMap bases)

/-- `isinstance` for an object of class `c`; the test of the argument casters of pybind11. -/
def isInstance (c base : PyClass) : Bool := c.ancestors.contains base

end PyClass

/-- Selection of the overload for an object of class `c`: the first in the order of registration that accepts
it; `none`: `TypeError`. -/
def resolve (overloads : List PyClass) (c : PyClass) : Option PyClass := overloads.find? fun o => c.isInstance o

/-- The overloads of `computeMagnitude`, frackit/python/geometry/magnitude.hh:86-104. -/
def magnitudeOverloads : List PyClass :=
  [.vector 3, .segment 3, .circle, .ellipse, .ellipseArc, .disk, .triangle, .quadrilateral, .polygon,
   .cylinderSurface, .cylinder, .hollowCylinder, .box, .sphere, .wrapper .edge, .wrapper .wire, .wrapper .face,
   .wrapper .shell, .wrapper .solid]

/-- The overloads of `getBoundingBox`, frackit/python/geometry/getboundingbox.hh:66-86. -/
def boundingBoxOverloads : List PyClass :=
  [.box, .cylinder, .cylinderSurface, .disk, .sphere, .circle, .ellipse, .ellipseArc, .polygon, .quadrilateral,
   .segment 3, .wrapper .shape, .wrapper .vertex, .wrapper .edge, .wrapper .wire, .wrapper .face, .wrapper .shell,
   .wrapper .solid, .wrapper .compound]

/-- The overloads of `getShape`, frackit/python/occutilities/breputilities.hh:318-343; those for wrapped shapes are
registered in reverse order, :250-265. -/
def shapeOverloads : List PyClass :=
  [.point 1, .point 2, .point 3, .segment 1, .segment 2, .segment 3, .circle, .ellipse, .ellipseArc, .quadrilateral,
   .polygon, .disk, .box, .cylinder, .cylinderSurface, .sphere, .wrapper .compound, .wrapper .solid, .wrapper .shell,
   .wrapper .face, .wrapper .wire, .wrapper .edge, .wrapper .vertex, .wrapper .shape]

/-- The overloads of `defaultEpsilon`, frackit/python/precision/defaultepsilon.hh:61-68. -/
def epsilonOverloads : List PyClass :=
  [.segment 3, .circle, .ellipse, .disk, .quadrilateral, .cylinderSurface, .box, .wrapper .shape]

/-- The class of a geometry in three-dimensional space. -/
def AnyGeometry.pyClass : AnyGeometry → PyClass
  | .point _ => .point 3
  | .segment _ => .segment 3
  | .circle _ => .circle
  | .ellipse _ => .ellipse
  | .arc _ _ => .ellipseArc
  | .triangle _ => .triangle
  | .quadrilateral _ => .quadrilateral
  | .polygon _ => .polygon
  | .disk _ => .disk
  | .cylinderSurface _ => .cylinderSurface
  | .box _ => .box
  | .sphere _ => .sphere
  | .cylinder _ => .cylinder
  | .hollowCylinder _ => .hollowCylinder

/-- What an overload for class `c` sees of an object: an arc passed as `const Ellipse&` is the supporting
ellipse. -/
def AnyGeometry.seenAs (g : AnyGeometry) (c : PyClass) : AnyGeometry :=
  match c, g with
  | .ellipse, .arc a _ => .ellipse a.ellipse
  | _, g => g

/-- Call of a function registered with overloads for a geometry. -/
def pyDispatch {α : Type} (overloads : List PyClass) (f : AnyGeometry → Outcome α) (g : AnyGeometry) : Outcome α :=
  match resolve overloads g.pyClass with
  | some c => f (g.seenAs c)
  | none => .thrown "TypeError"

end Frackit
