import Verif.Core.Outcome
import Mathlib.Data.Nat.Notation

/-!
# Names of the classes and what is decided by them

frackit/geometryutilities/{name,assign}.hh, frackit/intersection/emptyintersection.hh,
frackit/python/geometry/brepwrapper.hh, python/frackit/sampling/__init__.py:82-137,
appl/example4/example4.py:177
-/

namespace Frackit
open Verif

/-- The classes derived from `Geometry`, without their coordinate type: frackit/geometry/*.hh and
frackit/intersection/emptyintersection.hh:40-57.  The number is the dimension of the space.
`BoundingBox` is an alias of `Box` (frackit/geometry/boundingbox.hh:42) and has no class of its own. -/
inductive GeometryClass where
  | point (wd : ℕ) | vector (wd : ℕ) | direction (wd : ℕ) | line (wd : ℕ) | segment (wd : ℕ)
  | emptyIntersection (wd : ℕ)
  | plane | triangle | quadrilateral | polygon | ellipse | circle | ellipseArc
  | disk | cylinderSurface | sphere | box | cylinder | hollowCylinder
  deriving DecidableEq

/-- `name()`: frackit/geometry/point.hh:80, vector.hh:104, direction.hh:81, 141, 205, line.hh:80,
segment.hh:84, plane.hh:129, triangle.hh:103, quadrilateral.hh:120, polygon.hh:131, ellipse.hh:75,
circle.hh:85, ellipsearc.hh:104, disk.hh:80, cylindersurface.hh:102, sphere.hh:67, box.hh:86,
cylinder.hh:126, hollowcylinder.hh:115, frackit/intersection/emptyintersection.hh:49.  The three
specialisations of `Direction` have literal names of the same form as those of points. -/
def GeometryClass.name : GeometryClass → String
  | .point wd => "Point_" ++ wd.repr ++ "d"
  | .vector wd => "Vector_" ++ wd.repr ++ "d"
  | .direction wd => "Direction_" ++ wd.repr ++ "d"
  | .line wd => "Line_" ++ wd.repr ++ "d"
  | .segment wd => "Segment_" ++ wd.repr ++ "d"
  | .emptyIntersection wd => "EmptyIntersection_" ++ wd.repr
  | .plane => "Plane_3d"
  | .triangle => "Triangle_3d"
  | .quadrilateral => "Quadrilateral_3d"
  | .polygon => "Polygon_3d"
  | .ellipse => "Ellipse_3d"
  | .circle => "Circle_3d"
  | .ellipseArc => "EllipseArc_3d"
  | .disk => "Disk"
  | .cylinderSurface => "CylinderSurface"
  | .sphere => "Sphere"
  | .box => "Box"
  | .cylinder => "Cylinder"
  | .hollowCylinder => "HollowCylinder"

/-- The coordinate types (template argument `CT` of the classes). -/
inductive CoordinateType where
  | float | double | longDouble
  deriving DecidableEq

/-- A type: an instance of a class template. -/
structure GeometryType where
  cls : GeometryClass
  ctype : CoordinateType
  deriving DecidableEq

/-- The name of the objects of a type: the coordinate type is no part of it. -/
def GeometryType.name (t : GeometryType) : String := t.cls.name

/-- Whether `dynamic_cast<To*>(ptr)` succeeds for an object of type `t`: the type itself or a base class;
the only class with a base class other than `Geometry` is `EllipseArc`, frackit/geometry/ellipsearc.hh:51-52. -/
def castable (t to : GeometryType) : Bool :=
  t == to || (t.cls == .ellipseArc && to.cls == .ellipse && t.ctype == to.ctype)

/-- An object; `V` are the data. -/
structure GeometryObject (V : Type) where
  type : GeometryType
  data : V

/-- `assign(geoPtr, geo)`, frackit/geometryutilities/assign.hh:42-56 (the overloads at :62-72 pass on the pointer): the
result and the target afterwards.  A null pointer and a failed cast are dereferenced.  (Copying an
ellipse arc into an ellipse would keep the ellipse only; it does not occur since the names differ.) -/
def assign {V : Type} (ptr : Option (GeometryObject V)) (target : GeometryObject V) :
    Outcome Bool × GeometryObject V :=
  match ptr with
  | none => (.ub, target)
  | some g =>
      if target.type.name = g.type.name then
        if castable g.type target.type then (.val true, ⟨target.type, g.data⟩) else (.ub, target)
      else (.val false, target)

/-- `IsEmptyIntersection<Geo>::value`, frackit/intersection/emptyintersection.hh:61-77: the
specialisation is for `EmptyIntersection<wd>`, that is, with the default coordinate type. -/
def isEmptyType (t : GeometryType) : Bool :=
  match t.cls with
  | .emptyIntersection _ => t.ctype == .double
  | _ => false

/-- `isEmptyIntersection(is)` for a vector of results, frackit/intersection/emptyintersection.hh:91-98. -/
def isEmptyTypes (is : List GeometryType) : Bool := is.all isEmptyType

/-- The shapes of OpenCASCADE with a name, frackit/geometryutilities/name.hh:55-98. -/
inductive ShapeClass where
  | solid | shell | face | wire | edge | vertex | shape
  deriving DecidableEq

/-- `geometryName(shape)`, frackit/geometryutilities/name.hh:55-98. -/
def ShapeClass.name : ShapeClass → String
  | .solid => "TopoDS_Solid"
  | .shell => "TopoDS_Shell"
  | .face => "TopoDS_Face"
  | .wire => "TopoDS_Wire"
  | .edge => "TopoDS_Edge"
  | .vertex => "TopoDS_Vertex"
  | .shape => "TopoDS_Shape"

/-- The classes of the Python package with a function `name`. -/
inductive PythonClass where
  | geometry (c : GeometryClass)
  | wrapper (s : ShapeClass)
  | compound
  deriving DecidableEq

/-- `name()` in Python; wrappers: frackit/python/geometry/brepwrapper.hh:49, 66, 102. -/
def PythonClass.name : PythonClass → String
  | .geometry c => c.name
  | .wrapper s => s.name ++ "_Wrapper"
  | .compound => "TopoDS_Compound_Wrapper"

/-- `"Empty" in g.name()`, appl/example4/example4.py:177, 239, 302. -/
def pythonSaysEmpty (c : PythonClass) : Bool := decide ("Empty".toList <:+: c.name.toList)

/-- `all("Empty" in g.name() for g in isection)`, appl/example4/example4.py:177, 239, 302. -/
def pythonSaysAllEmpty (is : List PythonClass) : Bool := is.all pythonSaysEmpty

/-- What `makePointSampler` of the Python package creates. -/
inductive CreatedSampler where
  | box | cylinder | cylinderShell
  deriving DecidableEq

/-- The choice of the sampler in `makePointSampler`, python/frackit/sampling/__init__.py:114-137. -/
def pythonPointSampler (c : PythonClass) : Outcome CreatedSampler :=
  if c.name = "Box" then .val .box
  else if c.name = "Cylinder" then .val .cylinder
  else if c.name = "HollowCylinder" then .val .cylinderShell
  else .thrown ("No point sample creation formula implemented for provided geometry: " ++ c.name)

end Frackit
