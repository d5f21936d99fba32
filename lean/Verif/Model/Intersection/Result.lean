import Verif.Model.Geometry.Elliptical
import Verif.Model.Geometry.Planar

/-!
# Results of intersections

frackit/intersection/intersectiontraits.hh, frackit/intersection/emptyintersection.hh
-/

namespace Frackit
open Verif

/-- The geometries which occur in intersections of entities,
frackit/intersection/intersectiontraits.hh:66-330.  Shapes of the geometry kernel are represented by
an opaque number; of edges we keep the coordinates of the first and the last vertex. -/
inductive IsGeom where
  | empty
  | point (p : V3)
  | segment (s : Segment)
  | arc (a : EllipseArc)
  | ellipse (e : Elliptical)
  | edge (shape : ℕ) (first last : V3)
  | polygon (p : Polygon)
  | face (shape : ℕ)

/-- An intersection is a `std::variant` or a `std::vector` of such,
frackit/intersection/intersectiontraits.hh:66-330. -/
inductive IsResult where
  | single (g : IsGeom)
  | list (gs : List IsGeom)

/-- `isEmptyIntersection(is)` for a geometry, frackit/intersection/emptyintersection.hh:58-76. -/
def isEmptyGeom : IsGeom → Bool
  | .empty => true
  | _ => false

/-- `isEmptyIntersection` for variants and vectors, frackit/intersection/emptyintersection.hh:82-97. -/
def isEmptyIntersection : IsResult → Bool
  | .single g => isEmptyGeom g
  | .list gs => gs.all isEmptyGeom

/-- `getDimension(is)`, frackit/geometry/dimension.hh:50-55, 70-110 with `myDimension` of the
geometries; an empty intersection has dimension zero (frackit/intersection/emptyintersection.hh:45). -/
def IsGeom.dimension : IsGeom → ℤ
  | .empty => 0
  | .point _ => 0
  | .segment _ => 1
  | .arc _ => 1
  | .ellipse _ => 1
  | .edge _ _ _ => 1
  | .polygon _ => 2
  | .face _ => 2

end Frackit
