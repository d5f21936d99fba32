import Verif.Model.IO.GeoText
import Verif.Model.Geometry.NDim

/-!
# Text of points, vectors, directions and other geometries

`operator<<` (C++) and `__repr__` (Python).  Floating point numbers are real numbers.
-/

namespace Frackit.GeometryText
open Verif Frackit

/-- Several texts with a separator. -/
def join (sep : List Char) : List (List Char) → List Char
  | [] => []
  | [a] => a
  | a :: b :: t => a ++ sep ++ join sep (b :: t)

/-- `operator<<` for points, vectors and directions, frackit/geometry/point.hh:270-307, vector.hh:398-437,
direction.hh:245-284: the coordinates with the format of the stream, separated by blanks. -/
noncomputable def streamText {n : ℕ} (c : Coords n) : List Char :=
  join [' '] (List.ofFn fun i => GeneralFormat.print (c i))

open Classical in
/-- `std::to_string` for `double`: the conversion `%f`, six digits behind the point. -/
noncomputable def toString6 (x : ℝ) : List Char :=
  let n := GeneralFormat.roundEven (|x| * 10 ^ 6)
  (if x < 0 then ['-'] else []) ++ decimal (n / 10 ^ 6) ++ '.' :: GeneralFormat.padded 6 (n % 10 ^ 6)

/-- The classes with a function `__repr__`. -/
inductive TextClass where
  | point | vector | direction | segment | line | ellipse | circle | ellipseArc | plane | polygon | triangle | quadrilateral
  | box | sphere | cylinder | cylinderSurface | hollowCylinder | disk
deriving DecidableEq

/-- The names in the text. -/
def TextClass.name : TextClass → List Char
  | .point => "Point".toList
  | .vector => "Vector".toList
  | .direction => "Direction".toList
  | .segment => "Segment".toList
  | .line => "Line".toList
  | .ellipse => "Ellipse".toList
  | .circle => "Circle".toList
  | .ellipseArc => "EllipseArc".toList
  | .plane => "Plane".toList
  | .polygon => "Polygon".toList
  | .triangle => "Triangle".toList
  | .quadrilateral => "Quadrilateral".toList
  | .box => "Box".toList
  | .sphere => "Sphere".toList
  | .cylinder => "Cylinder".toList
  | .cylinderSurface => "CylinderSurface".toList
  | .hollowCylinder => "HollowCylinder".toList
  | .disk => "Disk".toList

/-- Classes for which the dimension is part of the text. -/
def TextClass.showsDimension : TextClass → Bool
  | .box | .sphere | .cylinder | .cylinderSurface | .hollowCylinder | .disk => false
  | _ => true

/-- The beginning of the text, which is the whole text for all classes but points, vectors and directions:
frackit/python/geometry/segment.hh:75, line.hh:62, ellipse.hh:76, circle.hh:72, ellipsearc.hh:76, plane.hh:74, polygon.hh:73,
triangle.hh:72, quadrilateral.hh:73, box.hh:74, sphere.hh:58, cylinder.hh:74, cylindersurface.hh:73, hollowcylinder.hh:80,
disk.hh:66. -/
def heading (k : TextClass) (n : ℕ) : List Char :=
  "Frackit::".toList ++ k.name ++ if k.showsDimension then '<' :: decimal n ++ ['>'] else []

/-- `__repr__` of points, vectors and directions, frackit/python/geometry/point.hh:118-130, vector.hh:114-126,
direction.hh:65-77. -/
noncomputable def reprText {n : ℕ} (k : TextClass) (c : Coords n) : List Char :=
  heading k n ++ " (".toList ++ join ", ".toList (List.ofFn fun i => toString6 (c i)) ++ [')']

end Frackit.GeometryText
