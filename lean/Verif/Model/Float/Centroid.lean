import Verif.Model.Float.Geometry

/-!
# Volumes, and centres and areas of polygons, in double precision

The volumes of spheres and cylinders and the constructors of triangles, quadrilaterals and polygons once more, with the
arithmetic of `double`.
-/

namespace Frackit.Fp
open Verif

/-- `Sphere::volume`, frackit/geometry/sphere.hh:76. -/
noncomputable def sphereVolume (radius : ℝ) : ℝ := mul (mul (mul (mul (div 4 3) pi) radius) radius) radius

/-- `Cylinder::volume`, frackit/geometry/cylinder.hh:158. -/
noncomputable def cylinderVolume (radius height : ℝ) : ℝ := mul (mul (mul pi radius) radius) height

/-- The centre of `Triangle(p1, p2, p3)`, frackit/geometry/triangle.hh:91-94. -/
noncomputable def triangleCenter (p1 p2 p3 : V3) : V3 :=
  ⟨mul (div 1 3) (add (add p1.x p2.x) p3.x), mul (div 1 3) (add (add p1.y p2.y) p3.y),
    mul (div 1 3) (add (add p1.z p2.z) p3.z)⟩

/-- The vector `d` in the constructors of quadrilaterals and polygons: the centre of a triangle times its area,
frackit/geometry/quadrilateral.hh:111-112 and polygon.hh:110-111. -/
noncomputable def weightedCenter (p1 p2 p3 : V3) : V3 :=
  scale (vectorBetween 0 (triangleCenter p1 p2 p3)) (triangleArea p1 p2 p3)

open Classical in
/-- Operator `/=` of points, frackit/geometry/point.hh:143-148.  Simplification: a division by zero, which results in
coordinates that are `NaN` or infinite, is the outcome `nan`. -/
noncomputable def divide (p : V3) (s : ℝ) : Outcome V3 :=
  if s = 0 then .nan else .val ⟨div p.x s, div p.y s, div p.z s⟩

/-- The centre of `Quadrilateral(p0, p1, p2, p3)`, frackit/geometry/quadrilateral.hh:103-113. -/
noncomputable def quadCenter (p0 p1 p2 p3 : V3) : Outcome V3 :=
  divide (move (move 0 (weightedCenter p0 p1 p3)) (weightedCenter p0 p3 p2)) (quadArea p0 p1 p2 p3)

/-- `triangulate(corners)`, frackit/geometry/triangulation.hh:43-60; the only caller checks that there are at least three
corners.  A triangle is given by its corners. -/
def triangulate (cs : List V3) : List (V3 × V3 × V3) :=
  (cs.getD 0 0, cs.getD 1 0, cs.getD 2 0) ::
    (List.range' 2 (cs.length - 1 - 2)).map fun i => (cs.getD 0 0, cs.getD i 0, cs.getD (i + 1) 0)

/-- One pass of the loop in `Polygon(corners)`, frackit/geometry/polygon.hh:108-115. -/
noncomputable def polygonStep (s : V3 × ℝ) (t : V3 × V3 × V3) : V3 × ℝ :=
  (move s.1 (weightedCenter t.1 t.2.1 t.2.2), add s.2 (triangleArea t.1 t.2.1 t.2.2))

/-- The loop in `Polygon(corners)`, frackit/geometry/polygon.hh:105-115, for at least three corners. -/
noncomputable def polygonSums (cs : List V3) : V3 × ℝ := (triangulate cs).foldl polygonStep (0, 0)

/-- The area of `Polygon(corners)`, frackit/geometry/polygon.hh:94-115, 161.  The convexity, which is asked for at
polygon.hh:159, is not part of this function. -/
noncomputable def polygonArea (cs : List V3) : Outcome ℝ :=
  if cs.length < 3 then .thrown "At least 3 corners are required!" else .val (polygonSums cs).2

/-- The centre of `Polygon(corners)`, frackit/geometry/polygon.hh:94-116. -/
noncomputable def polygonCenter (cs : List V3) : Outcome V3 :=
  if cs.length < 3 then .thrown "At least 3 corners are required!" else divide (polygonSums cs).1 (polygonSums cs).2

end Frackit.Fp
