import Verif.Model.Float.Sampler
import Verif.Model.Float.Box
import Verif.Model.Geometry.Cylinder

/-!
# Points, lines, planes, segments and spheres in double precision

frackit/geometry/{point,vector,line,plane,segment,sphere}.hh, frackit/common/math.hh and frackit/distance/distance.hh once more, with the arithmetic of
`double`.
-/

namespace Frackit.Fp
open Verif

/-- `Vector(const Point& a, const Point& b)`, frackit/geometry/vector.hh:336-339. -/
noncomputable def vectorBetween (a b : V3) : V3 := ⟨sub b.x a.x, sub b.y a.y, sub b.z a.z⟩

/-- `computeDistance(point, point)`, frackit/distance/distance.hh:154-157. -/
noncomputable def distPointPoint (p1 p2 : V3) : ℝ := length (vectorBetween p1 p2)

/-- `PointBase::isEqual(other, eps)`, frackit/geometry/point.hh:83-84. -/
def pointIsEqual (p q : V3) (eps : ℝ) : Prop := squaredLength (vectorBetween p q) < mul eps eps

/-- `PointBase::isEqual(other)`, frackit/geometry/point.hh:87-88. -/
def pointIsEqualDefault (p q : V3) : Prop := pointIsEqual p q confusion

/-- `Sphere::contains(p, eps)`, frackit/geometry/sphere.hh:83-87. -/
def sphereContains (s : Sphere) (p : V3) (eps : ℝ) : Prop :=
  sub (squaredLength (vectorBetween s.center p)) (mul s.radius s.radius) < mul eps eps

/-- `Sphere::contains(p)`, frackit/geometry/sphere.hh:94-95. -/
def sphereContainsDefault (s : Sphere) (p : V3) : Prop := sphereContains s p (mul s.radius confusion)

/-- `Line::projection`, frackit/geometry/line.hh:87-96. -/
noncomputable def lineProjection (l : Line) (p : V3) : V3 :=
  move l.supp (scale l.dir (scalarProduct l.dir (vectorBetween l.supp p)))

/-- `Line::contains(p, eps)`, frackit/geometry/line.hh:103-104. -/
def lineContains (l : Line) (p : V3) (eps : ℝ) : Prop :=
  squaredLength (vectorBetween p (lineProjection l p)) < mul eps eps

/-- `Line::contains(p)`, frackit/geometry/line.hh:111-112. -/
def lineContainsDefault (l : Line) (p : V3) : Prop := lineContains l p confusion

/-- `crossProduct` of vectors in 3d, frackit/common/math.hh:75-81. -/
noncomputable def crossProduct (v w : V3) : V3 :=
  ⟨sub (mul v.y w.z) (mul v.z w.y), sub (mul v.z w.x) (mul v.x w.z), sub (mul v.x w.y) (mul v.y w.x)⟩

/-- `Plane(p1, p2, p3)`, frackit/geometry/plane.hh:99-105. -/
noncomputable def planeOfPoints (p1 p2 p3 : V3) : Outcome Plane := do
  let b1 ← mkDirection (vectorBetween p1 p2)
  let n ← mkDirection (crossProduct b1 (vectorBetween p1 p3))
  let b2 ← mkDirection (crossProduct n b1)
  pure ⟨p1, b1, b2, n⟩

/-- `Plane::projection(const Point&)`, frackit/geometry/plane.hh:141-150. -/
noncomputable def planeProjection (pl : Plane) (p : V3) : V3 :=
  move p (scale (scale pl.normal (scalarProduct pl.normal (vectorBetween pl.supp p))) (-1))

/-- `Plane::contains(p, eps)`, frackit/geometry/plane.hh:179-183. -/
def planeContains (pl : Plane) (p : V3) (eps : ℝ) : Prop :=
  |scalarProduct (vectorBetween pl.supp p) pl.normal| < eps

/-- `Plane::contains(p)` with the default argument, frackit/geometry/plane.hh:179. -/
def planeContainsDefault (pl : Plane) (p : V3) : Prop := planeContains pl p confusion

/-- `computeDistance(point, line)`, frackit/distance/distance.hh:165-168. -/
noncomputable def distPointLine (p : V3) (l : Line) : ℝ := length (vectorBetween p (lineProjection l p))

/-- `Segment::length`, frackit/geometry/segment.hh:95. -/
noncomputable def segmentLength (s : Segment) : ℝ := length (vectorBetween s.source s.target)

/-- `Segment::supportingLine` and `Segment::direction`, frackit/geometry/segment.hh:93, 99-100. -/
noncomputable def segmentLine (s : Segment) : Outcome Line := do
  let d ← mkDirection (vectorBetween s.source s.target)
  pure ⟨s.source, d⟩

/-- `Segment::contains(p, eps, checkIfOnLine)`, frackit/geometry/segment.hh:110-132.  `std::signbit(x)` is taken as
`x < 0`, the sign of zero is not modelled.  For a degenerate segment see `Frackit.Segment.contains`. -/
def segmentContains (s : Segment) (p : V3) (eps : ℝ) (checkIfOnLine : Bool := true) : Prop :=
  let d1 := vectorBetween s.source p
  let d2 := vectorBetween s.target p
  let atEnd := squaredLength d1 < mul eps eps ∨ squaredLength d2 < mul eps eps
  match segmentLine s with
  | .val line =>
      (checkIfOnLine = true → lineContains line p eps) ∧
      (((scalarProduct line.dir d1 < 0) ↔ ¬ (scalarProduct line.dir d2 < 0)) ∨ atEnd)
  | _ => checkIfOnLine = false ∧ atEnd

/-- `Segment::contains(p, checkIfOnLine)`, frackit/geometry/segment.hh:142-143. -/
def segmentContainsDefault (s : Segment) (p : V3) (checkIfOnLine : Bool := true) : Prop :=
  segmentContains s p (mul confusion (segmentLength s)) checkIfOnLine

/-- `Segment::getPoint(param)`, frackit/geometry/segment.hh:148-156 (assert compiled out). -/
noncomputable def segmentGetPoint (s : Segment) (param : ℝ) : V3 :=
  move s.source (scale (vectorBetween s.source s.target) param)

open Classical in
/-- `computeDistance(point, segment)`, frackit/distance/distance.hh:187-202, and `computeDistance(segment, point)`,
distance.hh:210-213, which calls it.  For a degenerate segment the projection is `NaN`, and `contains` is false
for it. -/
noncomputable def distPointSegment (p : V3) (s : Segment) : ℝ :=
  let d1 := length (vectorBetween p s.source)
  let d2 := length (vectorBetween p s.target)
  match segmentLine s with
  | .val line =>
      let proj := lineProjection line p
      if segmentContainsDefault s proj then length (vectorBetween p proj) else min d1 d2
  | _ => min d1 d2

/-- The area of `Triangle(p1, p2, p3)`, frackit/geometry/triangle.hh:96-99, 105. -/
noncomputable def triangleArea (p1 p2 p3 : V3) : ℝ :=
  mul (1 / 2) (length (crossProduct (vectorBetween p1 p2) (vectorBetween p1 p3)))

/-- The area of `Quadrilateral(p0, p1, p2, p3)`, frackit/geometry/quadrilateral.hh:103-107. -/
noncomputable def quadArea (p0 p1 p2 p3 : V3) : ℝ := add (triangleArea p0 p1 p3) (triangleArea p0 p3 p2)

/-- `Quadrilateral(p0, p1, p2, p3).contains(p, eps, checkIfOnPlane)`, frackit/geometry/quadrilateral.hh:98-100, 161-177.
If the corners `p0`, `p1` and `p2` are on a line, the normal of the plane is `NaN` and no point is found on it. -/
def quadContains (p0 p1 p2 p3 p : V3) (eps : ℝ) (checkIfOnPlane : Bool := true) : Prop :=
  (checkIfOnPlane = true → ∃ pl, planeOfPoints p0 p1 p2 = .val pl ∧ planeContains pl p eps) ∧
  |sub (quadArea p0 p1 p2 p3)
    (add (add (add (add 0 (triangleArea p0 p1 p)) (triangleArea p1 p3 p)) (triangleArea p3 p2 p)) (triangleArea p2 p0 p))| <
    mul eps eps

/-- The default tolerance of a quadrilateral, frackit/geometry/quadrilateral.hh:189-190. -/
noncomputable def quadEps (p0 p3 : V3) : ℝ := mul confusion (length (vectorBetween p0 p3))

/-- `Quadrilateral(p0, p1, p2, p3).contains(p, checkIfOnPlane)`, frackit/geometry/quadrilateral.hh:187-192. -/
def quadContainsDefault (p0 p1 p2 p3 p : V3) (checkIfOnPlane : Bool := true) : Prop :=
  quadContains p0 p1 p2 p3 p (quadEps p0 p3) checkIfOnPlane

/-- The assertion in the constructor of quadrilaterals, frackit/geometry/quadrilateral.hh:100-101. -/
def quadAssertion (p0 p1 p2 p3 : V3) : Prop :=
  ∃ pl, planeOfPoints p0 p1 p2 = .val pl ∧ planeContains pl p3 (quadEps p0 p3)

end Frackit.Fp
