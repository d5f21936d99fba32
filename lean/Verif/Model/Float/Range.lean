import Verif.Model.Float.Geometry

/-!
# The range of the type `double`

The other modules in this directory do not bound the exponent.  Here the functions that every geometric query is made
of are modelled once more, with the numbers of IEEE 754 binary64 including infinities, NaN and subnormal numbers.

Simplified: the sign of zero is not represented.  It is relevant for divisions by zero only, and the only divisors are
lengths of vectors, which are not -0.
-/

namespace Frackit.Fp
open Verif

/-- A value of type `double`: a finite number, plus or minus infinity, or NaN. -/
inductive Dbl where
  | fin (x : ℝ)
  | inf (negative : Bool)
  | nan

namespace Dbl

open Classical in
/-- Rounding of a result to binary64 (IEEE 754-2008, 4.3.1 and 7.4): the spacing of the numbers is not below 2⁻¹⁰⁷⁴, and
results whose magnitude is at least 2¹⁰²⁴ after rounding are infinite. -/
noncomputable def round (x : ℝ) : Dbl :=
  let e := max (ulpExponent x) (-1074)
  let r : ℝ := nearestEven (x / 2 ^ e) * 2 ^ e
  if 2 ^ 1024 ≤ |r| then .inf (decide (x < 0)) else .fin r

/-- Unary operator `-` of `double`. -/
def neg : Dbl → Dbl
  | fin a => fin (-a)
  | inf s => inf (!s)
  | nan => nan

/-- Operator `+` of `double`. -/
noncomputable def add : Dbl → Dbl → Dbl
  | fin a, fin b => round (a + b)
  | nan, _ => nan
  | _, nan => nan
  | inf s, fin _ => inf s
  | fin _, inf s => inf s
  | inf s, inf t => if s = t then inf s else nan

/-- Operator `-` of `double`. -/
noncomputable def sub (a b : Dbl) : Dbl := add a (neg b)

open Classical in
/-- Operator `*` of `double`. -/
noncomputable def mul : Dbl → Dbl → Dbl
  | fin a, fin b => round (a * b)
  | nan, _ => nan
  | _, nan => nan
  | inf s, fin b => if b = 0 then nan else inf (s ^^ decide (b < 0))
  | fin a, inf t => if a = 0 then nan else inf (decide (a < 0) ^^ t)
  | inf s, inf t => inf (s ^^ t)

open Classical in
/-- Operator `/` of `double`, for divisors that are not -0. -/
noncomputable def div : Dbl → Dbl → Dbl
  | fin a, fin b => if b = 0 then (if a = 0 then nan else inf (decide (a < 0))) else round (a / b)
  | nan, _ => nan
  | _, nan => nan
  | inf s, fin b => inf (s ^^ decide (b < 0))
  | fin _, inf _ => fin 0
  | inf _, inf _ => nan

open Classical in
/-- `std::sqrt` of `double`. -/
noncomputable def sqrt : Dbl → Dbl
  | fin a => if a < 0 then nan else round (√a)
  | inf false => inf false
  | inf true => nan
  | nan => nan

/-- Operator `<` of `double`. -/
def lt : Dbl → Dbl → Prop
  | fin a, fin b => a < b
  | nan, _ => False
  | _, nan => False
  | inf s, fin _ => s = true
  | fin _, inf t => t = false
  | inf s, inf t => s = true ∧ t = false

end Dbl

/-- The coordinates of a point, vector or direction of `double`. -/
structure V3D where
  (x y z : Dbl)

/-- The point or vector with the given finite coordinates. -/
def V3D.ofV3 (v : V3) : V3D := ⟨.fin v.x, .fin v.y, .fin v.z⟩

namespace V3D

/-- `Vector(const Point& a, const Point& b)`, frackit/geometry/vector.hh:336-339. -/
noncomputable def vectorBetween (a b : V3D) : V3D := ⟨b.x.sub a.x, b.y.sub a.y, b.z.sub a.z⟩

/-- The scalar product of two vectors, frackit/geometry/vector.hh:138-146. -/
noncomputable def scalarProduct (v w : V3D) : Dbl :=
  (((Dbl.fin 0).add (v.x.mul w.x)).add (v.y.mul w.y)).add (v.z.mul w.z)

/-- `VectorBase::squaredLength`, frackit/geometry/vector.hh:107-113. -/
noncomputable def squaredLength (v : V3D) : Dbl :=
  (((Dbl.fin 0).add (v.x.mul v.x)).add (v.y.mul v.y)).add (v.z.mul v.z)

/-- `VectorBase::length`, frackit/geometry/vector.hh:116-120. -/
noncomputable def length (v : V3D) : Dbl := (squaredLength v).sqrt

/-- `Direction(const Vector&)` in 3d, frackit/geometry/direction.hh:195-202, with operator `/=` of vectors,
frackit/geometry/vector.hh:188-194. -/
noncomputable def direction (v : V3D) : V3D := ⟨v.x.div (length v), v.y.div (length v), v.z.div (length v)⟩

/-- `crossProduct` of vectors in 3d, frackit/common/math.hh:75-81. -/
noncomputable def crossProduct (v w : V3D) : V3D :=
  ⟨(v.y.mul w.z).sub (v.z.mul w.y), (v.z.mul w.x).sub (v.x.mul w.z), (v.x.mul w.y).sub (v.y.mul w.x)⟩

/-- `computeDistance(point, point)`, frackit/distance/distance.hh:154-157. -/
noncomputable def distPointPoint (p q : V3D) : Dbl := length (vectorBetween p q)

/-- `PointBase::isEqual(other, eps)`, frackit/geometry/point.hh:83-84. -/
def pointIsEqual (p q : V3D) (eps : Dbl) : Prop := (squaredLength (vectorBetween p q)).lt (eps.mul eps)

/-- `Sphere(center, radius).contains(p, eps)`, frackit/geometry/sphere.hh:83-87. -/
def sphereContains (center : V3D) (radius : Dbl) (p : V3D) (eps : Dbl) : Prop :=
  ((squaredLength (vectorBetween center p)).sub (radius.mul radius)).lt (eps.mul eps)

/-- The area of `Triangle(p1, p2, p3)`, frackit/geometry/triangle.hh:96-99, 105. -/
noncomputable def triangleArea (p1 p2 p3 : V3D) : Dbl :=
  (Dbl.fin (1 / 2)).mul (length (crossProduct (vectorBetween p1 p2) (vectorBetween p1 p3)))

/-- The area of `Quadrilateral(p0, p1, p2, p3)`, frackit/geometry/quadrilateral.hh:103-107. -/
noncomputable def quadArea (p0 p1 p2 p3 : V3D) : Dbl := (triangleArea p0 p1 p3).add (triangleArea p0 p3 p2)

/-- `Box::volume`, frackit/geometry/box.hh:101-106, for the box with the corners `p` and `q`. -/
noncomputable def boxVolume (p q : V3D) : Dbl := ((q.x.sub p.x).mul (q.y.sub p.y)).mul (q.z.sub p.z)

end V3D
end Frackit.Fp
