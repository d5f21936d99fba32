import Verif.Model.Float.Geometry

/-!
# Circles and ellipses in double precision

frackit/geometry/{ellipticalgeometry,circle,ellipse}.hh once more, with the arithmetic of `double`.
-/

namespace Frackit.Fp
open Verif

/-- `EllipticalGeometry(center, majAxis, minAxis, majAxisLength, minAxisLength)`,
frackit/geometry/ellipticalgeometry.hh:84-98 (assert compiled out), also the constructor of `Ellipse`. -/
noncomputable def ellipticalMake (center major minor : V3) (majLen minLen : ℝ) : Outcome Elliptical := do
  let normal ← mkDirection (crossProduct major minor)
  pure ⟨center, major, minor, normal, majLen, minLen⟩

/-- `Circle(center, normal, radius)` and `makeBaseGeometry_`, frackit/geometry/circle.hh:78-82, 157-164.  The vector
that `makeOrthogonalVector`, frackit/geometry/vector.hh:380-386, returns is not rounded; the cross product is converted
to a `Direction` when it is passed to the constructor of the base class. -/
noncomputable def circleMake (center normal : V3) (radius : ℝ) : Outcome Elliptical := do
  let major ← mkDirection (makeOrthogonalVector normal)
  let minor ← mkDirection (crossProduct normal major)
  ellipticalMake center major minor radius radius

/-- `EllipticalGeometry::supportingPlane`, frackit/geometry/ellipticalgeometry.hh:116-122, and the constructor of
`Plane` that is called, frackit/geometry/plane.hh:115-126 (asserts compiled out). -/
def supportingPlane (d : Elliptical) : Plane := ⟨d.center, d.major, d.minor, d.normal⟩

/-- `Circle::getPointFromAngle`, frackit/geometry/circle.hh:137-153, and `Ellipse::getPointFromAngle`,
frackit/geometry/ellipse.hh:135-151 (asserts compiled out). -/
noncomputable def pointFromAngle (d : Elliptical) (angle : ℝ) : V3 :=
  let x := mul (cos angle) d.majLen
  let y := mul (sin angle) d.minLen
  move (move d.center (scale d.major x)) (scale d.minor y)

/-- `Circle::getPoint` and `Ellipse::getPoint`, frackit/geometry/circle.hh:124-128, frackit/geometry/ellipse.hh:122-126. -/
noncomputable def ellipticalGetPoint (d : Elliptical) (param : ℝ) : V3 := pointFromAngle d (mul (mul 2 pi) param)

/-- `Circle::contains(p, eps)`, frackit/geometry/circle.hh:99-106. -/
def circleContains (d : Elliptical) (p : V3) (eps : ℝ) : Prop :=
  planeContains (supportingPlane d) p eps ∧ |sub (length (vectorBetween p d.center)) d.majLen| < eps

/-- `Circle::contains(p)`, frackit/geometry/circle.hh:113-114. -/
def circleContainsDefault (d : Elliptical) (p : V3) : Prop := circleContains d p (mul confusion d.majLen)

/-- `Ellipse::contains(p, eps, checkIfOnPlane)`, frackit/geometry/ellipse.hh:87-102.  If a squared
axis length is zero, the quotient is infinite or `NaN` and the comparison is false. -/
def ellipseContains (d : Elliptical) (p : V3) (eps : ℝ) (checkIfOnPlane : Bool := true) : Prop :=
  (checkIfOnPlane = true → planeContains (supportingPlane d) p eps) ∧
  (let x := scalarProduct (vectorBetween d.center p) d.major
   let y := scalarProduct (vectorBetween d.center p) d.minor
   mul d.majLen d.majLen ≠ 0 ∧ mul d.minLen d.minLen ≠ 0 ∧
   |sub (add (div (mul x x) (mul d.majLen d.majLen)) (div (mul y y) (mul d.minLen d.minLen))) 1| < eps)

/-- `Ellipse::contains(p, checkIfOnPlane)`, frackit/geometry/ellipse.hh:111-112. -/
def ellipseContainsDefault (d : Elliptical) (p : V3) (checkIfOnPlane : Bool := true) : Prop :=
  ellipseContains d p confusion checkIfOnPlane

/-- `Disk::area`, frackit/geometry/disk.hh:82-86 (`M_PI` is a number of type `double`). -/
noncomputable def diskArea (d : Elliptical) : ℝ := mul (mul pi d.majLen) d.minLen

/-- `Disk::contains(p, eps, checkIfOnPlane)`, frackit/geometry/disk.hh:98-112.  If a squared axis length is zero, the
quotient is infinite or `NaN` and the comparison is false. -/
def diskContains (d : Elliptical) (p : V3) (eps : ℝ) (checkIfOnPlane : Bool := true) : Prop :=
  (checkIfOnPlane = true → planeContains (supportingPlane d) p eps) ∧
  (let x := scalarProduct (vectorBetween d.center p) d.major
   let y := scalarProduct (vectorBetween d.center p) d.minor
   mul d.majLen d.majLen ≠ 0 ∧ mul d.minLen d.minLen ≠ 0 ∧
   add (div (mul x x) (mul d.majLen d.majLen)) (div (mul y y) (mul d.minLen d.minLen)) ≤ add 1 (mul eps eps))

/-- `Disk::contains(p, checkIfOnPlane)`, frackit/geometry/disk.hh:121-122. -/
def diskContainsDefault (d : Elliptical) (p : V3) (checkIfOnPlane : Bool := true) : Prop :=
  diskContains d p confusion checkIfOnPlane

end Frackit.Fp
