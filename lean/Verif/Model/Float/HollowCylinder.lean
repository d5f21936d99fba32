import Verif.Model.Float.Cylinder

/-!
# Hollow cylinders in double precision

The containment test and the volume of frackit/geometry/hollowcylinder.hh once more, with the arithmetic of `double`.
The centre of the top, hollowcylinder.hh:102, and the centre segment, hollowcylinder.hh:164-165, are computed as those of
cylinders (`topCenter`, `centerSegment`).
-/

namespace Frackit.Fp
open Verif

/-- `HollowCylinder::contains(p, eps)`, frackit/geometry/hollowcylinder.hh:194-206, for the hollow cylinder with the given
inner circle of the bottom, whose major axis is the inner radius, outer radius and height.  If the centres of the bottom
and the top are equal, the direction of the supporting line is `NaN` and no point is contained. -/
def hollowContains (inner : Elliptical) (outer height : ℝ) (p : V3) (eps : ℝ) : Prop :=
  match segmentLine (centerSegment inner height) with
  | .val line =>
      let proj := lineProjection line p
      let squaredDist := squaredLength (vectorBetween proj p)
      let squaredEps := mul eps eps
      segmentContains (centerSegment inner height) proj eps ∧
        squaredDist ≤ add (mul outer outer) squaredEps ∧
        sub (mul inner.majLen inner.majLen) squaredEps ≤ squaredDist
  | _ => False

/-- `HollowCylinder::contains(p)`, frackit/geometry/hollowcylinder.hh:213-214. -/
def hollowContainsDefault (inner : Elliptical) (outer height : ℝ) (p : V3) : Prop :=
  hollowContains inner outer height p (mul (mul confusion (1 / 2)) (add outer height))

/-- `HollowCylinder::volume`, frackit/geometry/hollowcylinder.hh:183-187. -/
noncomputable def hollowVolume (inner outer height : ℝ) : ℝ :=
  mul (mul pi height) (sub (mul outer outer) (mul inner inner))

end Frackit.Fp
