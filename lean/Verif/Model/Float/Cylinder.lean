import Verif.Model.Float.Geometry
import Verif.Model.Float.Sampler

/-!
# Cylinders in double precision

The containment test of frackit/geometry/cylinder.hh once more, with the arithmetic of `double`.
-/

namespace Frackit.Fp
open Verif

/-- The centre of the top face, `makeTopDisk_`, frackit/geometry/cylinder.hh:186-192.  The constructor of axis aligned
cylinders, cylinder.hh:82-90, computes the same point, its normal being (0, 0, 1). -/
noncomputable def topCenter (bottom : Elliptical) (height : ℝ) : V3 := move bottom.center (scale bottom.normal height)

/-- `Cylinder::centerSegment`, frackit/geometry/cylinder.hh:150-151. -/
noncomputable def centerSegment (bottom : Elliptical) (height : ℝ) : Segment :=
  ⟨bottom.center, topCenter bottom height⟩

/-- `Cylinder::contains(p, eps)`, frackit/geometry/cylinder.hh:165-174, for the cylinder with the given bottom face, whose
major axis is the radius, and height.  If the centres of the two faces are equal the direction of the supporting line is
`NaN`, and the segment contains no point with coordinates that are `NaN`. -/
def cylinderContains (bottom : Elliptical) (height : ℝ) (p : V3) (eps : ℝ) : Prop :=
  match segmentLine (centerSegment bottom height) with
  | .val line =>
      let proj := lineProjection line p
      segmentContains (centerSegment bottom height) proj eps ∧
        squaredLength (vectorBetween proj p) ≤ add (mul bottom.majLen bottom.majLen) (mul eps eps)
  | _ => False

/-- The default tolerance, frackit/geometry/cylinder.hh:182. -/
noncomputable def cylinderEps (bottom : Elliptical) (height : ℝ) : ℝ :=
  mul (mul confusion (1 / 2)) (add bottom.majLen height)

/-- `Cylinder::contains(p)`, frackit/geometry/cylinder.hh:181-182. -/
def cylinderContainsDefault (bottom : Elliptical) (height : ℝ) (p : V3) : Prop :=
  cylinderContains bottom height p (cylinderEps bottom height)

end Frackit.Fp
