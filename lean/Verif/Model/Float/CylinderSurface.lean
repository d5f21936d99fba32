import Verif.Model.Float.Cylinder

/-!
# Cylinder surfaces in double precision

The containment test, the area and the normals of frackit/geometry/cylindersurface.hh once more, with the arithmetic of
`double`.  The centre of the upper circle, cylindersurface.hh:178-187, and the centre segment, cylindersurface.hh:126-127,
are computed as those of cylinders (`topCenter`, `centerSegment`).
-/

namespace Frackit.Fp
open Verif

/-- `CylinderSurface::contains(p, eps)`, frackit/geometry/cylindersurface.hh:156-166, for the surface with the given lower
circle, whose major axis is the radius, and height.  If the centres of the two circles are equal, the direction of the
supporting line is `NaN` and no point is contained. -/
def surfaceContains (bottom : Elliptical) (height : ℝ) (p : V3) (eps : ℝ) : Prop :=
  match segmentLine (centerSegment bottom height) with
  | .val line =>
      let proj := lineProjection line p
      segmentContains (centerSegment bottom height) proj eps ∧
        |sub (length (vectorBetween proj p)) bottom.majLen| < eps
  | _ => False

/-- `CylinderSurface::contains(p)`, frackit/geometry/cylindersurface.hh:173-174.  The tolerance is the one of cylinders. -/
def surfaceContainsDefault (bottom : Elliptical) (height : ℝ) (p : V3) : Prop :=
  surfaceContains bottom height p (cylinderEps bottom height)

/-- `CylinderSurface::area`, frackit/geometry/cylindersurface.hh:118. -/
noncomputable def surfaceArea (bottom : Elliptical) (height : ℝ) : ℝ :=
  mul (mul (mul 2 pi) bottom.majLen) height

/-- The normal direction of `CylinderSurface::getTangentPlane(p)`, frackit/geometry/cylindersurface.hh:144-149 (assert
compiled out). -/
noncomputable def surfaceNormal (bottom : Elliptical) (height : ℝ) (p : V3) : Outcome V3 := do
  let line ← segmentLine (centerSegment bottom height)
  mkDirection (vectorBetween (lineProjection line p) p)

end Frackit.Fp
