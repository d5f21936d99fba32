import Verif.Model.Float.CylinderSurface
import Verif.Model.Common.Math

/-!
# Angles between planar geometries and cylinder surfaces in double precision
-/

namespace Frackit.Fp
open Verif

/-- `IntersectionAngle::operator()(geo, cylSurface, isPoint)` and the one for segments with the source of the segment,
frackit/intersection/intersectionangle.hh:171-174, 203-206, for a planar geometry with the given normal direction; `none`
is NaN.  The other directions of the tangent plane, frackit/geometry/plane.hh:84-91, do not influence the result. -/
noncomputable def surfaceAngleAt (normal : V3) (bottom : Elliptical) (height : ℝ) (p : V3) : Option ℝ :=
  match surfaceNormal bottom height p with
  | .val n => planeAngle normal n
  | _ => none

/-- `std::min(result, angle)`, which returns `result` if the angle is NaN. -/
noncomputable def minAngleStep (result : ℝ) : Option ℝ → ℝ
  | none => result
  | some angle => if angle < result then angle else result

/-- `IntersectionAngle::operator()` for a planar geometry and a cylinder surface that intersect in an arc or an ellipse,
frackit/intersection/intersectionangle.hh:234-253, 276-296.  Simplified: the points on the curve, which are computed by
`getPoint`, are given. -/
noncomputable def surfaceAngleAlong (normal : V3) (bottom : Elliptical) (height : ℝ) (points : List V3) : ℝ :=
  points.foldl (fun result p => minAngleStep result (surfaceAngleAt normal bottom height p)) doubleMax

end Frackit.Fp
