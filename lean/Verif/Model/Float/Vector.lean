import Verif.Model.Float.Rounding
import Verif.Core.Vec
import Verif.Core.Outcome

/-!
# Vectors, directions and angles in double precision

frackit/geometry/vector.hh, frackit/geometry/direction.hh and frackit/intersection/intersectionangle.hh once more, with
the arithmetic of `double`.
-/

namespace Frackit.Fp
open Verif

/-- `VectorBase::squaredLength`, frackit/geometry/vector.hh:107-113: starts from zero and adds one product after the
other. -/
noncomputable def squaredLength (v : V3) : ℝ :=
  add (add (add 0 (mul v.x v.x)) (mul v.y v.y)) (mul v.z v.z)

/-- `VectorBase::length`, frackit/geometry/vector.hh:116-120. -/
noncomputable def length (v : V3) : ℝ := sqrt (squaredLength v)

/-- The scalar product of two vectors, frackit/geometry/vector.hh:138-146. -/
noncomputable def scalarProduct (v w : V3) : ℝ :=
  add (add (add 0 (mul v.x w.x)) (mul v.y w.y)) (mul v.z w.z)

open Classical in
/-- `Direction(const Vector&)` in 3d, frackit/geometry/direction.hh:195-202, with operator `/=` of vectors,
frackit/geometry/vector.hh:188-194.  The coordinates are NaN if the length is zero. -/
noncomputable def mkDirection (v : V3) : Outcome V3 :=
  if length v = 0 then .nan else .val ⟨div v.x (length v), div v.y (length v), div v.z (length v)⟩

open Classical in
/-- `(*this)*other/thisNorm/otherNorm`, the quotient in frackit/geometry/vector.hh:134.  If one of the lengths is zero,
the scalar product is zero as well and the quotient is NaN (`none`). -/
noncomputable def cosine (v w : V3) : Option ℝ :=
  if length v = 0 ∨ length w = 0 then none
  else some (div (div (scalarProduct v w) (length v)) (length w))

/-- `OCCPrecision::Angular()*1e2`, frackit/precision/precision.hh:53. -/
noncomputable def angular : ℝ := mul (rnd (1 / 10 ^ 12)) 100

/-- The macro `M_PI`. -/
noncomputable def pi : ℝ := rnd Real.pi

/-- `VectorBase::isParallel`, frackit/geometry/vector.hh:123-136, for vectors in 3d. -/
noncomputable def isParallel (v w : V3) (angularEps : ℝ) : Prop :=
  less (((cosine v w).bind acos).map (|·|)) angularEps ∨ |sub angularEps pi| < angularEps

/-- `IntersectionAngle::operator()(plane1, plane2)`, frackit/intersection/intersectionangle.hh:109-118 (assert compiled
out): the angle between two planes with the given normal directions. -/
noncomputable def planeAngle (normal1 normal2 : V3) : Option ℝ := acos |scalarProduct normal1 normal2|

/-- The check of the minimum angle in `EntityNetworkConstraints::evaluate_`,
frackit/entitynetwork/constraints.hh:298-300, for two planar geometries with the given normal directions: `true` if the
geometries are not rejected because of the angle between them. -/
def admissibleAngle (normal1 normal2 : V3) (minIsAngle : ℝ) : Prop :=
  ¬ less (planeAngle normal1 normal2) minIsAngle

end Frackit.Fp
