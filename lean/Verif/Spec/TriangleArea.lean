import Verif.Spec.Euclid

/-!
# Area of a triangle by the lengths of its sides
-/

namespace Spec
open Verif

/-- Heron's formula: `T` is the area of the triangle with the corners `p`, `q` and `r`. -/
def IsTriangleArea (p q r : V3) (T : ℝ) : Prop :=
  0 ≤ T ∧ 16 * T ^ 2 = 4 * dist p q ^ 2 * dist p r ^ 2 - (dist p q ^ 2 + dist p r ^ 2 - dist q r ^ 2) ^ 2

/-- A point turns to the left on the way from `a` over `b` to `c` in the plane `z = 0`. -/
def TurnsLeft (a b c : V3) : Prop := 0 < (b.x - a.x) * (c.y - b.y) - (b.y - a.y) * (c.x - b.x)

/-- The points `p0`, `p1`, `p3` and `p2`, in this order, are the corners of a convex quadrilateral in the plane
`z = 0`. -/
structure ConvexInPlane (p0 p1 p2 p3 : V3) : Prop where
  z0 : p0.z = 0
  z1 : p1.z = 0
  z2 : p2.z = 0
  z3 : p3.z = 0
  t0 : TurnsLeft p2 p0 p1
  t1 : TurnsLeft p0 p1 p3
  t3 : TurnsLeft p1 p3 p2
  t2 : TurnsLeft p3 p2 p0

end Spec
