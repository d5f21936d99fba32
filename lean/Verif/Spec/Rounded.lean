import Verif.Spec.Double

/-!
# Specification: points with rounded coordinates
-/

namespace Spec
open Verif

/-- `y` is a number of type `double` that is nearest to `x`. -/
def NearestDouble (y x : ℝ) : Prop := IsDouble y ∧ ∀ d, IsDouble d → |y - x| ≤ |d - x|

/-- The coordinates of `p` are those of `q`, rounded to the type `double`. -/
def RoundedPoint (p q : V3) : Prop := NearestDouble p.x q.x ∧ NearestDouble p.y q.y ∧ NearestDouble p.z q.z

/-- The points of the figure `S` with coordinates up to `M` are contained after rounding. -/
def KeepsRounded (M : ℝ) (contains : V3 → Prop) (S : V3 → Prop) : Prop :=
  ∀ p q, S q → |q.x| ≤ M → |q.y| ≤ M → |q.z| ≤ M → RoundedPoint p q → contains p

end Spec
