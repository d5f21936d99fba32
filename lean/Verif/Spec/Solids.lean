import Verif.Spec.Elliptical

/-!
# Specification of balls, lateral surfaces and circles

Independent of the model of the solids.
-/

namespace Spec
open Verif

/-- The closed ball. -/
def InBall (center : V3) (r : ℝ) (p : V3) : Prop := dist center p ≤ r

/-- The lateral surface of the cylinder with the given axis, radius and height. -/
def OnLateral (center axis : V3) (r h : ℝ) (p : V3) : Prop :=
  0 ≤ axial center axis p ∧ axial center axis p ≤ h ∧ radial center axis p = r

/-- The circle around an axis at the given height above the reference point. -/
def OnCircle (center axis : V3) (r z : ℝ) (p : V3) : Prop :=
  axial center axis p = z ∧ radial center axis p = r

end Spec
