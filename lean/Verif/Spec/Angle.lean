import Verif.Spec.Elliptical
import Mathlib.Analysis.SpecialFunctions.Trigonometric.Inverse

/-!
# Angles between planes and surfaces
-/

namespace Spec
open Verif

/-- Angle in `[0, π]` between two nonzero vectors. -/
noncomputable def vecAngle (a b : V3) : ℝ := Real.arccos (inner a b / (norm a * norm b))

/-- `θ` is the angle between planes with (nonzero) normals `m` and `n`: the smaller one of the two
angles between the normals. -/
def IsPlaneAngle (m n : V3) (θ : ℝ) : Prop := θ = min (vecAngle m n) (Real.pi - vecAngle m n)

/-- Vector from the axis (through `c` with unit direction `d`) to the point `p`, orthogonal to the
axis: a normal of the cylinder surface through `p`. -/
def radialVec (c d p : V3) : V3 :=
  ⟨p.x - (c.x + axial c d p * d.x), p.y - (c.y + axial c d p * d.y), p.z - (c.z + axial c d p * d.z)⟩

/-- `p` is on the infinitely extended cylinder surface. -/
def OnInfCylinder (c d : V3) (r : ℝ) (p : V3) : Prop := radial c d p = r

end Spec
