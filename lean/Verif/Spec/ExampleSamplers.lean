import Verif.Model.Appl.Samplers
import Verif.Model.Sampling.PointSampler

/-!
# Specification: values that the samplers of the examples may draw
-/

namespace Spec
open Verif Frackit Appl

/-- A value that may be drawn from a distribution. -/
def Possible : Distro → ℝ → Prop
  | .normal _ _, _ => True
  | .uniform a b, x => a ≤ x ∧ x ≤ b

/-- Values that may be drawn during a call of a sampler, with a centre of the given kind. -/
structure PossibleDraws (s : PolygonSampling) (centers : V3 → Prop) (d : PolygonDraws) : Prop where
  strikeAngle : Possible s.strikeAngle d.strikeAngle
  dipAngle : Possible s.dipAngle d.dipAngle
  strikeLength : ∀ k, Possible s.strikeLength (d.strikeLength k)
  dipLength : ∀ k, Possible s.dipLength (d.dipLength k)
  corners : ∀ k, s.minCorners ≤ d.corners k ∧ d.corners k ≤ s.maxCorners
  interval : ∀ k, 0 ≤ d.interval k ∧ d.interval k ≤ 1
  center : centers d.center

/-- A point of a box. -/
def PointOfBox (b : Box) (p : V3) : Prop :=
  (b.xMin ≤ p.x ∧ p.x ≤ b.xMax) ∧ (b.yMin ≤ p.y ∧ p.y ≤ b.yMax) ∧ (b.zMin ≤ p.z ∧ p.z ≤ b.zMax)

end Spec
