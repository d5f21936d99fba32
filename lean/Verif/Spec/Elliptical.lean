import Verif.Spec.Euclid

/-!
# Ellipses and round bodies in 3d space
-/

namespace Spec
open Verif

/-- The point with local coordinates `(x, y)` with respect to centre `c` and axes `u`, `v`. -/
def localPoint (c u v : V3) (x y : ℝ) : V3 :=
  ⟨c.x + x * u.x + y * v.x, c.y + x * u.y + y * v.y, c.z + x * u.z + y * v.z⟩

/-- `p` is on the ellipse with centre `c`, axis directions `u`, `v` and semi-axes `a`, `b`. -/
def OnEllipse (c u v : V3) (a b : ℝ) (p : V3) : Prop :=
  ∃ x y : ℝ, (x / a) ^ 2 + (y / b) ^ 2 = 1 ∧ p = localPoint c u v x y

/-- `p` is on the (closed) elliptical disk. -/
def InDisk (c u v : V3) (a b : ℝ) (p : V3) : Prop :=
  ∃ x y : ℝ, (x / a) ^ 2 + (y / b) ^ 2 ≤ 1 ∧ p = localPoint c u v x y

/-- Coordinate of `p` along the axis through `c` with unit direction `n`. -/
def axial (c n p : V3) : ℝ := n.x * (p.x - c.x) + n.y * (p.y - c.y) + n.z * (p.z - c.z)

/-- Distance of `p` to the axis through `c` with unit direction `n`. -/
noncomputable def radial (c n p : V3) : ℝ :=
  dist p ⟨c.x + axial c n p * n.x, c.y + axial c n p * n.y, c.z + axial c n p * n.z⟩

/-- Solid cylinder around the axis through `c` with unit direction `n`. -/
def InCylinder (c n : V3) (r h : ℝ) (p : V3) : Prop :=
  0 ≤ axial c n p ∧ axial c n p ≤ h ∧ radial c n p ≤ r

/-- Shell between two cylinders around the axis through `c` with unit direction `n`. -/
def InShell (c n : V3) (r1 r2 h : ℝ) (p : V3) : Prop :=
  0 ≤ axial c n p ∧ axial c n p ≤ h ∧ r1 ≤ radial c n p ∧ radial c n p ≤ r2

end Spec
