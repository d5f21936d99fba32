import Verif.Core.Vec

/-!
# Axis-aligned boxes as sets of points
-/

namespace Spec
open Verif

/-- `p` lies between `lo` and `hi` in every coordinate. -/
def InBox (lo hi p : V3) : Prop :=
  lo.x ≤ p.x ∧ p.x ≤ hi.x ∧ lo.y ≤ p.y ∧ p.y ≤ hi.y ∧ lo.z ≤ p.z ∧ p.z ≤ hi.z

/-- `p` is on the boundary of the box: in it, with a coordinate at one of the bounds. -/
def OnBoxBoundary (lo hi p : V3) : Prop :=
  InBox lo hi p ∧ (p.x = lo.x ∨ p.x = hi.x ∨ p.y = lo.y ∨ p.y = hi.y ∨ p.z = lo.z ∨ p.z = hi.z)

/-- `p` is a corner of the box. -/
def IsBoxCorner (lo hi p : V3) : Prop :=
  (p.x = lo.x ∨ p.x = hi.x) ∧ (p.y = lo.y ∨ p.y = hi.y) ∧ (p.z = lo.z ∨ p.z = hi.z)

/-- `p` and `q` differ in exactly one coordinate. -/
def DifferInOneCoordinate (p q : V3) : Prop :=
  (p.x ≠ q.x ∧ p.y = q.y ∧ p.z = q.z) ∨ (p.x = q.x ∧ p.y ≠ q.y ∧ p.z = q.z) ∨
  (p.x = q.x ∧ p.y = q.y ∧ p.z ≠ q.z)

/-- `p` is in the parallelogram spanned by the corner `a` and its neighbours `b` and `c`. -/
def InParallelogram (a b c p : V3) : Prop :=
  ∃ s t : ℝ, 0 ≤ s ∧ s ≤ 1 ∧ 0 ≤ t ∧ t ≤ 1 ∧
    p.x = a.x + s * (b.x - a.x) + t * (c.x - a.x) ∧
    p.y = a.y + s * (b.y - a.y) + t * (c.y - a.y) ∧
    p.z = a.z + s * (b.z - a.z) + t * (c.z - a.z)

end Spec
