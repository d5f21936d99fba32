import Verif.Spec.Euclid

/-!
# The domain of example 4

A layer of 40 m around the plane z = 0, within 25 m of the origin, without the tunnel of radius 5 m along the x-axis.
-/

namespace Spec
open Verif

/-- Points of the domain. -/
def InTunnelDomain (p : V3) : Prop :=
  p.x ^ 2 + p.y ^ 2 + p.z ^ 2 ≤ 25 ^ 2 ∧ (-20 ≤ p.z ∧ p.z ≤ 20) ∧ 5 ^ 2 ≤ p.y ^ 2 + p.z ^ 2

/-- Points inside of the domain, not on its boundary. -/
def InsideTunnelDomain (p : V3) : Prop :=
  p.x ^ 2 + p.y ^ 2 + p.z ^ 2 < 25 ^ 2 ∧ (-20 < p.z ∧ p.z < 20) ∧ 5 ^ 2 < p.y ^ 2 + p.z ^ 2

/-- The wall of the tunnel. -/
def OnTunnelWall (p : V3) : Prop := (-25 ≤ p.x ∧ p.x ≤ 25) ∧ p.y ^ 2 + p.z ^ 2 = 5 ^ 2

/-- `p` is inside of `A`, with a ball around it. -/
def Inside (A : Set V3) (p : V3) : Prop := ∃ r, 0 < r ∧ ∀ q, dist p q < r → q ∈ A

/-- `p` is a corner of `A`: a point of it that is not between two others. -/
def IsCornerOf (A : Set V3) (p : V3) : Prop := p ∈ A ∧ ∀ a ∈ A, ∀ b ∈ A, OnSegment a b p → p = a ∨ p = b

/-- `F` is the part of `A` in the domain (the boundary of the domain may be missing). -/
def PartInDomain (A F : Set V3) : Prop :=
  (∀ p ∈ F, p ∈ A ∧ InTunnelDomain p) ∧ ∀ p ∈ A, InsideTunnelDomain p → p ∈ F

end Spec
