import Verif.Spec.Euclid
import Verif.Spec.Planar

/-!
# Specification: the tolerance of a containment query as a distance
-/

namespace Spec
open Verif

/-- `p` is closer than `eps` to the figure `S`. -/
def Within (S : V3 → Prop) (eps : ℝ) (p : V3) : Prop := ∃ q, S q ∧ dist p q < eps

/-- The tolerance of the containment query is a distance (up to a factor of three): all points closer
than the tolerance to the figure are contained, and contained points are closer to the figure than
three times the tolerance. -/
def TolIsDistance (contains : V3 → ℝ → Prop) (S : V3 → Prop) : Prop :=
  ∀ (p : V3) (eps : ℝ), 0 < eps →
    (Within S eps p → contains p eps) ∧ (contains p eps → Within S (3 * eps) p)

/-- Some point closer than the tolerance to the figure is not contained. -/
def Misses (contains : V3 → ℝ → Prop) (S : V3 → Prop) : Prop :=
  ∃ (p : V3) (eps : ℝ), 0 < eps ∧ Within S eps p ∧ ¬ contains p eps

/-- Some contained point is further away from the figure than three times the tolerance. -/
def Overreaches (contains : V3 → ℝ → Prop) (S : V3 → Prop) : Prop :=
  ∃ (p : V3) (eps : ℝ), 0 < eps ∧ contains p eps ∧ ¬ Within S (3 * eps) p

/-- The length of the boundary of the polygon with the given corners. -/
noncomputable def perimeter (cs : List V3) : ℝ := ((polyEdges cs).map fun e => dist e.1 e.2).sum

end Spec
