import Verif.Spec.Euclid

/-!
# Rigid motions
-/

namespace Spec
open Verif

/-- Rotations about an axis through the origin: linear maps that preserve inner products and determinants. -/
structure IsRotation (R : V3 → V3) : Prop where
  add : ∀ a b, R (a + b) = R a + R b
  smul : ∀ (c : ℝ) a, R (c • a) = c • R a
  inner : ∀ a b, Spec.inner (R a) (R b) = Spec.inner a b
  det : ∀ a b c, Spec.det (R a) (R b) (R c) = Spec.det a b c

/-- A rotation followed by a translation. -/
def move (R : V3 → V3) (t p : V3) : V3 := R p + t

end Spec
