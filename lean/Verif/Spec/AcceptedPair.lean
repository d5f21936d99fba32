import Verif.Spec.Constraints
import Verif.Spec.Angle

/-!
# What the constraints mean for two planar entities

In terms of the points of the entities, of their boundaries and of the normals of their planes.
-/

namespace Spec
open Verif

/-- A point is on the boundary (closer than `near`), or not much closer to it than `m`. -/
def OnOrAway (bnd : Set V3) (m near slack : ℝ) (p : V3) : Prop :=
  (∃ q ∈ bnd, dist p q < near) ∨ ∀ q ∈ bnd, m - slack ≤ dist p q

/-- The configured constraints are fulfilled by the entities with the points `A`, `B`, the boundaries `bA`, `bB` and the
normals `n`, `m`, up to the tolerance `eps` of intersections and the tolerances `tA`, `tB` of the boundaries:

* the entities keep the minimum distance, unless they (almost) meet;
* if they meet, their common points are a segment (or a point); the angle between the planes is large enough; the
  segment is long enough; its end points are on the boundaries or far enough from them. -/
structure Fulfilled (c : Constraints.Config) (A B bA bB : Set V3) (n m : V3) (eps tA tB : ℝ) : Prop where
  apart : ∀ d, c.minDistance = some d →
    (∀ p ∈ A, ∀ q ∈ B, d ≤ dist p q) ∨ ∃ p ∈ A, ∃ q ∈ B, dist p q < 2 * eps
  meets : (∃ p, p ∈ A ∧ p ∈ B) → ∃ e f, (∀ p, (p ∈ A ∧ p ∈ B) ↔ OnSegment e f p) ∧
    (∀ t, c.minAngle = some t → ∀ θ, IsPlaneAngle n m θ → t ≤ θ) ∧
    (∀ l, c.minMagnitude = some l → e ≠ f → l - 2 * eps ≤ dist e f) ∧
    ∀ b, c.minBoundaryDistance = some b → ∀ x, x = e ∨ x = f →
      OnOrAway bA b (tA + eps) eps x ∧ OnOrAway bB b (tB + eps) eps x

/-- A point is not on the boundary (not closer than `off`), and closer to it than `m` (up to `slack`). -/
def TooClose (bnd : Set V3) (m off slack : ℝ) (p : V3) : Prop :=
  (∀ q ∈ bnd, off ≤ dist p q) ∧ ∃ q ∈ bnd, dist p q < m + slack

/-- One of the configured constraints is violated, up to the tolerances:

* the entities are closer than the minimum distance (and have at most one common point), or
* they do not meet, but almost do, or
* they meet in a segment (or a point), and the angle between the planes is too small, or the segment is too short, or one
  of its end points is too close to a boundary. -/
def Violated (c : Constraints.Config) (A B bA bB : Set V3) (n m : V3) (eps offA slackA offB slackB : ℝ) : Prop :=
  (∃ d, c.minDistance = some d ∧ (∃ p ∈ A, ∃ q ∈ B, dist p q < d) ∧
    ∀ p q, p ∈ A → p ∈ B → q ∈ A → q ∈ B → p = q) ∨
  ((∀ p ∈ A, p ∉ B) ∧ ∃ p ∈ A, ∃ q ∈ B, dist p q < 2 * eps) ∨
  ∃ e f, (∀ p, (p ∈ A ∧ p ∈ B) ↔ OnSegment e f p) ∧
    ((∃ t, c.minAngle = some t ∧ ∃ θ, IsPlaneAngle n m θ ∧ θ < t) ∨
     (∃ l, c.minMagnitude = some l ∧ dist e f < l) ∨
     ∃ b, c.minBoundaryDistance = some b ∧ ∃ x, (x = e ∨ x = f) ∧
       (TooClose bA b offA slackA x ∨ TooClose bB b offB slackB x))

end Spec
