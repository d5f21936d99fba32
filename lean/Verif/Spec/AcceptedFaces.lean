import Verif.Spec.AcceptedPair

/-!
# What the constraints mean for two plane faces

In terms of the points of the faces, of their boundaries and of the normals of their planes.  Unlike convex figures, two
faces may meet in several segments.
-/

namespace Spec
open Verif

/-- The normals are multiples of each other. -/
def Parallel (n m : V3) : Prop := (∃ k : ℝ, m = k • n) ∨ ∃ k : ℝ, n = k • m

/-- The segments (points are segments without length) are the common points of `A` and `B`: each of their points is common,
and each common point is one of them, or closer than `eps` to one of them. -/
def CommonSegments (A B : Set V3) (eps : ℝ) (segs : List (V3 × V3)) : Prop :=
  (∀ s ∈ segs, ∀ p, OnSegment s.1 s.2 p → p ∈ A ∧ p ∈ B) ∧
  ∀ p, p ∈ A → p ∈ B → ∃ s ∈ segs, ∃ q, OnSegment s.1 s.2 q ∧ dist p q < eps

/-- The configured constraints are fulfilled by the faces with the points `A`, `B`, the boundaries `bA`, `bB` and the
normals `n`, `m`:

* faces that do not meet keep the minimum distance;
* the angle between the planes of faces that meet is large enough;
* unless the planes are parallel, the faces meet in segments (and points) that are long enough, and the end points of
  which are on the boundaries (up to the tolerances `tA`, `tB`) or far enough from them. -/
structure FacesFulfilled (c : Constraints.Config) (A B bA bB : Set V3) (n m : V3) (eps tA tB : ℝ) : Prop where
  apart : ∀ d, c.minDistance = some d → (∀ p ∈ A, p ∉ B) → ∀ p ∈ A, ∀ q ∈ B, d ≤ dist p q
  angle : ∀ t, c.minAngle = some t → (∃ p ∈ A, p ∈ B) → ∀ θ, IsPlaneAngle n m θ → t ≤ θ
  meets : ¬ Parallel n m → ∃ segs, CommonSegments A B eps segs ∧
    (∀ l, c.minMagnitude = some l → ∀ s ∈ segs, s.1 ≠ s.2 → l ≤ dist s.1 s.2) ∧
    ∀ b, c.minBoundaryDistance = some b → ∀ s ∈ segs, ∀ x, x = s.1 ∨ x = s.2 →
      OnOrAway bA b tA 0 x ∧ OnOrAway bB b tB 0 x

end Spec
