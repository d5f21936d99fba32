import Verif.Spec.Euclid

/-!
# The boundary of a plane face

In terms of the points of the face only.
-/

namespace Spec
open Verif

/-- The points of the boundary of a face in a plane with normal `n`: points of the face with points of the plane beside the
face in every neighbourhood. -/
def FaceBoundary (A : Set V3) (n : V3) : Set V3 :=
  {p | p ∈ A ∧ ∀ r, 0 < r → ∃ q, OnPlane p n q ∧ dist p q < r ∧ q ∉ A}

end Spec
