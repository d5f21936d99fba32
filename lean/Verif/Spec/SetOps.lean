import Verif.Spec.Measure
import Mathlib.Order.SymmDiff

/-!
# Equality of sets of points up to volume zero
-/

namespace Spec
open Verif MeasureTheory

/-- Coordinates of the points of a set. -/
def coords (A : Set V3) : Set (Fin 3 → ℝ) := {w | (⟨w 0, w 1, w 2⟩ : V3) ∈ A}

/-- The points that belong to one of the sets only have no volume. -/
def SameUpToVolume (A B : Set V3) : Prop :=
  volume (fun p => (p ∈ A ∧ p ∉ B) ∨ (p ∈ B ∧ p ∉ A)) = 0

end Spec
