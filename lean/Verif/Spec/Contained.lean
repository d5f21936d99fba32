import Verif.Spec.Measure
import Verif.Spec.Distance

/-!
# Parts of a set of points

The length or area of a set of points on a line or in a plane, divided into parts.
-/

namespace Spec
open Verif MeasureTheory

/-- Coordinates of the plane through `c` spanned by `u` and `v`. -/
def planePoint (c u v : V3) (w : Fin 2 → ℝ) : V3 := localPoint c u v (w 0) (w 1)

/-- Coordinates of the line through `a` and `b`. -/
def linePoint (a b : V3) (t : ℝ) : V3 :=
  ⟨(1 - t) * a.x + t * b.x, (1 - t) * a.y + t * b.y, (1 - t) * a.z + t * b.z⟩

/-- Length of a set of points of the line through `a` and `b`. -/
noncomputable def lengthOn (a b : V3) (S : V3 → Prop) : ENNReal :=
  ENNReal.ofReal (dist a b) * MeasureTheory.volume {t : ℝ | S (linePoint a b t)}

/-- Borel sets of points of space. -/
def Borel (S : Set V3) : Prop := MeasurableSet {w : Fin 3 → ℝ | (⟨w 0, w 1, w 2⟩ : V3) ∈ S}

/-- The parts belong to `S`, they overlap at most in sets of measure zero, and together they leave out at
most a set of measure zero of `S`.  The measure is the one of the coordinates `φ`. -/
structure Parts {X : Type} [MeasureSpace X] (φ : X → V3) (S : Set V3) (parts : List (Set V3)) : Prop where
  borel : ∀ P ∈ parts, Borel P
  inside : ∀ P ∈ parts, P ⊆ S
  apart : parts.Pairwise fun P Q => MeasureTheory.volume (φ ⁻¹' (P ∩ Q)) = 0
  whole : MeasureTheory.volume (φ ⁻¹' {p | p ∈ S ∧ ∀ P ∈ parts, p ∉ P}) = 0

end Spec
