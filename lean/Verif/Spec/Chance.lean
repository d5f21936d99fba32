import Verif.Spec.Measure

/-!
# Uniform distributions
-/

namespace Spec
open Verif MeasureTheory

/-- Probability of an event for three independent values drawn from the uniform distributions on the
intervals `[lo i, hi i]`. -/
noncomputable def drawChance (lo hi : Fin 3 → ℝ) (E : ℝ → ℝ → ℝ → Prop) : ENNReal :=
  MeasureTheory.volume {w : Fin 3 → ℝ | (∀ i, lo i ≤ w i ∧ w i ≤ hi i) ∧ E (w 0) (w 1) (w 2)}
    / MeasureTheory.volume {w : Fin 3 → ℝ | ∀ i, lo i ≤ w i ∧ w i ≤ hi i}

/-- Probability that a point which is uniformly distributed in `D` is in `S`. -/
noncomputable def uniformChance (D S : V3 → Prop) : ENNReal :=
  volume (fun p => D p ∧ S p) / volume D

/-- Sets of points which have a volume. -/
def Measurable (S : V3 → Prop) : Prop := MeasurableSet {w : Fin 3 → ℝ | S ⟨w 0, w 1, w 2⟩}

end Spec
