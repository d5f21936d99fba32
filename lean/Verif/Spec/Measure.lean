import Verif.Spec.Euclid
import Verif.Spec.Elliptical
import Mathlib.MeasureTheory.Measure.Lebesgue.EqHaar
import Mathlib.MeasureTheory.Integral.IntervalIntegral.Basic
import Mathlib.Analysis.Calculus.Deriv.Basic

/-!
# Length, area and volume

Volumes and areas are Lebesgue measures of sets of points, lengths of curves are integrals of the
speed, areas of curved surfaces integrals of the area element.
-/

namespace Spec
open Verif MeasureTheory

/-- Lebesgue measure of a set of points of space. -/
noncomputable def volume (S : V3 → Prop) : ENNReal :=
  MeasureTheory.volume {w : Fin 3 → ℝ | S ⟨w 0, w 1, w 2⟩}

/-- Lebesgue measure of a part of the plane through `c` spanned by the orthonormal vectors `u`, `v`. -/
noncomputable def area (c u v : V3) (S : V3 → Prop) : ENNReal :=
  MeasureTheory.volume {w : Fin 2 → ℝ | S (localPoint c u v (w 0) (w 1))}

/-- Componentwise derivative of a curve. -/
noncomputable def velocity (γ : ℝ → V3) (t : ℝ) : V3 :=
  ⟨deriv (fun s => (γ s).x) t, deriv (fun s => (γ s).y) t, deriv (fun s => (γ s).z) t⟩

/-- Length of the curve `γ` between the parameters `a` and `b`. -/
noncomputable def curveLength (γ : ℝ → V3) (a b : ℝ) : ℝ :=
  ∫ t in a..b, norm (velocity γ t)

/-- Vector product, in coordinates. -/
def vprod (a b : V3) : V3 :=
  ⟨a.y * b.z - a.z * b.y, a.z * b.x - a.x * b.z, a.x * b.y - a.y * b.x⟩

/-- Area of the surface parametrised by `σ` on `[a, b] × [c, d]`. -/
noncomputable def surfaceArea (σ : ℝ → ℝ → V3) (a b c d : ℝ) : ℝ :=
  ∫ s in a..b, ∫ t in c..d,
    norm (vprod (velocity (fun s' => σ s' t) s) (velocity (fun t' => σ s t') t))

end Spec
