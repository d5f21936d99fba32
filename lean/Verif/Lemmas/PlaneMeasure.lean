import Verif.Lemmas.Measure

/-!
# Planes have no volume
-/

namespace Lemmas
open Verif MeasureTheory

/-- Planes have measure zero. -/
theorem volume_plane (a b c d : ℝ) (h : a ^ 2 + b ^ 2 + c ^ 2 ≠ 0) :
    MeasureTheory.volume {w : Fin 3 → ℝ | a * w 0 + b * w 1 + c * w 2 = d} = 0 := by
  rcases Set.eq_empty_or_nonempty {w : Fin 3 → ℝ | a * w 0 + b * w 1 + c * w 2 = d} with he | ⟨q, hq⟩
  · rw [he, measure_empty]
  set φ : (Fin 3 → ℝ) →ₗ[ℝ] ℝ := a • LinearMap.proj 0 + b • LinearMap.proj 1 + c • LinearMap.proj 2 with hφ
  have hφa : ∀ w, φ w = a * w 0 + b * w 1 + c * w 2 := by
    intro w; simp [hφ]
  have e : {w : Fin 3 → ℝ | a * w 0 + b * w 1 + c * w 2 = d} =
      (fun w => w + (-q)) ⁻¹' (LinearMap.ker φ : Set (Fin 3 → ℝ)) := by
    ext w
    have hq' : a * q 0 + b * q 1 + c * q 2 = d := hq
    simp only [Set.mem_ofPred_eq, Set.mem_preimage, SetLike.mem_coe, LinearMap.mem_ker, hφa, Pi.add_apply,
      Pi.neg_apply]
    constructor
    · intro h; linarith
    · intro h; linarith
  rw [e, measure_preimage_add_right]
  apply Measure.addHaar_submodule
  intro htop
  have h1 : φ ![a, b, c] = 0 := by
    rw [← LinearMap.mem_ker, htop]; trivial
  rw [hφa] at h1
  simp at h1
  exact h (by linarith)

end Lemmas
