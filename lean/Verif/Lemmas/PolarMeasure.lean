import Mathlib.MeasureTheory.Function.Jacobian
import Mathlib.MeasureTheory.Measure.Lebesgue.EqHaar
import Mathlib.Analysis.SpecialFunctions.Sqrt
import Mathlib.Analysis.SpecialFunctions.Trigonometric.Deriv
import Mathlib.Analysis.SpecialFunctions.Complex.Arg
import Mathlib.LinearAlgebra.Matrix.Determinant.Basic
import Mathlib.MeasureTheory.Function.SpecialFunctions.Basic

/-!
# Cylindrical coordinates with the squared radius

The map from angle, height and squared radius to Cartesian coordinates halves volumes.
-/

namespace Lemmas
open MeasureTheory

/-- Point with angle `w 0`, height `w 1` and squared radius `w 2`. -/
noncomputable def polarMap (w : Fin 3 → ℝ) : Fin 3 → ℝ :=
  ![Real.sqrt (w 2) * Real.cos (w 0), Real.sqrt (w 2) * Real.sin (w 0), w 1]

noncomputable def polarMatrix (w : Fin 3 → ℝ) : Matrix (Fin 3) (Fin 3) ℝ :=
  !![-(Real.sqrt (w 2) * Real.sin (w 0)), 0, Real.cos (w 0) / (2 * Real.sqrt (w 2));
     Real.sqrt (w 2) * Real.cos (w 0), 0, Real.sin (w 0) / (2 * Real.sqrt (w 2));
     0, 1, 0]

noncomputable def polarDeriv (w : Fin 3 → ℝ) : (Fin 3 → ℝ) →L[ℝ] (Fin 3 → ℝ) :=
  LinearMap.toContinuousLinearMap (Matrix.toLin' (polarMatrix w))

theorem polarDeriv_det (w : Fin 3 → ℝ) (hw : 0 < w 2) : |(polarDeriv w).det| = 1 / 2 := by
  have hs := Real.sqrt_pos.2 hw
  unfold polarDeriv
  rw [LinearMap.det_toContinuousLinearMap, LinearMap.det_toLin', Matrix.det_fin_three]
  simp only [polarMatrix, Matrix.of_apply, Matrix.cons_val', Matrix.cons_val_zero, Matrix.cons_val_one,
    Matrix.cons_val]
  have : -(Real.sqrt (w 2) * Real.sin (w 0)) * 0 * 0
      - -(Real.sqrt (w 2) * Real.sin (w 0)) * (Real.sin (w 0) / (2 * Real.sqrt (w 2))) * 1
      - 0 * (Real.sqrt (w 2) * Real.cos (w 0)) * 0
      + 0 * (Real.sin (w 0) / (2 * Real.sqrt (w 2))) * 0
      + Real.cos (w 0) / (2 * Real.sqrt (w 2)) * (Real.sqrt (w 2) * Real.cos (w 0)) * 1
      - Real.cos (w 0) / (2 * Real.sqrt (w 2)) * 0 * 0 = 1 / 2 := by
    have h := Real.sin_sq_add_cos_sq (w 0)
    have h1 : ∀ x : ℝ, Real.sqrt (w 2) * x * (x / (2 * Real.sqrt (w 2))) = x ^ 2 / 2 := by
      intro x; field_simp
    have h2 := h1 (Real.sin (w 0))
    have h3 := h1 (Real.cos (w 0))
    linarith
  rw [this]; norm_num

theorem polarMap_hasFDerivAt (w : Fin 3 → ℝ) (hw : 0 < w 2) :
    HasFDerivAt polarMap (polarDeriv w) w := by
  have h0 : HasFDerivAt (fun w : Fin 3 → ℝ => w 0) (ContinuousLinearMap.proj (R := ℝ) 0) w :=
    hasFDerivAt_apply 0 w
  have h1 : HasFDerivAt (fun w : Fin 3 → ℝ => w 1) (ContinuousLinearMap.proj (R := ℝ) 1) w :=
    hasFDerivAt_apply 1 w
  have h2 : HasFDerivAt (fun w : Fin 3 → ℝ => w 2) (ContinuousLinearMap.proj (R := ℝ) 2) w :=
    hasFDerivAt_apply 2 w
  have hs := h2.sqrt hw.ne'
  rw [hasFDerivAt_pi']
  intro i
  fin_cases i
  · refine (hs.mul h0.cos).congr_fderiv ?_
    ext v
    simp [polarDeriv, polarMatrix, Matrix.toLin'_apply, Fin.sum_univ_three, dotProduct]
    ring
  · refine (hs.mul h0.sin).congr_fderiv ?_
    ext v
    simp [polarDeriv, polarMatrix, Matrix.toLin'_apply, Fin.sum_univ_three, dotProduct]
    ring
  · refine h1.congr_fderiv ?_
    ext v
    simp [polarDeriv, polarMatrix, Matrix.toLin'_apply, Fin.sum_univ_three, dotProduct]

theorem measurable_polarMap : Measurable polarMap := by
  unfold polarMap
  refine measurable_pi_iff.2 fun i => ?_
  fin_cases i
  · exact ((Real.continuous_sqrt.comp (continuous_apply 2)).mul
      (Real.continuous_cos.comp (continuous_apply 0))).measurable
  · exact ((Real.continuous_sqrt.comp (continuous_apply 2)).mul
      (Real.continuous_sin.comp (continuous_apply 0))).measurable
  · exact measurable_pi_apply 1

theorem polarMap_sq (w : Fin 3 → ℝ) (hw : 0 ≤ w 2) : (polarMap w 0) ^ 2 + (polarMap w 1) ^ 2 = w 2 := by
  simp only [polarMap, Matrix.cons_val_zero, Matrix.cons_val_one]
  have h := Real.sin_sq_add_cos_sq (w 0)
  have hs := Real.sq_sqrt hw
  calc _ = (Real.sqrt (w 2)) ^ 2 * (Real.sin (w 0) ^ 2 + Real.cos (w 0) ^ 2) := by ring
    _ = w 2 := by rw [h, hs, mul_one]

theorem polarMap_injOn : Set.InjOn polarMap {w | 0 < w 0 ∧ w 0 < 2 * Real.pi ∧ 0 < w 2} := by
  intro w hw v hv h
  obtain ⟨w1, w2, w3⟩ := hw
  obtain ⟨v1, v2, v3⟩ := hv
  have h2 : w 2 = v 2 := by rw [← polarMap_sq w w3.le, ← polarMap_sq v v3.le, h]
  have h1 : w 1 = v 1 := congrFun h 2
  have hs := Real.sqrt_pos.2 v3
  have hc : Real.cos (w 0) = Real.cos (v 0) := by
    have := congrFun h 0
    simp only [polarMap, Matrix.cons_val_zero] at this
    rw [h2] at this
    exact mul_left_cancel₀ hs.ne' this
  have hsn : Real.sin (w 0) = Real.sin (v 0) := by
    have := congrFun h 1
    simp only [polarMap, Matrix.cons_val_one, Matrix.cons_val_zero] at this
    rw [h2] at this
    exact mul_left_cancel₀ hs.ne' this
  have h0 : w 0 - v 0 = 0 := by
    rw [← Real.cos_eq_one_iff_of_lt_of_lt (by linarith) (by linarith), Real.cos_sub, hc, hsn]
    have := Real.sin_sq_add_cos_sq (v 0)
    nlinarith
  ext i
  fin_cases i
  · exact sub_eq_zero.1 h0
  · exact h1
  · exact h2

theorem polarMap_surj (v : Fin 3 → ℝ) (hv : ¬ (v 1 = 0 ∧ 0 ≤ v 0)) :
    ∃ w, 0 < w 0 ∧ w 0 < 2 * Real.pi ∧ 0 < w 2 ∧ polarMap w = v := by
  set z : ℂ := ⟨v 0, v 1⟩ with hz
  have hzne : z ≠ 0 := by
    intro e
    apply hv
    have h0 := congrArg Complex.re e
    have h1 := congrArg Complex.im e
    simp only [hz, Complex.zero_re, Complex.zero_im] at h0 h1
    exact ⟨h1, h0.ge⟩
  have hnorm : 0 < ‖z‖ := norm_pos_iff.2 hzne
  have hre : ‖z‖ * Real.cos (Complex.arg z) = v 0 := by rw [Complex.norm_mul_cos_arg]
  have him : ‖z‖ * Real.sin (Complex.arg z) = v 1 := by rw [Complex.norm_mul_sin_arg]
  have hpi := Real.pi_pos
  have hne : Complex.arg z ≠ 0 := by
    intro e
    rw [e] at hre him
    simp only [Real.cos_zero, Real.sin_zero, mul_one, mul_zero] at hre him
    exact hv ⟨him.symm, by rw [← hre]; exact hnorm.le⟩
  have hlo := Complex.neg_pi_lt_arg z
  have hhi := Complex.arg_le_pi z
  have key : ∀ t, 0 < t → t < 2 * Real.pi → Real.cos t = Real.cos (Complex.arg z) →
      Real.sin t = Real.sin (Complex.arg z) →
      ∃ w : Fin 3 → ℝ, 0 < w 0 ∧ w 0 < 2 * Real.pi ∧ 0 < w 2 ∧ polarMap w = v := by
    intro t t1 t2 tc ts
    refine ⟨![t, v 2, ‖z‖ ^ 2], t1, t2, by show 0 < ‖z‖ ^ 2; positivity, ?_⟩
    ext i
    fin_cases i
    · show Real.sqrt (‖z‖ ^ 2) * Real.cos t = v 0
      rw [Real.sqrt_sq hnorm.le, tc, hre]
    · show Real.sqrt (‖z‖ ^ 2) * Real.sin t = v 1
      rw [Real.sqrt_sq hnorm.le, ts, him]
    · rfl
  rcases lt_or_gt_of_ne hne with h | h
  · exact key (Complex.arg z + 2 * Real.pi) (by linarith) (by linarith) (Real.cos_add_two_pi _)
      (Real.sin_add_two_pi _)
  · exact key (Complex.arg z) h (by linarith) rfl rfl

theorem volume_hyperplane (i : Fin 3) (c : ℝ) : volume {w : Fin 3 → ℝ | w i = c} = 0 :=
  Measure.pi_hyperplane (fun _ : Fin 3 => (volume : Measure ℝ)) i c

/-- Cylindrical coordinates with the squared radius as coordinate: every measurable set of points
between two radii and two heights has half the volume of the set of its coordinates. -/
theorem volume_polar (T : Set (Fin 3 → ℝ)) (hT : MeasurableSet T) (a b H : ℝ) (ha : 0 ≤ a) :
    volume {w : Fin 3 → ℝ | (0 ≤ w 0 ∧ w 0 ≤ 2 * Real.pi) ∧ (0 ≤ w 1 ∧ w 1 ≤ H) ∧
        (a ≤ w 2 ∧ w 2 ≤ b) ∧ polarMap w ∈ T}
      = 2 * volume {v : Fin 3 → ℝ | (0 ≤ v 2 ∧ v 2 ≤ H) ∧
        (a ≤ v 0 ^ 2 + v 1 ^ 2 ∧ v 0 ^ 2 + v 1 ^ 2 ≤ b) ∧ v ∈ T} := by
  have m : ∀ i : Fin 3, Measurable fun w : Fin 3 → ℝ => w i := fun i => measurable_pi_apply i
  set L := {w : Fin 3 → ℝ | (0 ≤ w 0 ∧ w 0 ≤ 2 * Real.pi) ∧ (0 ≤ w 1 ∧ w 1 ≤ H) ∧
        (a ≤ w 2 ∧ w 2 ≤ b) ∧ polarMap w ∈ T} with hL
  set R := {v : Fin 3 → ℝ | (0 ≤ v 2 ∧ v 2 ≤ H) ∧
        (a ≤ v 0 ^ 2 + v 1 ^ 2 ∧ v 0 ^ 2 + v 1 ^ 2 ≤ b) ∧ v ∈ T} with hR
  set I := {w : Fin 3 → ℝ | 0 < w 0 ∧ w 0 < 2 * Real.pi ∧ 0 < w 2} with hI
  have mL : MeasurableSet L := by
    refine MeasurableSet.inter ?_ (MeasurableSet.inter ?_ (MeasurableSet.inter ?_ ?_))
    · exact (measurableSet_le measurable_const (m 0)).inter (measurableSet_le (m 0) measurable_const)
    · exact (measurableSet_le measurable_const (m 1)).inter (measurableSet_le (m 1) measurable_const)
    · exact (measurableSet_le measurable_const (m 2)).inter (measurableSet_le (m 2) measurable_const)
    · exact measurable_polarMap hT
  have mI : MeasurableSet I :=
    (measurableSet_lt measurable_const (m 0)).inter
      ((measurableSet_lt (m 0) measurable_const).inter (measurableSet_lt measurable_const (m 2)))
  have e1 : volume L = volume (L ∩ I) := by
    refine le_antisymm ?_ (measure_mono Set.inter_subset_left)
    have hsub : L ⊆ (L ∩ I) ∪ (({w | w 0 = 0} ∪ {w | w 0 = 2 * Real.pi}) ∪ {w | w 2 = 0}) := by
      intro w hw
      by_cases hi : w ∈ I
      · exact .inl ⟨hw, hi⟩
      · right
        obtain ⟨⟨h1, h2⟩, _, ⟨h3, _⟩, _⟩ := hw
        by_contra hcon
        simp only [Set.mem_union, Set.mem_ofPred_eq, not_or] at hcon
        exact hi ⟨lt_of_le_of_ne h1 (Ne.symm hcon.1.1), lt_of_le_of_ne h2 hcon.1.2,
          lt_of_le_of_ne (ha.trans h3) (Ne.symm hcon.2)⟩
    refine (measure_mono hsub).trans ((measure_union_le _ _).trans ?_)
    rw [measure_union_null (measure_union_null (volume_hyperplane 0 0) (volume_hyperplane 0 _))
      (volume_hyperplane 2 0), add_zero]
  have e2 : polarMap '' (L ∩ I) = R \ {v | v 1 = 0 ∧ 0 ≤ v 0} := by
    ext v
    constructor
    · rintro ⟨w, ⟨⟨h0, h1, h2, hT'⟩, hi⟩, rfl⟩
      have hsq := polarMap_sq w hi.2.2.le
      refine ⟨⟨h1, by rw [hsq]; exact h2, hT'⟩, ?_⟩
      rintro ⟨hy, hx⟩
      have hs := Real.sqrt_pos.2 hi.2.2
      simp only [polarMap, Matrix.cons_val_one, Matrix.cons_val_zero] at hy hx
      have hsin : Real.sin (w 0) = 0 := by
        rcases mul_eq_zero.1 hy with h | h
        · exact absurd h hs.ne'
        · exact h
      have hpos : 0 ≤ Real.cos (w 0) := by
        by_contra hc
        push Not at hc
        exact absurd hx (not_le.2 (mul_neg_of_pos_of_neg hs hc))
      have hcos : Real.cos (w 0) = 1 := by
        have := Real.sin_sq_add_cos_sq (w 0)
        rw [hsin] at this
        nlinarith
      have := (Real.cos_eq_one_iff_of_lt_of_lt (by have := hi.1; have := Real.pi_pos; linarith) hi.2.1).1 hcos
      exact absurd this hi.1.ne'
    · rintro ⟨⟨h1, h2, h3⟩, hn⟩
      obtain ⟨w, w0, w1, w2, rfl⟩ := polarMap_surj v hn
      rw [polarMap_sq w w2.le] at h2
      exact ⟨w, ⟨⟨⟨w0.le, w1.le⟩, h1, h2, h3⟩, w0, w1, w2⟩, rfl⟩
  have e3 : volume (R \ {v : Fin 3 → ℝ | v 1 = 0 ∧ 0 ≤ v 0}) = volume R := by
    refine measure_sdiff_null ?_
    exact measure_mono_null (fun v hv => hv.1) (volume_hyperplane 1 0)
  have e4 := lintegral_abs_det_fderiv_eq_addHaar_image (volume : Measure (Fin 3 → ℝ))
    (f := polarMap) (f' := polarDeriv) (mL.inter mI)
    (fun w hw => (polarMap_hasFDerivAt w hw.2.2.2).hasFDerivWithinAt)
    (polarMap_injOn.mono (fun w hw => hw.2))
  rw [e2, e3] at e4
  rw [← e4, e1, setLIntegral_congr_fun (g := fun _ => ENNReal.ofReal (1 / 2)) (mL.inter mI)
    (fun w hw => by simp only; rw [polarDeriv_det w hw.2.2.2]), setLIntegral_const, ← mul_assoc]
  rw [show (2 : ENNReal) * ENNReal.ofReal (1 / 2) = 1 by
    rw [show (2 : ENNReal) = ENNReal.ofReal 2 by simp, ← ENNReal.ofReal_mul (by norm_num)]
    norm_num, one_mul]

end Lemmas
