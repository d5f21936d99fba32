import Verif.Spec.Measure
import Verif.Spec.Box
import Verif.Spec.Planar
import Mathlib.MeasureTheory.Measure.Lebesgue.VolumeOfBalls
import Mathlib.LinearAlgebra.Matrix.Determinant.Basic
import Mathlib.MeasureTheory.Measure.Lebesgue.Integral
import Mathlib.Analysis.SpecialFunctions.Integrals.Basic

/-!
# Lebesgue measure of elementary figures
-/

namespace Lemmas
open Verif MeasureTheory

/-- The matrix with columns `u`, `v`, `n`. -/
def frameMatrix (u v n : V3) : Matrix (Fin 3) (Fin 3) ℝ :=
  !![u.x, v.x, n.x; u.y, v.y, n.y; u.z, v.z, n.z]

theorem det_frameMatrix (u v n : V3) : (frameMatrix u v n).det = Spec.det u v n := by
  rw [Matrix.det_fin_three]
  simp [frameMatrix, Spec.det]
  ring

/-- Volumes can be computed in the coordinates of any right-handed orthonormal frame. -/
theorem volume_frame (S : V3 → Prop) (c u v n : V3) (h : Spec.RightHandedOrthonormal u v n) :
    Spec.volume S = MeasureTheory.volume
      {w : Fin 3 → ℝ | S (c + w 0 • u + w 1 • v + w 2 • n)} := by
  set L : (Fin 3 → ℝ) →ₗ[ℝ] (Fin 3 → ℝ) := Matrix.toLin' (frameMatrix u v n) with hL
  have hdet : LinearMap.det L = 1 := by
    rw [hL, LinearMap.det_toLin', det_frameMatrix]; exact h.2.2.2.2.2.2
  set A : Set (Fin 3 → ℝ) := {w | S ⟨w 0, w 1, w 2⟩} with hA
  set B : Set (Fin 3 → ℝ) := (fun w => ![c.x, c.y, c.z] + w) ⁻¹' A with hB
  have e1 : {w : Fin 3 → ℝ | S (c + w 0 • u + w 1 • v + w 2 • n)} = L ⁻¹' B := by
    ext w
    simp only [Set.mem_ofPred_eq, Set.mem_preimage, hB, hA]
    have : c + w 0 • u + w 1 • v + w 2 • n
        = ⟨(![c.x, c.y, c.z] + L w) 0, (![c.x, c.y, c.z] + L w) 1,
            (![c.x, c.y, c.z] + L w) 2⟩ := by
      ext <;> simp [hL, Matrix.toLin'_apply, dotProduct, Fin.sum_univ_three,
        frameMatrix] <;> ring
    rw [this]
  rw [e1, Measure.addHaar_preimage_linearMap _ (by rw [hdet]; exact one_ne_zero), hdet]
  simp only [inv_one, abs_one, ENNReal.ofReal_one, one_mul]
  rw [hB, measure_preimage_add]
  rfl

/-- Area of the unit disk scaled by `a` and `b`. -/
theorem volume_ellipse (a b : ℝ) (ha : 0 < a) (hb : 0 < b) :
    MeasureTheory.volume {w : Fin 2 → ℝ | (w 0 / a) ^ 2 + (w 1 / b) ^ 2 ≤ 1}
      = ENNReal.ofReal (Real.pi * a * b) := by
  have hunit : MeasureTheory.volume {w : Fin 2 → ℝ | w 0 ^ 2 + w 1 ^ 2 ≤ 1}
      = ENNReal.ofReal Real.pi := by
    have hm := (PiLp.volume_preserving_ofLp (Fin 2))
    have hS : MeasurableSet {w : Fin 2 → ℝ | w 0 ^ 2 + w 1 ^ 2 ≤ 1} := by
      apply measurableSet_le <;> fun_prop
    rw [← hm.measure_preimage hS.nullMeasurableSet]
    have : (WithLp.ofLp (p := 2) ⁻¹' {w : Fin 2 → ℝ | w 0 ^ 2 + w 1 ^ 2 ≤ 1})
        = Metric.closedBall (0 : EuclideanSpace ℝ (Fin 2)) 1 := by
      ext w
      simp [EuclideanSpace.norm_eq, Real.sqrt_le_one]
    rw [this, EuclideanSpace.volume_closedBall_fin_two]
    simp
  set L : (Fin 2 → ℝ) →ₗ[ℝ] (Fin 2 → ℝ) := Matrix.toLin' !![1 / a, 0; 0, 1 / b] with hL
  have hdet : LinearMap.det L = 1 / (a * b) := by
    rw [hL, LinearMap.det_toLin', Matrix.det_fin_two]
    simp; ring
  have e1 : {w : Fin 2 → ℝ | (w 0 / a) ^ 2 + (w 1 / b) ^ 2 ≤ 1}
      = L ⁻¹' {w : Fin 2 → ℝ | w 0 ^ 2 + w 1 ^ 2 ≤ 1} := by
    ext w
    simp only [Set.mem_ofPred_eq, Set.mem_preimage]
    have h0 : L w 0 = w 0 / a := by
      simp [hL, Matrix.toLin'_apply, Matrix.mulVec, dotProduct, Fin.sum_univ_two]; ring
    have h1 : L w 1 = w 1 / b := by
      simp [hL, Matrix.toLin'_apply, Matrix.mulVec, dotProduct, Fin.sum_univ_two]; ring
    rw [h0, h1]
  rw [e1, Measure.addHaar_preimage_linearMap _ (by rw [hdet]; positivity), hdet, hunit,
    ← ENNReal.ofReal_mul (abs_nonneg _)]
  congr 1
  rw [one_div, inv_inv, abs_of_pos (by positivity)]
  ring

theorem volume_disk (r : ℝ) (hr : 0 ≤ r) :
    MeasureTheory.volume {w : Fin 2 → ℝ | w 0 ^ 2 + w 1 ^ 2 ≤ r ^ 2}
      = ENNReal.ofReal (Real.pi * r * r) := by
  have hm := (PiLp.volume_preserving_ofLp (Fin 2))
  have hS : MeasurableSet {w : Fin 2 → ℝ | w 0 ^ 2 + w 1 ^ 2 ≤ r ^ 2} := by
    apply measurableSet_le <;> fun_prop
  rw [← hm.measure_preimage hS.nullMeasurableSet]
  have : (WithLp.ofLp (p := 2) ⁻¹' {w : Fin 2 → ℝ | w 0 ^ 2 + w 1 ^ 2 ≤ r ^ 2})
      = Metric.closedBall (0 : EuclideanSpace ℝ (Fin 2)) r := by
    ext w
    simp [EuclideanSpace.norm_eq, Real.sqrt_le_left, hr]
  rw [this, EuclideanSpace.volume_closedBall_fin_two, ← ENNReal.ofReal_pow hr,
    ← ENNReal.ofReal_mul (by positivity)]
  congr 1; ring

theorem volume_open_disk (r : ℝ) (hr : 0 ≤ r) :
    MeasureTheory.volume {w : Fin 2 → ℝ | w 0 ^ 2 + w 1 ^ 2 < r ^ 2}
      = ENNReal.ofReal (Real.pi * r * r) := by
  have hm := (PiLp.volume_preserving_ofLp (Fin 2))
  have hS : MeasurableSet {w : Fin 2 → ℝ | w 0 ^ 2 + w 1 ^ 2 < r ^ 2} := by
    apply measurableSet_lt <;> fun_prop
  rw [← hm.measure_preimage hS.nullMeasurableSet]
  have : (WithLp.ofLp (p := 2) ⁻¹' {w : Fin 2 → ℝ | w 0 ^ 2 + w 1 ^ 2 < r ^ 2})
      = Metric.ball (0 : EuclideanSpace ℝ (Fin 2)) r := by
    ext w
    simp only [Set.mem_preimage, Set.mem_ofPred_eq, Metric.mem_ball, dist_zero_right,
      EuclideanSpace.norm_eq, Fin.sum_univ_two, Real.norm_eq_abs, sq_abs]
    rw [Real.sqrt_lt (by positivity) hr]
  rw [this, EuclideanSpace.volume_ball_fin_two, ← ENNReal.ofReal_pow hr,
    ← ENNReal.ofReal_mul (by positivity)]
  congr 1; ring

theorem volume_ball (c : V3) (r : ℝ) (hr : 0 ≤ r) :
    Spec.volume (fun p => Spec.dist p c ≤ r) = ENNReal.ofReal (4 / 3 * Real.pi * r ^ 3) := by
  unfold Spec.volume
  have hm := (PiLp.volume_preserving_ofLp (Fin 3))
  have hS : MeasurableSet {w : Fin 3 → ℝ | Spec.dist ⟨w 0, w 1, w 2⟩ c ≤ r} := by
    unfold Spec.dist
    apply measurableSet_le <;> fun_prop
  rw [← hm.measure_preimage hS.nullMeasurableSet]
  have : (WithLp.ofLp (p := 2) ⁻¹' {w : Fin 3 → ℝ | Spec.dist ⟨w 0, w 1, w 2⟩ c ≤ r})
      = Metric.closedBall (!₂[c.x, c.y, c.z] : EuclideanSpace ℝ (Fin 3)) r := by
    ext w
    simp [EuclideanSpace.dist_eq, Spec.dist, Fin.sum_univ_three, Real.dist_eq, sq_abs]
  rw [this, EuclideanSpace.volume_closedBall_fin_three, ← ENNReal.ofReal_pow hr,
    ← ENNReal.ofReal_mul (by positivity)]
  congr 1; ring

theorem volume_box (lo hi : V3) (hx : lo.x ≤ hi.x) (hy : lo.y ≤ hi.y) :
    Spec.volume (Spec.InBox lo hi)
      = ENNReal.ofReal ((hi.x - lo.x) * (hi.y - lo.y) * (hi.z - lo.z)) := by
  unfold Spec.volume
  have : {w : Fin 3 → ℝ | Spec.InBox lo hi ⟨w 0, w 1, w 2⟩}
      = Set.Icc ![lo.x, lo.y, lo.z] ![hi.x, hi.y, hi.z] := by
    ext w
    simp only [Spec.InBox, Set.mem_ofPred_eq, Set.mem_Icc, Pi.le_def, Fin.forall_fin_succ]
    simp
    tauto
  rw [this, Real.volume_Icc_pi, Fin.prod_univ_three]
  simp only [Matrix.cons_val_zero, Matrix.cons_val_one, Matrix.cons_val]
  rw [ENNReal.ofReal_mul (mul_nonneg (by linarith) (by linarith)), ENNReal.ofReal_mul (by linarith)]

/-- Volume of a prism over a planar base. -/
theorem volume_prism (B : Set (Fin 2 → ℝ)) (h : ℝ) :
    MeasureTheory.volume {w : Fin 3 → ℝ | ![w 0, w 1] ∈ B ∧ 0 ≤ w 2 ∧ w 2 ≤ h}
      = MeasureTheory.volume B * ENNReal.ofReal h := by
  have hm := volume_preserving_piFinSuccAbove (fun _ : Fin 3 => ℝ) 2
  have : {w : Fin 3 → ℝ | ![w 0, w 1] ∈ B ∧ 0 ≤ w 2 ∧ w 2 ≤ h}
      = (MeasurableEquiv.piFinSuccAbove (fun _ : Fin 3 => ℝ) 2) ⁻¹' (Set.Icc 0 h ×ˢ B) := by
    ext w
    simp only [Set.mem_ofPred_eq, Set.mem_preimage, Set.mem_prod, Set.mem_Icc]
    have h1 : (MeasurableEquiv.piFinSuccAbove (fun _ : Fin 3 => ℝ) 2 w).1 = w 2 := rfl
    have h2 : (MeasurableEquiv.piFinSuccAbove (fun _ : Fin 3 => ℝ) 2 w).2 = ![w 0, w 1] := by
      funext i
      fin_cases i <;> rfl
    rw [h1, h2]; tauto
  rw [this, hm.measure_preimage_equiv, Measure.volume_eq_prod, Measure.prod_prod, Real.volume_Icc,
    sub_zero, mul_comm]

/-- Area of the standard triangle. -/
theorem volume_standard_triangle :
    MeasureTheory.volume {w : Fin 2 → ℝ | 0 ≤ w 0 ∧ 0 ≤ w 1 ∧ w 0 + w 1 ≤ 1}
      = ENNReal.ofReal (1 / 2) := by
  have hm := volume_preserving_finTwoArrow ℝ
  set T : Set (ℝ × ℝ) := {q | 0 ≤ q.1 ∧ 0 ≤ q.2 ∧ q.1 + q.2 ≤ 1} with hT
  have e1 : {w : Fin 2 → ℝ | 0 ≤ w 0 ∧ 0 ≤ w 1 ∧ w 0 + w 1 ≤ 1}
      = MeasurableEquiv.finTwoArrow ⁻¹' T := by
    ext w; simp [hT]
  have hTm : MeasurableSet T := by
    rw [hT]
    refine MeasurableSet.inter (s₁ := {q : ℝ × ℝ | 0 ≤ q.1}) ?_
      (MeasurableSet.inter (s₁ := {q : ℝ × ℝ | 0 ≤ q.2}) (s₂ := {q : ℝ × ℝ | q.1 + q.2 ≤ 1}) ?_ ?_)
      <;> apply measurableSet_le <;> fun_prop
  rw [e1, hm.measure_preimage_equiv, Measure.volume_eq_prod, Measure.prod_apply hTm]
  have e2 : ∀ x : ℝ, MeasureTheory.volume (Prod.mk x ⁻¹' T)
      = (Set.Icc (0 : ℝ) 1).indicator (fun x => ENNReal.ofReal (1 - x)) x := by
    intro x
    by_cases hx : x ∈ Set.Icc (0 : ℝ) 1
    · rw [Set.indicator_of_mem hx]
      have : Prod.mk x ⁻¹' T = Set.Icc 0 (1 - x) := by
        ext y
        simp only [hT, Set.mem_preimage, Set.mem_ofPred_eq, Set.mem_Icc]
        constructor
        · rintro ⟨_, h1, h2⟩; exact ⟨h1, by linarith⟩
        · rintro ⟨h1, h2⟩; exact ⟨hx.1, h1, by linarith⟩
      rw [this, Real.volume_Icc, sub_zero]
    · rw [Set.indicator_of_notMem hx]
      have : Prod.mk x ⁻¹' T = ∅ := by
        ext y
        simp only [hT, Set.mem_preimage, Set.mem_ofPred_eq, Set.mem_empty_iff_false, iff_false]
        rintro ⟨h0, h1, h2⟩
        exact hx ⟨h0, by linarith⟩
      rw [this, measure_empty]
  simp_rw [e2]
  rw [lintegral_indicator measurableSet_Icc,
    ← ofReal_integral_eq_lintegral_ofReal]
  · congr 1
    rw [integral_Icc_eq_integral_Ioc, ← intervalIntegral.integral_of_le zero_le_one]
    rw [intervalIntegral.integral_sub (by simp) (by simp)]
    simp
    norm_num
  · exact (by fun_prop : Continuous fun x : ℝ => 1 - x).integrableOn_Icc
  · refine (ae_restrict_iff' measurableSet_Icc).2 (Filter.Eventually.of_forall ?_)
    intro x hx
    simp only [Pi.zero_apply]
    linarith [hx.2]

/-- A point of the plane determines its coordinates. -/
theorem localPoint_inj {c u v : V3} (hu : Spec.IsUnit u) (hv : Spec.IsUnit v)
    (huv : Spec.Orthogonal u v) {x y x' y' : ℝ}
    (h : Spec.localPoint c u v x y = Spec.localPoint c u v x' y') : x = x' ∧ y = y' := by
  unfold Spec.IsUnit at hu hv
  unfold Spec.Orthogonal Spec.inner at huv
  simp only [Spec.localPoint, V3.mk.injEq] at h
  obtain ⟨h1, h2, h3⟩ := h
  constructor
  · linear_combination u.x * h1 + u.y * h2 + u.z * h3 - (x - x') * hu - (y - y') * huv
  · linear_combination v.x * h1 + v.y * h2 + v.z * h3 - (y - y') * hv - (x - x') * huv

/-- Area of a triangle given by plane coordinates. -/
theorem area_triangle (c u v : V3) (hu : Spec.IsUnit u) (hv : Spec.IsUnit v)
    (huv : Spec.Orthogonal u v) (x0 y0 x1 y1 x2 y2 : ℝ) :
    Spec.area c u v (Spec.InTriangle (Spec.localPoint c u v x0 y0) (Spec.localPoint c u v x1 y1)
      (Spec.localPoint c u v x2 y2))
      = ENNReal.ofReal (1 / 2 * |(x1 - x0) * (y2 - y0) - (x2 - x0) * (y1 - y0)|) := by
  unfold Spec.area
  set L : (Fin 2 → ℝ) →ₗ[ℝ] (Fin 2 → ℝ) :=
    Matrix.toLin' !![x1 - x0, x2 - x0; y1 - y0, y2 - y0] with hL
  have hdet : LinearMap.det L = (x1 - x0) * (y2 - y0) - (x2 - x0) * (y1 - y0) := by
    rw [hL, LinearMap.det_toLin', Matrix.det_fin_two]
    simp
  have hL0 : ∀ w, L w 0 = (x1 - x0) * w 0 + (x2 - x0) * w 1 := by
    intro w; simp [hL, Matrix.toLin'_apply, Matrix.mulVec, dotProduct, Fin.sum_univ_two]
  have hL1 : ∀ w, L w 1 = (y1 - y0) * w 0 + (y2 - y0) * w 1 := by
    intro w; simp [hL, Matrix.toLin'_apply, Matrix.mulVec, dotProduct, Fin.sum_univ_two]
  have e1 : {w : Fin 2 → ℝ | Spec.InTriangle (Spec.localPoint c u v x0 y0)
      (Spec.localPoint c u v x1 y1) (Spec.localPoint c u v x2 y2)
      (Spec.localPoint c u v (w 0) (w 1))}
      = (fun w => ![-x0, -y0] + w) ⁻¹'
        (L '' {w : Fin 2 → ℝ | 0 ≤ w 0 ∧ 0 ≤ w 1 ∧ w 0 + w 1 ≤ 1}) := by
    ext w
    simp only [Set.mem_ofPred_eq, Set.mem_preimage, Set.mem_image]
    constructor
    · rintro ⟨r, s, t, hr, hs, ht, hsum, hx, hy, hz⟩
      have : Spec.localPoint c u v (w 0) (w 1)
          = Spec.localPoint c u v (r * x0 + s * x1 + t * x2) (r * y0 + s * y1 + t * y2) := by
        ext
        · rw [hx]; simp only [Spec.localPoint]; linear_combination c.x * hsum
        · rw [hy]; simp only [Spec.localPoint]; linear_combination c.y * hsum
        · rw [hz]; simp only [Spec.localPoint]; linear_combination c.z * hsum
      obtain ⟨h0, h1⟩ := localPoint_inj hu hv huv this
      refine ⟨![s, t], ⟨by simpa using hs, by simpa using ht, by simp; linarith⟩, ?_⟩
      funext i
      fin_cases i
      · simp only [Fin.zero_eta, hL0]; simp [h0]; linear_combination -x0 * hsum
      · simp only [Fin.mk_one, hL1]; simp [h1]; linear_combination -y0 * hsum
    · rintro ⟨q, ⟨q0, q1, q2⟩, hq⟩
      have h0 := congrFun hq 0
      have h1 := congrFun hq 1
      rw [hL0] at h0
      rw [hL1] at h1
      simp at h0 h1
      refine ⟨1 - q 0 - q 1, q 0, q 1, by linarith, q0, q1, by ring, ?_, ?_, ?_⟩
      · simp only [Spec.localPoint]; linear_combination -u.x * h0 - v.x * h1
      · simp only [Spec.localPoint]; linear_combination -u.y * h0 - v.y * h1
      · simp only [Spec.localPoint]; linear_combination -u.z * h0 - v.z * h1
  rw [e1, measure_preimage_add, Measure.addHaar_image_linearMap, volume_standard_triangle, hdet,
    ← ENNReal.ofReal_mul (abs_nonneg _), mul_comm]

/-- Coordinates along the axes of a frame. -/
theorem frame_coords {c u v n : V3} (h : Spec.RightHandedOrthonormal u v n) (x y z : ℝ) :
    Spec.axial c n (c + x • u + y • v + z • n) = z ∧
    Spec.radial c n (c + x • u + y • v + z • n) = Real.sqrt (x ^ 2 + y ^ 2) := by
  obtain ⟨hu, hv, hn, huv, hvn, hun, -⟩ := h
  simp only [Spec.IsUnit, Spec.Orthogonal, Spec.inner] at *
  have ha : Spec.axial c n (c + x • u + y • v + z • n) = z := by
    simp only [Spec.axial, V3.add_x, V3.add_y, V3.add_z, V3.smul_x, V3.smul_y, V3.smul_z]
    linear_combination x * hun + y * hvn + z * hn
  refine ⟨ha, ?_⟩
  unfold Spec.radial Spec.dist
  rw [ha]
  congr 1
  simp only [V3.add_x, V3.add_y, V3.add_z, V3.smul_x, V3.smul_y, V3.smul_z]
  linear_combination x ^ 2 * hu + y ^ 2 * hv + 2 * x * y * huv

/-- Volume of a cylinder of any orientation. -/
theorem volume_cylinder {c u v n : V3} (hf : Spec.RightHandedOrthonormal u v n) (r h : ℝ)
    (hr : 0 ≤ r) :
    Spec.volume (Spec.InCylinder c n r h) = ENNReal.ofReal (Real.pi * r * r * h) := by
  rw [volume_frame _ c u v n hf]
  have : {w : Fin 3 → ℝ | Spec.InCylinder c n r h (c + w 0 • u + w 1 • v + w 2 • n)}
      = {w : Fin 3 → ℝ | ![w 0, w 1] ∈ {w : Fin 2 → ℝ | w 0 ^ 2 + w 1 ^ 2 ≤ r ^ 2}
          ∧ 0 ≤ w 2 ∧ w 2 ≤ h} := by
    ext w
    obtain ⟨h1, h2⟩ := frame_coords (c := c) hf (w 0) (w 1) (w 2)
    simp only [Spec.InCylinder, Set.mem_ofPred_eq, h1, h2, Matrix.cons_val_zero,
      Matrix.cons_val_one, Real.sqrt_le_left hr]
    tauto
  rw [this, volume_prism, volume_disk r hr, ← ENNReal.ofReal_mul (by positivity)]

/-- Volume of a cylindrical shell of any orientation. -/
theorem volume_shell {c u v n : V3} (hf : Spec.RightHandedOrthonormal u v n) (r1 r2 h : ℝ)
    (hr1 : 0 ≤ r1) (hr : r1 ≤ r2) :
    Spec.volume (Spec.InShell c n r1 r2 h)
      = ENNReal.ofReal (Real.pi * h * (r2 * r2 - r1 * r1)) := by
  have hr2 : 0 ≤ r2 := hr1.trans hr
  rw [volume_frame _ c u v n hf]
  set B : Set (Fin 2 → ℝ) :=
    {w : Fin 2 → ℝ | w 0 ^ 2 + w 1 ^ 2 ≤ r2 ^ 2} \ {w | w 0 ^ 2 + w 1 ^ 2 < r1 ^ 2} with hB
  have : {w : Fin 3 → ℝ | Spec.InShell c n r1 r2 h (c + w 0 • u + w 1 • v + w 2 • n)}
      = {w : Fin 3 → ℝ | ![w 0, w 1] ∈ B ∧ 0 ≤ w 2 ∧ w 2 ≤ h} := by
    ext w
    obtain ⟨h1, h2⟩ := frame_coords (c := c) hf (w 0) (w 1) (w 2)
    simp only [Spec.InShell, Set.mem_ofPred_eq, h1, h2, hB, Set.mem_sdiff, Matrix.cons_val_zero,
      Matrix.cons_val_one, Real.sqrt_le_left hr2, not_lt]
    have hq : r1 ≤ Real.sqrt (w 0 ^ 2 + w 1 ^ 2) ↔ r1 ^ 2 ≤ w 0 ^ 2 + w 1 ^ 2 :=
      Real.le_sqrt hr1 (by positivity)
    rw [hq]
    tauto
  have hBv : MeasureTheory.volume B = ENNReal.ofReal (Real.pi * (r2 * r2 - r1 * r1)) := by
    rw [hB, measure_sdiff, volume_disk r2 hr2, volume_open_disk r1 hr1, ← ENNReal.ofReal_sub]
    · congr 1; ring
    · positivity
    · intro w hw
      simp only [Set.mem_ofPred_eq] at *
      nlinarith
    · apply MeasurableSet.nullMeasurableSet
      apply measurableSet_lt <;> fun_prop
    · rw [volume_open_disk r1 hr1]; exact ENNReal.ofReal_ne_top
  rw [this, volume_prism, hBv, ← ENNReal.ofReal_mul]
  · congr 1; ring
  · exact mul_nonneg Real.pi_pos.le (by nlinarith)

end Lemmas
