import Verif.Props.Magnitude
import Mathlib.Analysis.SpecialFunctions.Integrals.Basic
import Mathlib.MeasureTheory.Integral.IntervalIntegral.Periodic
import Mathlib.Analysis.Real.Pi.Bounds

/-!
# Length of ellipses
-/

namespace Props
open Verif Frackit

/-! ## C80 Error of the length of ellipses -/

/-- Length of an ellipse as an integral. -/
theorem ellipse_length (e : Elliptical) (h : ValidElliptical e) :
    Spec.curveLength (ellipseCurve e.center e.major e.minor e.majLen e.minLen) 0 (2 * Real.pi)
      = ∫ t in (0 : ℝ)..(2 * Real.pi), Real.sqrt (e.majLen ^ 2 * Real.sin t ^ 2 + e.minLen ^ 2 * Real.cos t ^ 2) := by
  obtain ⟨hu, hv, _, huv, _⟩ := h.frame
  unfold Spec.curveLength
  simp only [ellipse_speed hu hv huv]

theorem integral_weights (a b : ℝ) :
    ∫ t in (0 : ℝ)..(2 * Real.pi), (a * Real.sin t ^ 2 + b * Real.cos t ^ 2) = Real.pi * (a + b) := by
  rw [intervalIntegral.integral_add (by apply Continuous.intervalIntegrable; fun_prop)
    (by apply Continuous.intervalIntegrable; fun_prop), intervalIntegral.integral_const_mul,
    intervalIntegral.integral_const_mul, integral_sin_sq, integral_cos_sq]
  simp
  ring

/-- The integrand is at least the weighted mean of the semi-axes. -/
theorem speed_lower {a b : ℝ} (t : ℝ) :
    a * Real.sin t ^ 2 + b * Real.cos t ^ 2 ≤ Real.sqrt (a ^ 2 * Real.sin t ^ 2 + b ^ 2 * Real.cos t ^ 2) := by
  apply Real.le_sqrt_of_sq_le
  have h := Real.sin_sq_add_cos_sq t
  nlinarith [mul_nonneg (mul_nonneg (sq_nonneg (Real.sin t)) (sq_nonneg (Real.cos t))) (sq_nonneg (a - b)),
    sq_nonneg (Real.sin t), sq_nonneg (Real.cos t)]

theorem integral_abs_sin : ∫ t in (0 : ℝ)..(2 * Real.pi), |Real.sin t| = 4 := by
  have hp := Real.pi_pos
  rw [← intervalIntegral.integral_add_adjacent_intervals (b := Real.pi)
    (by apply Continuous.intervalIntegrable; fun_prop) (by apply Continuous.intervalIntegrable; fun_prop)]
  have h1 : ∫ t in (0 : ℝ)..Real.pi, |Real.sin t| = ∫ t in (0 : ℝ)..Real.pi, Real.sin t := by
    apply intervalIntegral.integral_congr
    intro t ht
    rw [Set.uIcc_of_le hp.le] at ht
    exact abs_of_nonneg (Real.sin_nonneg_of_nonneg_of_le_pi ht.1 ht.2)
  have h2 : ∫ t in Real.pi..(2 * Real.pi), |Real.sin t| = ∫ t in Real.pi..(2 * Real.pi), -Real.sin t := by
    apply intervalIntegral.integral_congr
    intro t ht
    rw [Set.uIcc_of_le (by linarith)] at ht
    refine abs_of_nonpos ?_
    have := Real.sin_nonneg_of_nonneg_of_le_pi (x := t - Real.pi) (by linarith [ht.1]) (by linarith [ht.2])
    rw [Real.sin_sub_pi] at this
    linarith
  rw [h1, h2, intervalIntegral.integral_neg, integral_sin, integral_sin]
  simp
  norm_num

theorem integral_abs_cos : ∫ t in (0 : ℝ)..(2 * Real.pi), |Real.cos t| = 4 := by
  have hper : Function.Periodic (fun t : ℝ => |Real.sin t|) (2 * Real.pi) := fun t => by simp [Real.sin_add_two_pi]
  calc ∫ t in (0 : ℝ)..(2 * Real.pi), |Real.cos t|
      = ∫ t in (0 : ℝ)..(2 * Real.pi), (fun t => |Real.sin t|) (t + Real.pi / 2) := by
        simp only [Real.sin_add_pi_div_two]
    _ = ∫ t in (0 + Real.pi / 2)..(2 * Real.pi + Real.pi / 2), |Real.sin t| := by
        exact intervalIntegral.integral_comp_add_right (fun t => |Real.sin t|) _
    _ = ∫ t in (0 : ℝ)..(2 * Real.pi), |Real.sin t| := by
        have := hper.intervalIntegral_add_eq (Real.pi / 2) 0
        rw [zero_add] at this
        rw [zero_add, ← this, add_comm]
    _ = 4 := integral_abs_sin

/-- The length of the curve is at most four times the sum of the semi-axes. -/
theorem ellipse_length_le (e : Elliptical) (h : ValidElliptical e) :
    Spec.curveLength (ellipseCurve e.center e.major e.minor e.majLen e.minLen) 0 (2 * Real.pi)
      ≤ 4 * (e.majLen + e.minLen) := by
  have ha := h.maj_pos
  have hb := h.min_pos
  rw [ellipse_length e h]
  calc _ ≤ ∫ t in (0 : ℝ)..(2 * Real.pi), (e.majLen * |Real.sin t| + e.minLen * |Real.cos t|) := by
        apply intervalIntegral.integral_mono_on (by positivity)
        · apply Continuous.intervalIntegrable; fun_prop
        · apply Continuous.intervalIntegrable; fun_prop
        · intro t _
          apply Real.sqrt_le_iff.2
          refine ⟨by positivity, ?_⟩
          have h1 := sq_abs (Real.sin t)
          have h2 := sq_abs (Real.cos t)
          rw [← h1, ← h2]
          have : 0 ≤ e.majLen * |Real.sin t| * (e.minLen * |Real.cos t|) := by positivity
          nlinarith
    _ = _ := by
        rw [intervalIntegral.integral_add (by apply Continuous.intervalIntegrable; fun_prop)
          (by apply Continuous.intervalIntegrable; fun_prop), intervalIntegral.integral_const_mul,
          intervalIntegral.integral_const_mul, integral_abs_sin, integral_abs_cos]
        ring

/-- The length of the curve is at least four times the major semi-axis. -/
theorem le_ellipse_length (e : Elliptical) (h : ValidElliptical e) :
    4 * e.majLen
      ≤ Spec.curveLength (ellipseCurve e.center e.major e.minor e.majLen e.minLen) 0 (2 * Real.pi) := by
  have ha := h.maj_pos
  have hb := h.min_pos
  rw [ellipse_length e h]
  calc 4 * e.majLen = ∫ t in (0 : ℝ)..(2 * Real.pi), e.majLen * |Real.sin t| := by
        rw [intervalIntegral.integral_const_mul, integral_abs_sin]; ring
    _ ≤ _ := by
        apply intervalIntegral.integral_mono_on (by positivity)
        · apply Continuous.intervalIntegrable; fun_prop
        · apply Continuous.intervalIntegrable; fun_prop
        · intro t _
          apply Real.le_sqrt_of_sq_le
          rw [mul_pow, sq_abs]
          nlinarith [mul_nonneg (sq_nonneg e.minLen) (sq_nonneg (Real.cos t))]

/-- The reported length never exceeds the length of the curve, which is at most 4/π (about 1.27) times larger. -/
theorem C80_bounds (e : Elliptical) (h : ValidElliptical e) :
    ∃ m, computeMagnitude (.ellipse e) = .val m ∧ 0 < m ∧
      m ≤ Spec.curveLength (ellipseCurve e.center e.major e.minor e.majLen e.minLen) 0 (2 * Real.pi) ∧
      Spec.curveLength (ellipseCurve e.center e.major e.minor e.majLen e.minLen) 0 (2 * Real.pi)
        ≤ 4 / Real.pi * m := by
  have ha := h.maj_pos
  have hb := h.min_pos
  refine ⟨_, rfl, mul_pos Real.pi_pos (by linarith), ?_, ?_⟩
  · rw [ellipse_length e h, ← integral_weights]
    apply intervalIntegral.integral_mono_on (by positivity)
    · apply Continuous.intervalIntegrable; fun_prop
    · apply Continuous.intervalIntegrable; fun_prop
    · intro t _; exact speed_lower t
  · refine (ellipse_length_le e h).trans (le_of_eq ?_)
    have := Real.pi_ne_zero
    field_simp

/-- It is the length of the curve exactly for circles. -/
theorem C80_exact (e : Elliptical) (h : ValidElliptical e) :
    computeMagnitude (.ellipse e)
        = .val (Spec.curveLength (ellipseCurve e.center e.major e.minor e.majLen e.minLen) 0 (2 * Real.pi)) ↔
      e.majLen = e.minLen := by
  obtain ⟨m, hm, heq, hlt⟩ := C56_length_partial e h
  constructor
  · intro hv
    by_contra hne
    have := hlt hne
    rw [hm] at hv
    cases hv
    exact lt_irrefl _ this
  · intro he
    rw [hm, heq he]

/-- The factor 4/π cannot be improved: there are ellipses, whose major semi-axis is the larger one, for which the
error gets arbitrarily close to it. -/
theorem C80_sharp (k : ℝ) (hk : k < 4 / Real.pi) :
    ∃ e m, ValidElliptical e ∧ e.minLen ≤ e.majLen ∧ computeMagnitude (.ellipse e) = .val m ∧
      k * m < Spec.curveLength (ellipseCurve e.center e.major e.minor e.majLen e.minLen) 0 (2 * Real.pi) := by
  have hp := Real.pi_pos
  rw [lt_div_iff₀ hp] at hk
  obtain ⟨b, hb0, hb1, hb⟩ : ∃ b : ℝ, 0 < b ∧ b ≤ 1 ∧ k * (Real.pi * (1 + b)) < 4 := by
    by_cases h0 : k * Real.pi ≤ 0
    · exact ⟨1, by norm_num, le_rfl, by nlinarith⟩
    · push Not at h0
      refine ⟨min 1 ((4 - k * Real.pi) / (2 * (k * Real.pi))), lt_min one_pos (div_pos (by linarith) (by linarith)),
        min_le_left _ _, ?_⟩
      have h2 := min_le_right 1 ((4 - k * Real.pi) / (2 * (k * Real.pi)))
      rw [le_div_iff₀ (by linarith)] at h2
      nlinarith
  have hv : ValidElliptical ⟨⟨0, 0, 0⟩, ⟨1, 0, 0⟩, ⟨0, 1, 0⟩, ⟨0, 0, 1⟩, 1, b⟩ :=
    ⟨by norm_num [Spec.RightHandedOrthonormal, Spec.IsUnit, Spec.Orthogonal, Spec.inner, Spec.det],
      by norm_num, hb0⟩
  refine ⟨_, _, hv, hb1, rfl, lt_of_lt_of_le hb ?_⟩
  have := le_ellipse_length _ hv
  simpa using this

/-- An ellipse with semi-axes 2 and 1 satisfies the hypotheses. -/
example : ValidElliptical ⟨⟨0, 0, 0⟩, ⟨1, 0, 0⟩, ⟨0, 1, 0⟩, ⟨0, 0, 1⟩, 2, 1⟩ ∧ (1 : ℝ) < 4 / Real.pi :=
  ⟨⟨by norm_num [Spec.RightHandedOrthonormal, Spec.IsUnit, Spec.Orthogonal, Spec.inner, Spec.det],
    by norm_num, by norm_num⟩, by rw [lt_div_iff₀ Real.pi_pos]; linarith [Real.pi_lt_four]⟩

end Props
