import Verif.Props.Shapes

/-!
# C109 Local coordinates of points on ellipse arcs
-/

namespace Props
open Verif Frackit

/-- The angle covered by an arc. -/
noncomputable def arcAngle (arc : EllipseArc) : ℝ :=
  if arc.sourceAngle < arc.targetAngle then arc.targetAngle - arc.sourceAngle
  else 2 * Real.pi - arc.sourceAngle + arc.targetAngle

/-- The point is not within the tolerance from an axis of the ellipse. -/
def AwayFromAxes (t : ℝ) : Prop := 1 / 10 ^ 7 ≤ |Real.cos t| ∧ 1 / 10 ^ 7 ≤ |Real.sin t|

/-- The local coordinate that is returned for a point of the arc yields the point again. -/
def C109_full : Prop :=
  ∀ (arc : EllipseArc) (s : ℝ), MadeArc arc → 0 ≤ s → s < 1 →
    AwayFromAxes (arc.sourceAngle + arcAngle arc * s) → arc.getParam (arc.getPoint s) = .val s

/-- What is returned instead: the local coordinate on the supporting ellipse, which yields the same point if it is
passed to the supporting ellipse; the angle is reduced to less than one revolution. -/
theorem C109_supporting_ellipse (arc : EllipseArc) (s : ℝ) (check : Bool) (h : MadeArc arc) (h0 : 0 ≤ s) (h1 : s < 1)
    (ha : AwayFromAxes (arc.sourceAngle + arcAngle arc * s)) :
    ∃ t, arc.getParam (arc.getPoint s) check = .val t ∧ 0 ≤ t ∧ t < 1 ∧
      Ellipse.getPoint arc.ellipse t = arc.getPoint s ∧
      (2 * Real.pi * t = arc.sourceAngle + arcAngle arc * s ∨
        2 * Real.pi * t = arc.sourceAngle + arcAngle arc * s - 2 * Real.pi) := by
  have hpi := Real.pi_pos
  obtain ⟨a0, a1, b0, b1⟩ := arc_angles h
  have hd0 : 0 ≤ arcAngle arc := by
    unfold arcAngle
    split_ifs with hlt <;> linarith
  have hd1 : arcAngle arc ≤ 2 * Real.pi := by
    unfold arcAngle
    split_ifs with hlt <;> linarith
  have hpt : arc.getPoint s = Ellipse.getPointFromAngle arc.ellipse (arc.sourceAngle + arcAngle arc * s) := rfl
  set w := arc.sourceAngle + arcAngle arc * s with hw
  have hw0 : 0 ≤ w := by positivity
  have hw1 : w < 4 * Real.pi := by nlinarith [mul_nonneg hd0 (sub_nonneg.2 h1.le)]
  have key : ∀ w', 0 ≤ w' → w' < 2 * Real.pi → AwayFromAxes w' →
      Ellipse.getPointFromAngle arc.ellipse w' = arc.getPoint s →
      arc.getParam (arc.getPoint s) check = .val (w' / (2 * Real.pi)) ∧ 0 ≤ w' / (2 * Real.pi) ∧
      w' / (2 * Real.pi) < 1 ∧ Ellipse.getPoint arc.ellipse (w' / (2 * Real.pi)) = arc.getPoint s := by
    intro w' k0 k1 k2 k3
    refine ⟨?_, by positivity, by rwa [div_lt_one (by positivity)], ?_⟩
    · unfold EllipseArc.getParam Ellipse.getParam
      rw [← k3, C10_angle_of_point arc.ellipse h.1 w' k0 k1 k2.1 k2.2 check]
      rfl
    · unfold Ellipse.getPoint
      rw [← k3]
      congr 1
      field_simp
  rcases lt_or_ge w (2 * Real.pi) with hlt | hge
  · obtain ⟨k1, k2, k3, k4⟩ := key w hw0 hlt ha hpt.symm
    exact ⟨_, k1, k2, k3, k4, Or.inl (by field_simp)⟩
  · have ha' : AwayFromAxes (w - 2 * Real.pi) := by
      unfold AwayFromAxes
      rw [Real.cos_sub_two_pi, Real.sin_sub_two_pi]
      exact ha
    obtain ⟨k1, k2, k3, k4⟩ := key (w - 2 * Real.pi) (by linarith) (by linarith) ha' (by
      rw [hpt]
      unfold Ellipse.getPointFromAngle
      rw [Real.cos_sub_two_pi, Real.sin_sub_two_pi])
    exact ⟨_, k1, k2, k3, k4, Or.inr (by field_simp)⟩

/-- The local coordinates agree if the arc is the whole ellipse and begins at its major axis. -/
theorem C109_whole_ellipse_partial (arc : EllipseArc) (s : ℝ) (h : MadeArc arc) (h0 : 0 ≤ s) (h1 : s < 1)
    (hs : arc.sourceAngle = 0) (ht : arc.targetAngle = 2 * Real.pi)
    (ha : AwayFromAxes (arc.sourceAngle + arcAngle arc * s)) : arc.getParam (arc.getPoint s) = .val s := by
  have hpi := Real.pi_pos
  obtain ⟨t, h2, h3, h4, _, h6⟩ := C109_supporting_ellipse arc s true h h0 h1 ha
  have hd : arcAngle arc = 2 * Real.pi := by
    unfold arcAngle
    rw [hs, ht, if_pos (by positivity), sub_zero]
  rw [hs, hd] at h6
  rw [h2]
  congr 1
  rcases h6 with h6 | h6
  · have : 2 * Real.pi * t = 2 * Real.pi * s := by linarith
    exact mul_left_cancel₀ (by positivity) this
  · have : 2 * Real.pi * (t + 1) = 2 * Real.pi * s := by linarith
    have := mul_left_cancel₀ (by positivity) this
    linarith

theorem quarter_circle_arc : ∃ a : EllipseArc, MadeArc a ∧ a.sourceAngle = 0 ∧ a.targetAngle = Real.pi / 2 := by
  have hpi := Real.pi_pos
  have hv := unitCircle_valid
  have hon := (C09_ellipse_points_on_curve unitCircle hv (Real.pi / 2)).1
  have hon0 := (C09_ellipse_points_on_curve unitCircle hv 0).1
  have hs0 : snap 0 = 0 := by
    rw [snap_of_sin (by rw [Real.cos_zero, abs_one]; exact not_lt.2 (by linarith [confusion_lt]))
      (by rw [Real.sin_zero, abs_zero]; exact confusion_pos), Real.cos_zero, if_neg (by norm_num)]
  have hs1 : snap (Real.pi / 2) = Real.pi / 2 := by
    rw [snap_of_cos (by rw [Real.cos_pi_div_two, abs_zero]; exact confusion_pos),
      Real.sin_pi_div_two, if_neg (by norm_num)]
  refine ⟨⟨unitCircle, Ellipse.getPointFromAngle unitCircle 0,
    Ellipse.getPointFromAngle unitCircle (Real.pi / 2), 0, Real.pi / 2, False⟩, ⟨hv, hon0, hon, ?_⟩, rfl, rfl⟩
  unfold EllipseArc.make
  simp only
  rw [if_neg, getAngle_point hv le_rfl (by linarith), getAngle_point hv (by linarith) (by linarith), hs0, hs1]
  · rfl
  · simp only [pointIsEqual, V3.sqLen, Ellipse.getPointFromAngle, unitCircle]
    norm_num [confusion]

theorem away_quarter : AwayFromAxes (Real.pi / 4) := by
  have h2 : (1 : ℝ) ≤ Real.sqrt 2 := by
    rw [Real.le_sqrt' (by norm_num)]; norm_num
  unfold AwayFromAxes
  rw [Real.cos_pi_div_four, Real.sin_pi_div_four, abs_of_pos (by positivity)]
  constructor <;> norm_num <;> linarith

/-- The local coordinate 1/8 is returned for the point in the middle of a quarter of a circle. -/
theorem C109_disproof : ¬ C109_full := by
  intro H
  have hpi := Real.pi_pos
  obtain ⟨a, ha, hs, ht⟩ := quarter_circle_arc
  have hd : arcAngle a = Real.pi / 2 := by
    unfold arcAngle
    rw [hs, ht, if_pos (by positivity), sub_zero]
  have haw : AwayFromAxes (a.sourceAngle + arcAngle a * (1 / 2)) := by
    rw [hs, hd, show (0 : ℝ) + Real.pi / 2 * (1 / 2) = Real.pi / 4 by ring]
    exact away_quarter
  have h1 := H a (1 / 2) ha (by norm_num) (by norm_num) haw
  obtain ⟨t, h2, h3, h4, _, h6⟩ := C109_supporting_ellipse a (1 / 2) true ha (by norm_num) (by norm_num) haw
  rw [h1] at h2
  cases h2
  rw [hs, hd] at h6
  rcases h6 with h6 | h6 <;> linarith

/-- The hypotheses hold for the arc from a point of the major axis to itself. -/
example : ∃ a : EllipseArc, MadeArc a ∧ a.sourceAngle = 0 ∧ a.targetAngle = 2 * Real.pi ∧
    a.getParam (a.getPoint (1 / 8)) = .val (1 / 8) := by
  have hpi := Real.pi_pos
  have hv := unitCircle_valid
  have hon0 := (C09_ellipse_points_on_curve unitCircle hv 0).1
  have hs0 : snap 0 = 0 := by
    rw [snap_of_sin (by rw [Real.cos_zero, abs_one]; exact not_lt.2 (by linarith [confusion_lt]))
      (by rw [Real.sin_zero, abs_zero]; exact confusion_pos), Real.cos_zero, if_neg (by norm_num)]
  have hm : MadeArc ⟨unitCircle, Ellipse.getPointFromAngle unitCircle 0, Ellipse.getPointFromAngle unitCircle 0, 0,
      2 * Real.pi, True⟩ := by
    refine ⟨hv, hon0, hon0, ?_⟩
    unfold EllipseArc.make
    simp only
    rw [if_pos, getAngle_point hv le_rfl (by linarith), hs0]
    · simp only [Outcome.val_bind, Outcome.pure_eq]
      rw [if_pos (by norm_num [angular])]
    · simp [pointIsEqual, V3.sqLen, unitCircle, confusion]
  refine ⟨_, hm, rfl, rfl, C109_whole_ellipse_partial _ _ hm (by norm_num) (by norm_num) rfl rfl ?_⟩
  simp only [arcAngle]
  rw [if_pos (by positivity), show (0 : ℝ) + (2 * Real.pi - 0) * (1 / 8) = Real.pi / 4 by ring]
  exact away_quarter

end Props
