import Verif.Props.Ellipse

/-!
# Angle query of ellipses (C10)
-/

namespace Props
open Verif Frackit

/-- The angle reported for the point at angle `t`: within the tolerance of an axis, the angle of the
axis; the given angle otherwise. -/
noncomputable def snap (t : ℝ) : ℝ :=
  if |Real.cos t| < confusion then (if Real.sin t < 0 then 3 * Real.pi / 2 else Real.pi / 2)
  else if |Real.sin t| < confusion then (if Real.cos t < 0 then Real.pi else 0)
  else t

theorem confusion_lt : confusion < 1 / 2 := by unfold confusion; norm_num

theorem cos_neg_iff {t : ℝ} (h0 : 0 ≤ t) (h1 : t < 2 * Real.pi) (hc : Real.cos t < 0) :
    Real.pi / 2 < t ∧ t < 3 * Real.pi / 2 := by
  have hpi := Real.pi_pos
  constructor
  · by_contra h
    push Not at h
    have := Real.cos_nonneg_of_mem_Icc (x := t) ⟨by linarith, h⟩
    linarith
  · by_contra h
    push Not at h
    have := Real.cos_nonneg_of_mem_Icc (x := t - 2 * Real.pi) ⟨by linarith, by linarith⟩
    rw [Real.cos_sub_two_pi] at this
    linarith

theorem cos_pos_iff {t : ℝ} (hc : 0 < Real.cos t) :
    t < Real.pi / 2 ∨ 3 * Real.pi / 2 < t := by
  by_contra h
  push Not at h
  have := Real.cos_nonpos_of_pi_div_two_le_of_le h.1 (by linarith [h.2])
  linarith

theorem sin_neg_iff {t : ℝ} (h0 : 0 ≤ t) (hs : Real.sin t < 0) : Real.pi < t := by
  by_contra h
  push Not at h
  have := Real.sin_nonneg_of_nonneg_of_le_pi h0 h
  linarith

theorem sin_nonneg_iff {t : ℝ} (h1 : t < 2 * Real.pi) (hs : 0 ≤ Real.sin t) :
    t ≤ Real.pi := by
  by_contra h
  push Not at h
  have := Real.sin_pos_of_pos_of_lt_pi (x := t - Real.pi) (by linarith) (by linarith)
  rw [Real.sin_sub_pi] at this
  linarith

/-- The angle query on the point at angle `t`. -/
theorem getAngle_point {e : Elliptical} (h : ValidElliptical e) {t : ℝ} (h0 : 0 ≤ t)
    (h1 : t < 2 * Real.pi) (check : Bool) :
    Ellipse.getAngle e (Ellipse.getPointFromAngle e t) check = .val (snap t) := by
  have hpi := Real.pi_pos
  have hc := confusion_pos
  have ha := h.maj_pos
  have hb := h.min_pos
  obtain ⟨e1, e2, _⟩ := local_coords h (Real.cos t * e.majLen) (Real.sin t * e.minLen)
  rw [← point_eq_local] at e1 e2
  have hin : Ellipse.containsDefault e (Ellipse.getPointFromAngle e t) :=
    C09_ellipse_contains e h _ _ _ confusion_pos (C09_ellipse_points_on_curve e h t).1
  unfold Ellipse.getAngle
  rw [if_neg (by rintro ⟨_, hn⟩; exact hn hin)]
  simp only
  rw [e1, e2]
  have w1 : |Real.cos t * e.majLen| < e.majLen * confusion ↔ |Real.cos t| < confusion := by
    rw [abs_mul, abs_of_pos ha, mul_comm]; exact mul_lt_mul_iff_of_pos_left ha
  have w2 : |Real.sin t * e.minLen| < e.minLen * confusion ↔ |Real.sin t| < confusion := by
    rw [abs_mul, abs_of_pos hb, mul_comm]; exact mul_lt_mul_iff_of_pos_left hb
  have s1 : Real.cos t * e.majLen < 0 ↔ Real.cos t < 0 := by
    constructor
    · intro h; by_contra hn; push Not at hn; have := mul_nonneg hn ha.le; linarith
    · intro h; exact mul_neg_of_neg_of_pos h ha
  have s2 : Real.sin t * e.minLen < 0 ↔ Real.sin t < 0 := by
    constructor
    · intro h; by_contra hn; push Not at hn; have := mul_nonneg hn hb.le; linarith
    · intro h; exact mul_neg_of_neg_of_pos h hb
  simp only [w1, w2, s1, s2]
  unfold snap
  by_cases c1 : |Real.cos t| < confusion
  · rw [if_pos c1, if_pos c1]
  · rw [if_neg c1, if_neg c1]
    by_cases c2 : |Real.sin t| < confusion
    · rw [if_pos c2, if_pos c2]
    · rw [if_neg c2, if_neg c2]
      have hcos : Real.cos t ≠ 0 := by
        intro e0; apply c1; rw [e0, abs_zero]; exact hc
      rw [if_neg (by
        rintro (hm | hm)
        · exact hb.ne' hm
        · exact hcos ((mul_eq_zero.1 hm).resolve_right ha.ne'))]
      have hq : Real.sin t * e.minLen * (e.majLen / e.minLen) / (Real.cos t * e.majLen)
          = Real.tan t := by
        rw [Real.tan_eq_sin_div_cos]; field_simp
      rw [hq]
      by_cases n1 : Real.cos t < 0
      · obtain ⟨l, r⟩ := cos_neg_iff h0 h1 n1
        rw [if_neg (by tauto), if_neg (by tauto)]
        have : Real.arctan (Real.tan t) = t - Real.pi := by
          rw [← Real.tan_sub_pi]
          exact Real.arctan_tan (by linarith) (by linarith)
        rw [this]; congr 1; ring
      · have hpos : 0 < Real.cos t := lt_of_le_of_ne (not_lt.1 n1) hcos.symm
        by_cases n2 : Real.sin t < 0
        · rw [if_neg (by tauto), if_pos ⟨n2, n1⟩]
          have hgt := sin_neg_iff h0 n2
          have : 3 * Real.pi / 2 < t := by
            rcases cos_pos_iff hpos with h | h
            · linarith
            · exact h
          have : Real.arctan (Real.tan t) = t - 2 * Real.pi := by
            have hp := Real.tan_periodic.sub_eq t
            have hp2 := Real.tan_periodic.sub_eq (t - Real.pi)
            rw [← hp, ← hp2, show t - Real.pi - Real.pi = t - 2 * Real.pi by ring]
            exact Real.arctan_tan (by linarith) (by linarith)
          rw [this]; congr 1; ring
        · rw [if_pos ⟨n2, n1⟩]
          have hle := sin_nonneg_iff h1 (not_lt.1 n2)
          have : t < Real.pi / 2 := by
            rcases cos_pos_iff hpos with h | h
            · exact h
            · linarith
          rw [Real.arctan_tan (by linarith) this]

theorem snap_range {t : ℝ} (h0 : 0 ≤ t) (h1 : t < 2 * Real.pi) :
    0 ≤ snap t ∧ snap t < 2 * Real.pi := by
  have hpi := Real.pi_pos
  unfold snap
  split_ifs <;> constructor <;> linarith

theorem abs_near_one {X Y : ℝ} (h : X ^ 2 + Y ^ 2 = 1) (hX : |X| < confusion) :
    (Y < 0 → |Y - -1| ≤ confusion) ∧ (¬ Y < 0 → |Y - 1| ≤ confusion) := by
  have hc := confusion_pos
  have hc2 := confusion_lt
  have hx2 : X ^ 2 ≤ confusion ^ 2 := by
    rw [← sq_abs X]; exact pow_le_pow_left₀ (abs_nonneg X) hX.le 2
  constructor
  · intro hY
    rw [abs_le]
    constructor
    · nlinarith
    · nlinarith
  · intro hY
    push Not at hY
    rw [abs_le]
    constructor <;> nlinarith

/-- Cosine and sine of the reported angle are those of the given one up to the tolerance. -/
theorem snap_close (t : ℝ) : |Real.cos t - Real.cos (snap t)| ≤ confusion ∧
    |Real.sin t - Real.sin (snap t)| ≤ confusion := by
  have hcs := Real.cos_sq_add_sin_sq t
  have hc := confusion_pos
  have c32 : Real.cos (3 * Real.pi / 2) = 0 := by
    rw [show 3 * Real.pi / 2 = Real.pi / 2 + Real.pi by ring, Real.cos_add_pi, Real.cos_pi_div_two,
      neg_zero]
  have s32 : Real.sin (3 * Real.pi / 2) = -1 := by
    rw [show 3 * Real.pi / 2 = Real.pi / 2 + Real.pi by ring, Real.sin_add_pi, Real.sin_pi_div_two]
  unfold snap
  by_cases c1 : |Real.cos t| < confusion
  · rw [if_pos c1]
    obtain ⟨l, r⟩ := abs_near_one hcs c1
    by_cases n : Real.sin t < 0
    · rw [if_pos n, c32, s32, sub_zero]
      exact ⟨c1.le, l n⟩
    · rw [if_neg n, Real.cos_pi_div_two, Real.sin_pi_div_two, sub_zero]
      exact ⟨c1.le, r n⟩
  · rw [if_neg c1]
    by_cases c2 : |Real.sin t| < confusion
    · rw [if_pos c2]
      obtain ⟨l, r⟩ := abs_near_one (by rw [add_comm]; exact hcs) c2
      by_cases n : Real.cos t < 0
      · rw [if_pos n, Real.cos_pi, Real.sin_pi, sub_zero]
        exact ⟨l n, c2.le⟩
      · rw [if_neg n, Real.cos_zero, Real.sin_zero, sub_zero]
        exact ⟨r n, c2.le⟩
    · rw [if_neg c2, sub_self, sub_self, abs_zero]
      exact ⟨hc.le, hc.le⟩

/-! ## C10 Ellipse angle query inverts the parametrisation -/

/-- For an angle in `[0, 2π)` whose point is not within the tolerance of an axis, the angle query on
the point returns the angle. -/
theorem C10_angle_of_point (e : Elliptical) (h : ValidElliptical e) (t : ℝ) (h0 : 0 ≤ t)
    (h1 : t < 2 * Real.pi) (hc : 1 / 10 ^ 7 ≤ |Real.cos t|) (hs : 1 / 10 ^ 7 ≤ |Real.sin t|)
    (check : Bool) :
    Ellipse.getAngle e (Ellipse.getPointFromAngle e t) check = .val t := by
  rw [getAngle_point h h0 h1]
  unfold snap
  rw [if_neg (by unfold confusion; exact not_lt.2 hc), if_neg (by unfold confusion; exact not_lt.2 hs)]

/-- At the end points of the axes the query returns the exact angles. -/
theorem C10_angle_at_axes (e : Elliptical) (h : ValidElliptical e) (check : Bool) :
    Ellipse.getAngle e (Ellipse.getPointFromAngle e 0) check = .val 0 ∧
    Ellipse.getAngle e (Ellipse.getPointFromAngle e (Real.pi / 2)) check = .val (Real.pi / 2) ∧
    Ellipse.getAngle e (Ellipse.getPointFromAngle e Real.pi) check = .val Real.pi ∧
    Ellipse.getAngle e (Ellipse.getPointFromAngle e (3 * Real.pi / 2)) check
      = .val (3 * Real.pi / 2) := by
  have hpi := Real.pi_pos
  have hc := confusion_pos
  have hc2 := confusion_lt
  have c32 : Real.cos (3 * Real.pi / 2) = 0 := by
    rw [show 3 * Real.pi / 2 = Real.pi / 2 + Real.pi by ring, Real.cos_add_pi, Real.cos_pi_div_two,
      neg_zero]
  have s32 : Real.sin (3 * Real.pi / 2) = -1 := by
    rw [show 3 * Real.pi / 2 = Real.pi / 2 + Real.pi by ring, Real.sin_add_pi, Real.sin_pi_div_two]
  rw [getAngle_point h le_rfl (by linarith), getAngle_point h (by linarith) (by linarith),
    getAngle_point h (by linarith) (by linarith), getAngle_point h (by linarith) (by linarith)]
  unfold snap
  simp only [Real.cos_zero, Real.sin_zero, Real.cos_pi_div_two, Real.sin_pi_div_two, Real.cos_pi,
    Real.sin_pi, c32, s32, abs_zero, abs_one, abs_neg, hc, if_true]
  refine ⟨?_, ?_, ?_, ?_⟩
  · rw [if_neg (by linarith)]; norm_num
  · norm_num
  · rw [if_neg (by linarith)]; norm_num
  · norm_num

/-- For every point on the ellipse: the angle query succeeds with an angle in `[0, 2π)`, and the
point of that angle is the given point up to the tolerance, relative to each semi-axis; it is the
given point exactly unless the point is within the tolerance of an axis. -/
theorem C10_point_of_angle (e : Elliptical) (h : ValidElliptical e) (p : V3) (check : Bool)
    (hp : Spec.OnEllipse e.center e.major e.minor e.majLen e.minLen p) :
    ∃ t x y x' y', Ellipse.getAngle e p check = .val t ∧ 0 ≤ t ∧ t < 2 * Real.pi ∧
      p = Spec.localPoint e.center e.major e.minor x y ∧
      Ellipse.getPointFromAngle e t = Spec.localPoint e.center e.major e.minor x' y' ∧
      |x - x'| ≤ 1 / 10 ^ 7 * e.majLen ∧ |y - y'| ≤ 1 / 10 ^ 7 * e.minLen ∧
      (1 / 10 ^ 7 * e.majLen ≤ |x| → 1 / 10 ^ 7 * e.minLen ≤ |y| →
        Ellipse.getPointFromAngle e t = p) := by
  have ha := h.maj_pos
  have hb := h.min_pos
  obtain ⟨t, h0, h1, rfl⟩ := C09_ellipse_points_reached e h p hp
  obtain ⟨r0, r1⟩ := snap_range h0 h1
  obtain ⟨k1, k2⟩ := snap_close t
  refine ⟨snap t, _, _, _, _, getAngle_point h h0 h1 check, r0, r1, point_eq_local e t,
    point_eq_local e (snap t), ?_, ?_, ?_⟩
  · rw [← sub_mul, abs_mul, abs_of_pos ha]
    exact mul_le_mul_of_nonneg_right k1 ha.le
  · rw [← sub_mul, abs_mul, abs_of_pos hb]
    exact mul_le_mul_of_nonneg_right k2 hb.le
  · intro g1 g2
    rw [abs_mul, abs_of_pos ha] at g1
    rw [abs_mul, abs_of_pos hb] at g2
    have g1' := le_of_mul_le_mul_right g1 ha
    have g2' := le_of_mul_le_mul_right g2 hb
    unfold snap
    rw [if_neg (by unfold confusion; exact not_lt.2 g1'), if_neg (by unfold confusion; exact not_lt.2 g2')]

/-- The parameter of a point is in `[0, 1)`. -/
theorem C10_param_range (e : Elliptical) (h : ValidElliptical e) (p : V3) (check : Bool)
    (hp : Spec.OnEllipse e.center e.major e.minor e.majLen e.minLen p) :
    ∃ s, Ellipse.getParam e p check = .val s ∧ 0 ≤ s ∧ s < 1 := by
  obtain ⟨t, _, _, _, _, ht, h0, h1, _⟩ := C10_point_of_angle e h p check hp
  have hpi := Real.pi_pos
  refine ⟨t / (2 * Real.pi), by simp [Ellipse.getParam, ht], by positivity, ?_⟩
  rw [div_lt_one (by positivity)]; exact h1

/-- A point far off the ellipse is rejected by an exception. -/
theorem C10_off_ellipse_rejected (e : Elliptical) (p : V3)
    (hp : ¬ Ellipse.contains e p (1 / 10 ^ 7)) : (Ellipse.getAngle e p).isThrown := by
  unfold Ellipse.getAngle
  rw [if_pos ⟨rfl, hp⟩]
  trivial

/-- The same holds for the local coordinate of such a point. -/
theorem C10_param_rejected (e : Elliptical) (p : V3)
    (hp : ¬ Ellipse.contains e p (1 / 10 ^ 7)) : (Ellipse.getParam e p).isThrown := by
  unfold Ellipse.getParam Ellipse.getAngle
  rw [if_pos ⟨rfl, hp⟩]
  trivial

/-- Non-trivial instance: the angle `5π/4` on a tilted ellipse. -/
example : 1 / 10 ^ 7 ≤ |Real.cos (5 * Real.pi / 4)| ∧ 1 / 10 ^ 7 ≤ |Real.sin (5 * Real.pi / 4)| ∧
    5 * Real.pi / 4 < 2 * Real.pi := by
  have hpi := Real.pi_pos
  have h2 : (1 : ℝ) ≤ Real.sqrt 2 := by
    rw [Real.le_sqrt' (by norm_num)]; norm_num
  refine ⟨?_, ?_, by linarith⟩
  · rw [show 5 * Real.pi / 4 = Real.pi / 4 + Real.pi by ring, Real.cos_add_pi, Real.cos_pi_div_four,
      abs_neg, abs_of_pos (by positivity)]
    norm_num; linarith
  · rw [show 5 * Real.pi / 4 = Real.pi / 4 + Real.pi by ring, Real.sin_add_pi, Real.sin_pi_div_four,
      abs_neg, abs_of_pos (by positivity)]
    norm_num; linarith

end Props
