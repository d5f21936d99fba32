import Verif.Props.EllipseAngle
import Mathlib.Analysis.SpecialFunctions.Trigonometric.Bounds

/-!
# Ellipse arcs (C11)
-/

namespace Props
open Verif Frackit

theorem cos_incr {x y : ℝ} (h0 : Real.pi ≤ x) (h1 : x ≤ y) (h2 : y ≤ 2 * Real.pi) :
    Real.cos x ≤ Real.cos y := by
  have := Real.cos_le_cos_of_nonneg_of_le_pi (x := x - Real.pi) (y := y - Real.pi) (by linarith)
    (by linarith) (by linarith)
  rw [Real.cos_sub_pi, Real.cos_sub_pi] at this
  linarith

theorem sin_decr {x y : ℝ} (h0 : Real.pi / 2 ≤ x) (h1 : x ≤ y) (h2 : y ≤ 3 * Real.pi / 2) :
    Real.sin y ≤ Real.sin x := by
  have := Real.cos_le_cos_of_nonneg_of_le_pi (x := x - Real.pi / 2) (y := y - Real.pi / 2)
    (by linarith) (by linarith) (by linarith)
  rwa [Real.cos_sub_pi_div_two, Real.cos_sub_pi_div_two] at this

theorem snap_of_cos {t : ℝ} (h : |Real.cos t| < confusion) :
    snap t = if Real.sin t < 0 then 3 * Real.pi / 2 else Real.pi / 2 := by
  unfold snap; rw [if_pos h]

theorem snap_of_sin {t : ℝ} (h : ¬ |Real.cos t| < confusion) (h' : |Real.sin t| < confusion) :
    snap t = if Real.cos t < 0 then Real.pi else 0 := by
  unfold snap; rw [if_neg h, if_pos h']

theorem snap_of_neither {t : ℝ} (h : ¬ |Real.cos t| < confusion) (h' : ¬ |Real.sin t| < confusion) :
    snap t = t := by
  unfold snap; rw [if_neg h, if_neg h']

theorem sin_neg_of {t : ℝ} (h0 : Real.pi < t) (h1 : t < 2 * Real.pi) : Real.sin t < 0 := by
  have := Real.sin_pos_of_pos_of_lt_pi (x := t - Real.pi) (by linarith) (by linarith)
  rw [Real.sin_sub_pi] at this
  linarith

/-- Snapping does not cross a snapped angle from above, except that angles just below `2π` become
zero. -/
theorem snap_lower {a t : ℝ} (ha0 : 0 ≤ a) (hfix : snap a = a) (hat : a ≤ t)
    (ht : t < 2 * Real.pi) : a ≤ snap t ∨ (snap t = 0 ∧ 3 * Real.pi / 2 < t ∧
      |Real.sin t| < confusion ∧ ¬ |Real.cos t| < confusion) := by
  have hpi := Real.pi_pos
  have hc := confusion_pos
  have h0t : 0 ≤ t := le_trans ha0 hat
  by_cases c1 : |Real.cos t| < confusion
  · left
    rw [snap_of_cos c1]
    rw [abs_lt] at c1
    split_ifs with n
    · by_contra hlt
      push Not at hlt
      have k := cos_incr (by linarith) hat ht.le
      have k2 := cos_incr (x := 3 * Real.pi / 2) (y := a) (by linarith) hlt.le (by linarith)
      have k3 : Real.cos (3 * Real.pi / 2) = 0 := by
        rw [show 3 * Real.pi / 2 = Real.pi / 2 + Real.pi by ring, Real.cos_add_pi,
          Real.cos_pi_div_two, neg_zero]
      rw [k3] at k2
      rw [snap_of_cos (abs_lt.2 ⟨by linarith, by linarith⟩),
        if_pos (sin_neg_of (by linarith) (by linarith))] at hfix
      linarith
    · by_contra hlt
      push Not at hlt
      have htp := sin_nonneg_iff ht (not_lt.1 n)
      have k := Real.cos_le_cos_of_nonneg_of_le_pi ha0 htp hat
      have k2 := Real.cos_le_cos_of_nonneg_of_le_pi (x := Real.pi / 2) (y := a) (by linarith)
        (by linarith) hlt.le
      rw [Real.cos_pi_div_two] at k2
      rw [snap_of_cos (abs_lt.2 ⟨by linarith, by linarith⟩), if_neg (not_lt.2
        (Real.sin_nonneg_of_nonneg_of_le_pi ha0 (by linarith)))] at hfix
      linarith
  · by_cases c2 : |Real.sin t| < confusion
    · have c2' := c2
      have c1' := c1
      rw [abs_lt] at c2
      rw [not_lt] at c1
      rw [snap_of_sin c1' c2']
      by_cases n : Real.cos t < 0
      · left
        rw [if_pos n]
        rw [abs_of_neg n] at c1
        by_contra hlt
        push Not at hlt
        obtain ⟨l, r⟩ := cos_neg_iff h0t ht n
        have k := sin_decr (by linarith) hat r.le
        have k2 := sin_neg_of hlt (by linarith)
        have k3 := cos_incr hlt.le hat ht.le
        rw [snap_of_sin (by rw [abs_of_neg (by linarith)]; linarith)
          (abs_lt.2 ⟨by linarith, by linarith⟩), if_pos (by linarith)] at hfix
        linarith
      · rw [if_neg n]
        rw [abs_of_nonneg (not_lt.1 n)] at c1
        rcases cos_pos_iff (t := t) (by linarith) with h | h
        · left
          have k := Real.sin_le_sin_of_le_of_le_pi_div_two (x := a) (y := t) (by linarith) h.le hat
          have k2 := Real.sin_nonneg_of_nonneg_of_le_pi ha0 (by linarith)
          have k3 := Real.cos_le_cos_of_nonneg_of_le_pi ha0 (by linarith) hat
          rw [snap_of_sin (by rw [abs_of_nonneg (by linarith)]; linarith)
            (abs_lt.2 ⟨by linarith, by linarith⟩), if_neg (by linarith)] at hfix
          linarith
        · right
          exact ⟨rfl, h, c2', c1'⟩
    · left
      rw [snap_of_neither c1 c2]
      exact hat

/-- Snapping does not cross a snapped angle from below. -/
theorem snap_upper {b t : ℝ} (h0 : 0 ≤ t) (hfix : snap b = b) (htb : t ≤ b)
    (hb : b < 2 * Real.pi) : snap t ≤ b := by
  have hpi := Real.pi_pos
  have hc := confusion_pos
  have ht : t < 2 * Real.pi := by linarith
  by_cases c1 : |Real.cos t| < confusion
  · rw [snap_of_cos c1]
    rw [abs_lt] at c1
    split_ifs with n
    · by_contra hlt
      push Not at hlt
      have htp := sin_neg_iff h0 n
      have k := cos_incr htp.le htb (by linarith)
      have k2 := Real.cos_nonpos_of_pi_div_two_le_of_le (x := b) (by linarith) (by linarith)
      rw [snap_of_cos (abs_lt.2 ⟨by linarith, by linarith⟩),
        if_pos (sin_neg_of (by linarith) (by linarith))] at hfix
      linarith
    · by_contra hlt
      push Not at hlt
      have k := Real.cos_le_cos_of_nonneg_of_le_pi h0 (by linarith) htb
      have k2 := Real.cos_nonneg_of_mem_Icc (x := b) ⟨by linarith, by linarith⟩
      rw [snap_of_cos (abs_lt.2 ⟨by linarith, by linarith⟩), if_neg (not_lt.2
        (Real.sin_nonneg_of_nonneg_of_le_pi (by linarith) (by linarith)))] at hfix
      linarith
  · by_cases c2 : |Real.sin t| < confusion
    · have c2' := c2
      have c1' := c1
      rw [abs_lt] at c2
      rw [not_lt] at c1
      rw [snap_of_sin c1' c2']
      by_cases n : Real.cos t < 0
      · rw [if_pos n]
        rw [abs_of_neg n] at c1
        by_contra hlt
        push Not at hlt
        obtain ⟨l, r⟩ := cos_neg_iff h0 ht n
        have k := sin_decr l.le htb (by linarith)
        have k2 := Real.sin_nonneg_of_nonneg_of_le_pi (x := b) (by linarith) hlt.le
        have k3 := Real.cos_le_cos_of_nonneg_of_le_pi h0 hlt.le htb
        rw [snap_of_sin (by rw [abs_of_neg (by linarith)]; linarith)
          (abs_lt.2 ⟨by linarith, by linarith⟩), if_pos (by linarith)] at hfix
        linarith
      · rw [if_neg n]; linarith
    · rw [snap_of_neither c1 c2]; exact htb

theorem snap_snap (t : ℝ) : snap (snap t) = snap t := by
  have hpi := Real.pi_pos
  have hc := confusion_pos
  have hc2 := confusion_lt
  have c32 : Real.cos (3 * Real.pi / 2) = 0 := by
    rw [show 3 * Real.pi / 2 = Real.pi / 2 + Real.pi by ring, Real.cos_add_pi, Real.cos_pi_div_two,
      neg_zero]
  have s32 : Real.sin (3 * Real.pi / 2) = -1 := by
    rw [show 3 * Real.pi / 2 = Real.pi / 2 + Real.pi by ring, Real.sin_add_pi, Real.sin_pi_div_two]
  by_cases c1 : |Real.cos t| < confusion
  · rw [snap_of_cos c1]
    split_ifs
    · rw [snap_of_cos (by rw [c32, abs_zero]; exact hc), s32, if_pos (by norm_num)]
    · rw [snap_of_cos (by rw [Real.cos_pi_div_two, abs_zero]; exact hc), Real.sin_pi_div_two,
        if_neg (by norm_num)]
  · by_cases c2 : |Real.sin t| < confusion
    · rw [snap_of_sin c1 c2]
      split_ifs
      · rw [snap_of_sin (by rw [Real.cos_pi, abs_neg, abs_one]; linarith)
          (by rw [Real.sin_pi, abs_zero]; exact hc), Real.cos_pi, if_pos (by norm_num)]
      · rw [snap_of_sin (by rw [Real.cos_zero, abs_one]; linarith)
          (by rw [Real.sin_zero, abs_zero]; exact hc), Real.cos_zero, if_neg (by norm_num)]
    · rw [snap_of_neither c1 c2, snap_of_neither c1 c2]

theorem point_periodic (e : Elliptical) (t : ℝ) :
    Ellipse.getPointFromAngle e (t + 2 * Real.pi) = Ellipse.getPointFromAngle e t := by
  unfold Ellipse.getPointFromAngle
  rw [Real.cos_add_two_pi, Real.sin_add_two_pi]

/-- `q` is the point `p` of the ellipse up to the tolerance, relative to each semi-axis. -/
def CloseOnEllipse (e : Elliptical) (p q : V3) : Prop :=
  ∃ x y x' y', p = Spec.localPoint e.center e.major e.minor x y ∧
    q = Spec.localPoint e.center e.major e.minor x' y' ∧
    |x - x'| ≤ 1 / 10 ^ 7 * e.majLen ∧ |y - y'| ≤ 1 / 10 ^ 7 * e.minLen

/-- `p` is not within the tolerance of an axis of the ellipse. -/
def OffAxes (e : Elliptical) (p : V3) : Prop :=
  ∃ x y, p = Spec.localPoint e.center e.major e.minor x y ∧
    1 / 10 ^ 7 * e.majLen ≤ |x| ∧ 1 / 10 ^ 7 * e.minLen ≤ |y|

/-! ## C11 Points produced from an ellipse arc are on the arc -/

/-- The arc data for two points of the ellipse. -/
theorem arc_make {e : Elliptical} (h : ValidElliptical e) {s t : V3} {arc : EllipseArc}
    (hs : Spec.OnEllipse e.center e.major e.minor e.majLen e.minLen s)
    (ht : Spec.OnEllipse e.center e.major e.minor e.majLen e.minLen t)
    (hm : EllipseArc.make e s t = .val arc) :
    ∃ a b, 0 ≤ a ∧ a < 2 * Real.pi ∧ 0 ≤ b ∧ b < 2 * Real.pi ∧
      Ellipse.getPointFromAngle e a = s ∧ Ellipse.getPointFromAngle e b = t ∧
      arc.ellipse = e ∧ arc.sourceAngle = snap a ∧
      ((pointIsEqual s t (e.majLen * confusion) ∧ arc.isFullEllipse ∧
          arc.targetAngle = if snap a < angular then 2 * Real.pi else snap a) ∨
       (¬ pointIsEqual s t (e.majLen * confusion) ∧ ¬ arc.isFullEllipse ∧
          arc.targetAngle = snap b)) := by
  obtain ⟨a, a0, a1, rfl⟩ := C09_ellipse_points_reached e h s hs
  obtain ⟨b, b0, b1, rfl⟩ := C09_ellipse_points_reached e h t ht
  refine ⟨a, b, a0, a1, b0, b1, rfl, rfl, ?_⟩
  unfold EllipseArc.make at hm
  simp only at hm
  rw [getAngle_point h a0 a1, getAngle_point h b0 b1] at hm
  split_ifs at hm with hq
  · cases hm
    exact ⟨rfl, rfl, Or.inl ⟨hq, trivial, rfl⟩⟩
  · cases hm
    exact ⟨rfl, rfl, Or.inr ⟨hq, id, rfl⟩⟩

/-- Full claim: every point produced from an arc between two points of an ellipse is contained in
the arc. -/
def C11_full : Prop :=
  ∀ (e : Elliptical) (s t : V3) (arc : EllipseArc) (r eps : ℝ), ValidElliptical e →
    Spec.OnEllipse e.center e.major e.minor e.majLen e.minLen s →
    Spec.OnEllipse e.center e.major e.minor e.majLen e.minLen t →
    EllipseArc.make e s t = .val arc → 0 ≤ r → r ≤ 1 → 0 < eps →
    ∃ P, arc.contains (arc.getPoint r) eps = .val P ∧ P

/-- Containment on the arc in terms of the reported angle. -/
theorem arc_contains {arc : EllipseArc} (h : ValidElliptical arc.ellipse) {t eps : ℝ} (h0 : 0 ≤ t)
    (h1 : t < 2 * Real.pi) (he : 0 < eps) :
    arc.contains (Ellipse.getPointFromAngle arc.ellipse t) eps = .val
      (if arc.sourceAngle > arc.targetAngle then
        snap t ≥ arc.sourceAngle - eps ∨ snap t ≤ arc.targetAngle + eps
      else snap t ≥ arc.sourceAngle - eps ∧ snap t ≤ arc.targetAngle + eps) := by
  have hin := C09_ellipse_contains arc.ellipse h _ eps true he
    (C09_ellipse_points_on_curve arc.ellipse h t).1
  unfold EllipseArc.contains
  rw [if_neg (by rintro ⟨_, hn⟩; exact hn hin), getAngle_point h h0 h1]
  rfl

/-- Every point produced from an arc is contained in the arc for every positive tolerance, if the
angles of source and target differ, which excludes full arcs except those starting at angle zero
(missing: full arcs that start elsewhere, and arcs so close to an axis that source and target have
the same angle; see `C11_disproof`). -/
theorem C11_points_contained_partial (e : Elliptical) (s t : V3) (arc : EllipseArc) (r eps : ℝ)
    (h : ValidElliptical e) (hs : Spec.OnEllipse e.center e.major e.minor e.majLen e.minLen s)
    (ht : Spec.OnEllipse e.center e.major e.minor e.majLen e.minLen t)
    (hm : EllipseArc.make e s t = .val arc) (hne : arc.sourceAngle ≠ arc.targetAngle)
    (hr0 : 0 ≤ r) (hr1 : r ≤ 1) (he : 0 < eps) :
    ∃ P, arc.contains (arc.getPoint r) eps = .val P ∧ P := by
  have hpi := Real.pi_pos
  obtain ⟨a, b, a0, a1, b0, b1, _, _, rfl, hsa, hcase⟩ := arc_make h hs ht hm
  obtain ⟨sa0, sa1⟩ := snap_range a0 a1
  obtain ⟨sb0, sb1⟩ := snap_range b0 b1
  unfold EllipseArc.getPoint
  simp only
  rcases hcase with ⟨_, _, hta⟩ | ⟨_, _, hta⟩
  · -- full arc: source angle zero
    by_cases hz : snap a < angular
    · rw [if_pos hz] at hta
      have hlt : arc.sourceAngle < arc.targetAngle := by rw [hsa, hta]; exact sa1
      rw [if_pos hlt]
      set w := arc.sourceAngle + (arc.targetAngle - arc.sourceAngle) * r with hw
      have w0 : snap a ≤ w := by
        rw [hw, hsa, hta]; nlinarith
      have w1 : w ≤ 2 * Real.pi := by
        rw [hw, hsa, hta]; nlinarith
      have sz : snap a = 0 := by
        by_contra hn
        -- a positive snapped angle is at least the tolerance
        have hge : confusion ≤ snap a := by
          by_cases c1 : |Real.cos a| < confusion
          · rw [snap_of_cos c1]
            have := confusion_lt
            have := Real.two_le_pi
            split_ifs <;> linarith
          · by_cases c2 : |Real.sin a| < confusion
            · rw [snap_of_sin c1 c2] at hn ⊢
              have := confusion_lt
              have := Real.two_le_pi
              split_ifs at hn ⊢ <;> first | linarith | exact absurd rfl hn
            · rw [snap_of_neither c1 c2]
              have h1 : Real.sin a ≤ a := Real.sin_le a0
              by_cases hap : a ≤ Real.pi
              · rw [abs_of_nonneg (Real.sin_nonneg_of_nonneg_of_le_pi a0 hap)] at c2
                linarith
              · have := confusion_lt
                have := Real.two_le_pi
                linarith
        have : angular < confusion := by unfold angular confusion; norm_num
        linarith
      by_cases hw2 : w = 2 * Real.pi
      · rw [hw2, show (2 * Real.pi : ℝ) = 0 + 2 * Real.pi by ring, point_periodic,
          arc_contains h le_rfl (by linarith) he, if_neg (not_lt.2 hlt.le)]
        obtain ⟨z0, z1⟩ := snap_range (t := 0) le_rfl (by linarith)
        exact ⟨_, rfl, by rw [hsa, sz]; linarith, by rw [hta]; linarith⟩
      · have w1' : w < 2 * Real.pi := lt_of_le_of_ne w1 hw2
        rw [arc_contains h (by linarith) w1' he, if_neg (not_lt.2 hlt.le)]
        obtain ⟨z0, z1⟩ := snap_range (t := w) (by linarith) w1'
        exact ⟨_, rfl, by rw [hsa, sz]; linarith, by rw [hta]; linarith⟩
    · rw [if_neg hz] at hta
      exact absurd (by rw [hsa, hta]) hne
  · by_cases hlt : arc.sourceAngle < arc.targetAngle
    · rw [if_pos hlt]
      set w := arc.sourceAngle + (arc.targetAngle - arc.sourceAngle) * r with hw
      have w0 : snap a ≤ w := by
        rw [hw, hsa]; rw [hsa] at hlt; nlinarith
      have w1 : w ≤ snap b := by
        rw [hw, hta]; rw [hta] at hlt; nlinarith
      rw [arc_contains h (by linarith) (by linarith) he, if_neg (not_lt.2 hlt.le)]
      refine ⟨_, rfl, ?_, ?_⟩
      · rw [hsa]
        rcases snap_lower sa0 (snap_snap a) w0 (by linarith) with k | ⟨_, k2, k3, k4⟩
        · linarith
        · -- just below 2π: the target would have been snapped as well
          exfalso
          have m1 := sin_neg_of (t := snap b) (by linarith) sb1
          have m2 : Real.sin w ≤ Real.sin (snap b) := by
            have := Real.sin_le_sin_of_le_of_le_pi_div_two (x := w - 2 * Real.pi)
              (y := snap b - 2 * Real.pi) (by linarith) (by linarith) (by linarith)
            rwa [Real.sin_sub_two_pi, Real.sin_sub_two_pi] at this
          have m3 := cos_incr (x := w) (y := snap b) (by linarith) w1 sb1.le
          have m4 : 0 ≤ Real.cos w := by
            have := Real.cos_nonneg_of_mem_Icc (x := w - 2 * Real.pi) ⟨by linarith, by linarith⟩
            rwa [Real.cos_sub_two_pi] at this
          rw [abs_lt] at k3
          rw [abs_of_nonneg m4] at k4
          have m5 := snap_of_sin (t := snap b) (by rw [abs_of_nonneg (by linarith)]; linarith)
            (abs_lt.2 ⟨by linarith, by linarith [confusion_pos]⟩)
          rw [if_neg (by linarith), snap_snap] at m5
          linarith
      · rw [hta]
        have := snap_upper (t := w) (by linarith) (snap_snap b) w1 sb1
        linarith
    · rw [if_neg hlt]
      have hgt : arc.targetAngle < arc.sourceAngle := lt_of_le_of_ne (not_lt.1 hlt) hne.symm
      set w := arc.sourceAngle + (2 * Real.pi - arc.sourceAngle + arc.targetAngle) * r with hw
      rw [hsa, hta] at hw hgt
      have w0 : snap a ≤ w := by
        rw [hw]; nlinarith
      have w1 : w ≤ 2 * Real.pi + snap b := by
        rw [hw]; nlinarith
      by_cases hw2 : w < 2 * Real.pi
      · rw [arc_contains h (by linarith) hw2 he, if_pos (by rw [hsa, hta]; exact hgt)]
        refine ⟨_, rfl, ?_⟩
        rw [hsa, hta]
        rcases snap_lower sa0 (snap_snap a) w0 hw2 with k | ⟨k, _⟩
        · left; linarith
        · right; linarith
      · rw [show w = (w - 2 * Real.pi) + 2 * Real.pi by ring, point_periodic,
          arc_contains h (by linarith) (by linarith) he, if_pos (by rw [hsa, hta]; exact hgt)]
        refine ⟨_, rfl, ?_⟩
        rw [hsa, hta]
        right
        have := snap_upper (t := w - 2 * Real.pi) (by linarith) (snap_snap b) (by linarith) sb1
        linarith

theorem close_of_snap {e : Elliptical} (h : ValidElliptical e) (a : ℝ) :
    CloseOnEllipse e (Ellipse.getPointFromAngle e a) (Ellipse.getPointFromAngle e (snap a)) ∧
    (OffAxes e (Ellipse.getPointFromAngle e a) →
      Ellipse.getPointFromAngle e (snap a) = Ellipse.getPointFromAngle e a) := by
  have ha := h.maj_pos
  have hb := h.min_pos
  obtain ⟨k1, k2⟩ := snap_close a
  constructor
  · refine ⟨_, _, _, _, point_eq_local e a, point_eq_local e (snap a), ?_, ?_⟩
    · rw [← sub_mul, abs_mul, abs_of_pos ha]
      exact mul_le_mul_of_nonneg_right k1 ha.le
    · rw [← sub_mul, abs_mul, abs_of_pos hb]
      exact mul_le_mul_of_nonneg_right k2 hb.le
  · rintro ⟨x, y, hxy, g1, g2⟩
    have q1 := (local_coords h x y).1
    have q2 := (local_coords h x y).2.1
    rw [← hxy, point_eq_local] at q1 q2
    rw [(local_coords h _ _).1] at q1
    rw [(local_coords h _ _).2.1] at q2
    rw [← q1, abs_mul, abs_of_pos ha] at g1
    rw [← q2, abs_mul, abs_of_pos hb] at g2
    rw [snap_of_neither (not_lt.2 (le_of_mul_le_mul_right g1 ha))
      (not_lt.2 (le_of_mul_le_mul_right g2 hb))]

/-- The point for parameter zero is the source, the one for parameter one the target: up to the
tolerance, and exactly if source and target are not within the tolerance of an axis.  The equality of
source and target up to the tolerance for a full arc is the reason for stating the target of a full
arc as the source. -/
theorem C11_end_points (e : Elliptical) (s t : V3) (arc : EllipseArc)
    (h : ValidElliptical e) (hs : Spec.OnEllipse e.center e.major e.minor e.majLen e.minLen s)
    (ht : Spec.OnEllipse e.center e.major e.minor e.majLen e.minLen t)
    (hm : EllipseArc.make e s t = .val arc) :
    CloseOnEllipse e s (arc.getPoint 0) ∧ (OffAxes e s → arc.getPoint 0 = s) ∧
    (¬ arc.isFullEllipse → CloseOnEllipse e t (arc.getPoint 1)) ∧
    (¬ arc.isFullEllipse → OffAxes e t → arc.getPoint 1 = t) ∧
    (arc.isFullEllipse → OffAxes e s → arc.getPoint 1 = s) := by
  have hpi := Real.pi_pos
  obtain ⟨a, b, a0, a1, b0, b1, rfl, rfl, rfl, hsa, hcase⟩ := arc_make h hs ht hm
  have g0 : arc.getPoint 0 = Ellipse.getPointFromAngle arc.ellipse (snap a) := by
    unfold EllipseArc.getPoint; simp only [mul_zero, add_zero, hsa]
  have g1 : arc.getPoint 1 = Ellipse.getPointFromAngle arc.ellipse arc.targetAngle := by
    unfold EllipseArc.getPoint
    simp only [mul_one]
    split_ifs
    · congr 1; ring
    · rw [show arc.sourceAngle + (2 * Real.pi - arc.sourceAngle + arc.targetAngle)
        = arc.targetAngle + 2 * Real.pi by ring, point_periodic]
  obtain ⟨ca, ea⟩ := close_of_snap h a
  obtain ⟨cb, eb⟩ := close_of_snap h b
  refine ⟨by rw [g0]; exact ca, fun ho => by rw [g0]; exact ea ho, ?_, ?_, ?_⟩
  · intro hf
    rcases hcase with ⟨_, hf', _⟩ | ⟨_, _, hta⟩
    · exact absurd hf' hf
    · rw [g1, hta]; exact cb
  · intro hf ho
    rcases hcase with ⟨_, hf', _⟩ | ⟨_, _, hta⟩
    · exact absurd hf' hf
    · rw [g1, hta]; exact eb ho
  · intro hf ho
    rcases hcase with ⟨_, _, hta⟩ | ⟨_, hf', _⟩
    · have hea := ea ho
      by_cases hz : snap a < angular
      · exfalso
        -- the angle would be within the tolerance of the major axis
        obtain ⟨x, y, hxy, q1, q2⟩ := ho
        have r1 := (local_coords h x y).1
        have r2 := (local_coords h x y).2.1
        rw [← hxy, point_eq_local] at r1 r2
        rw [(local_coords h _ _).1] at r1
        rw [(local_coords h _ _).2.1] at r2
        rw [← r1, abs_mul, abs_of_pos h.maj_pos] at q1
        rw [← r2, abs_mul, abs_of_pos h.min_pos] at q2
        have q2' := le_of_mul_le_mul_right q2 h.min_pos
        rw [snap_of_neither (not_lt.2 (le_of_mul_le_mul_right q1 h.maj_pos)) (not_lt.2 q2')] at hz
        have l1 : Real.sin a ≤ a := Real.sin_le a0
        have hang : angular < 1 / 10 ^ 7 := by unfold angular; norm_num
        have hang2 : angular < 1 := by unfold angular; norm_num
        have := Real.two_le_pi
        rw [abs_of_nonneg (Real.sin_nonneg_of_nonneg_of_le_pi a0 (by linarith))] at q2'
        linarith
      · rw [if_neg hz] at hta
        rw [g1, hta]; exact hea
    · exact absurd hf hf'

/-- Unit circle in the plane `z = 0`. -/
def unitCircle : Elliptical := ⟨⟨0, 0, 0⟩, ⟨1, 0, 0⟩, ⟨0, 1, 0⟩, ⟨0, 0, 1⟩, 1, 1⟩

theorem unitCircle_valid : ValidElliptical unitCircle := by
  refine ⟨⟨?_, ?_, ?_, ?_, ?_, ?_, ?_⟩, ?_, ?_⟩ <;>
    norm_num [unitCircle, Spec.IsUnit, Spec.Orthogonal, Spec.inner, Spec.det]

/-- The claim fails for full ellipses: the arc from `(0,1,0)` to itself on the unit circle does not
contain its point for parameter `1/2`. -/
theorem C11_disproof : ¬ C11_full := by
  intro H
  have hpi := Real.pi_pos
  have hpi2 := Real.two_le_pi
  have hv := unitCircle_valid
  have hon := (C09_ellipse_points_on_curve unitCircle hv (Real.pi / 2)).1
  set s := Ellipse.getPointFromAngle unitCircle (Real.pi / 2) with hs
  have hc32 : Real.cos (3 * Real.pi / 2) = 0 := by
    rw [show 3 * Real.pi / 2 = Real.pi / 2 + Real.pi by ring, Real.cos_add_pi,
      Real.cos_pi_div_two, neg_zero]
  have hs32 : Real.sin (3 * Real.pi / 2) = -1 := by
    rw [show 3 * Real.pi / 2 = Real.pi / 2 + Real.pi by ring, Real.sin_add_pi, Real.sin_pi_div_two]
  have hsn : snap (Real.pi / 2) = Real.pi / 2 := by
    rw [snap_of_cos (by rw [Real.cos_pi_div_two, abs_zero]; exact confusion_pos),
      Real.sin_pi_div_two, if_neg (by norm_num)]
  have hsn3 : snap (3 * Real.pi / 2) = 3 * Real.pi / 2 := by
    rw [snap_of_cos (by rw [hc32, abs_zero]; exact confusion_pos), hs32, if_pos (by norm_num)]
  have hang : angular < 1 := by unfold angular; norm_num
  have hm : EllipseArc.make unitCircle s s
      = .val ⟨unitCircle, s, s, Real.pi / 2, Real.pi / 2, True⟩ := by
    unfold EllipseArc.make
    simp only
    rw [if_pos (by
      unfold pointIsEqual
      have : (s - s).sqLen = 0 := by simp [V3.sqLen]
      rw [this]
      have := confusion_pos
      simp [unitCircle]; positivity), hs, getAngle_point hv (by linarith) (by linarith), hsn]
    simp only [Outcome.val_bind]
    rw [if_neg (by linarith)]
    rfl
  obtain ⟨P, hP, hPt⟩ := H unitCircle s s _ (1 / 2) (1 / 10) hv hon hon hm (by norm_num)
    (by norm_num) (by norm_num)
  have hgp : (⟨unitCircle, s, s, Real.pi / 2, Real.pi / 2, True⟩ : EllipseArc).getPoint (1 / 2)
      = Ellipse.getPointFromAngle unitCircle (3 * Real.pi / 2) := by
    unfold EllipseArc.getPoint
    simp only [lt_irrefl, if_false]
    congr 1; ring
  rw [hgp, arc_contains (arc := ⟨unitCircle, s, s, Real.pi / 2, Real.pi / 2, True⟩) hv
    (by linarith) (by linarith) (by norm_num), hsn3] at hP
  simp only [gt_iff_lt, lt_irrefl, if_false, Outcome.val.injEq] at hP
  rw [← hP] at hPt
  linarith [hPt.2]

/-- The claim also fails for arcs that are no full ellipse: if source and target are distinct points
within the tolerance of the same axis end, both get the same angle and the points produced from the
arc sweep the whole ellipse.  Here source and target are `1.8e-7` apart on the unit circle. -/
theorem C11_short_arc_disproof :
    ∃ (s t : V3) (arc : EllipseArc),
      Spec.OnEllipse ⟨0, 0, 0⟩ ⟨1, 0, 0⟩ ⟨0, 1, 0⟩ 1 1 s ∧
      Spec.OnEllipse ⟨0, 0, 0⟩ ⟨1, 0, 0⟩ ⟨0, 1, 0⟩ 1 1 t ∧
      EllipseArc.make unitCircle s t = .val arc ∧ ¬ arc.isFullEllipse ∧
      ∃ P, arc.contains (arc.getPoint (1 / 2)) (1 / 10) = .val P ∧ ¬ P := by
  have hpi := Real.pi_pos
  have hpi2 := Real.two_le_pi
  have hv := unitCircle_valid
  set d : ℝ := Real.arcsin (9 / 10 ^ 8) with hd
  have hsd : Real.sin d = 9 / 10 ^ 8 := Real.sin_arcsin (by norm_num) (by norm_num)
  have d0 : 0 ≤ d := Real.arcsin_nonneg.2 (by norm_num)
  have d1 : d ≤ Real.pi / 2 := Real.arcsin_le_pi_div_two _
  have hcd : 0 ≤ Real.cos d := Real.cos_nonneg_of_mem_Icc ⟨by linarith, d1⟩
  have c1 : Real.cos (Real.pi / 2 - d) = 9 / 10 ^ 8 := by rw [Real.cos_pi_div_two_sub, hsd]
  have s1 : Real.sin (Real.pi / 2 - d) = Real.cos d := Real.sin_pi_div_two_sub d
  have c2 : Real.cos (d + Real.pi / 2) = -(9 / 10 ^ 8) := by rw [Real.cos_add_pi_div_two, hsd]
  have s2 : Real.sin (d + Real.pi / 2) = Real.cos d := Real.sin_add_pi_div_two d
  have n1 : snap (Real.pi / 2 - d) = Real.pi / 2 := by
    rw [snap_of_cos (by rw [c1]; unfold confusion; norm_num), s1, if_neg (not_lt.2 hcd)]
  have n2 : snap (d + Real.pi / 2) = Real.pi / 2 := by
    rw [snap_of_cos (by rw [c2]; unfold confusion; norm_num), s2, if_neg (not_lt.2 hcd)]
  have hc32 : Real.cos (3 * Real.pi / 2) = 0 := by
    rw [show 3 * Real.pi / 2 = Real.pi / 2 + Real.pi by ring, Real.cos_add_pi,
      Real.cos_pi_div_two, neg_zero]
  have hs32 : Real.sin (3 * Real.pi / 2) = -1 := by
    rw [show 3 * Real.pi / 2 = Real.pi / 2 + Real.pi by ring, Real.sin_add_pi, Real.sin_pi_div_two]
  have hsn3 : snap (3 * Real.pi / 2) = 3 * Real.pi / 2 := by
    rw [snap_of_cos (by rw [hc32, abs_zero]; exact confusion_pos), hs32, if_pos (by norm_num)]
  set s := Ellipse.getPointFromAngle unitCircle (Real.pi / 2 - d) with hs
  set t := Ellipse.getPointFromAngle unitCircle (d + Real.pi / 2) with ht
  refine ⟨s, t, ⟨unitCircle, s, t, Real.pi / 2, Real.pi / 2, False⟩,
    (C09_ellipse_points_on_curve unitCircle hv _).1,
    (C09_ellipse_points_on_curve unitCircle hv _).1, ?_, id, ?_⟩
  · unfold EllipseArc.make
    simp only
    have hne : ¬ pointIsEqual s t (unitCircle.majLen * confusion) := by
      rw [hs, ht]
      unfold pointIsEqual Ellipse.getPointFromAngle
      simp only [unitCircle, s1, c1, s2, c2]
      simp only [V3.sqLen, V3.sub_x, V3.sub_y, V3.sub_z, V3.add_x, V3.add_y, V3.add_z, V3.smul_x,
        V3.smul_y, V3.smul_z]
      unfold confusion
      norm_num
    rw [if_neg hne, hs, ht, getAngle_point hv (by linarith) (by linarith),
      getAngle_point hv (by linarith) (by linarith), n1, n2]
    rfl
  · have hgp : (⟨unitCircle, s, t, Real.pi / 2, Real.pi / 2, False⟩ : EllipseArc).getPoint (1 / 2)
        = Ellipse.getPointFromAngle unitCircle (3 * Real.pi / 2) := by
      unfold EllipseArc.getPoint
      simp only [lt_irrefl, if_false]
      congr 1; ring
    rw [hgp, arc_contains (arc := ⟨unitCircle, s, t, Real.pi / 2, Real.pi / 2, False⟩) hv
      (by linarith) (by linarith) (by norm_num), hsn3]
    refine ⟨_, rfl, ?_⟩
    simp only [gt_iff_lt, lt_irrefl, if_false]
    intro hP
    linarith [hP.2]

/-- Non-trivial instance: the arc from angle `3π/4` to angle `π/4` on the unit circle, which wraps
around angle zero. -/
example : ∃ s t arc, Spec.OnEllipse ⟨0, 0, 0⟩ ⟨1, 0, 0⟩ ⟨0, 1, 0⟩ 1 1 s ∧
    Spec.OnEllipse ⟨0, 0, 0⟩ ⟨1, 0, 0⟩ ⟨0, 1, 0⟩ 1 1 t ∧
    EllipseArc.make unitCircle s t = .val arc ∧ arc.sourceAngle > arc.targetAngle := by
  have hpi := Real.pi_pos
  have h2 : (1 : ℝ) ≤ Real.sqrt 2 := by
    rw [Real.le_sqrt' (by norm_num)]; norm_num
  have hv := unitCircle_valid
  have hc := confusion_lt
  have s1 : Real.sin (3 * Real.pi / 4) = Real.sqrt 2 / 2 := by
    rw [show 3 * Real.pi / 4 = Real.pi - Real.pi / 4 by ring, Real.sin_pi_sub, Real.sin_pi_div_four]
  have c1 : Real.cos (3 * Real.pi / 4) = -(Real.sqrt 2 / 2) := by
    rw [show 3 * Real.pi / 4 = Real.pi - Real.pi / 4 by ring, Real.cos_pi_sub, Real.cos_pi_div_four]
  have a1 : |Real.sqrt 2 / 2| = Real.sqrt 2 / 2 := abs_of_pos (by positivity)
  have sn1 : snap (3 * Real.pi / 4) = 3 * Real.pi / 4 :=
    snap_of_neither (by rw [c1, abs_neg, a1]; linarith) (by rw [s1, a1]; linarith)
  have sn2 : snap (Real.pi / 4) = Real.pi / 4 :=
    snap_of_neither (by rw [Real.cos_pi_div_four, a1]; linarith)
      (by rw [Real.sin_pi_div_four, a1]; linarith)
  refine ⟨Ellipse.getPointFromAngle unitCircle (3 * Real.pi / 4),
    Ellipse.getPointFromAngle unitCircle (Real.pi / 4),
    ⟨unitCircle, Ellipse.getPointFromAngle unitCircle (3 * Real.pi / 4),
      Ellipse.getPointFromAngle unitCircle (Real.pi / 4), 3 * Real.pi / 4, Real.pi / 4, False⟩,
    (C09_ellipse_points_on_curve unitCircle hv _).1,
    (C09_ellipse_points_on_curve unitCircle hv _).1, ?_, ?_⟩
  · unfold EllipseArc.make
    simp only
    rw [getAngle_point hv (by linarith) (by linarith), getAngle_point hv (by linarith) (by linarith),
      sn1, sn2, if_neg]
    · rfl
    · unfold pointIsEqual Ellipse.getPointFromAngle
      simp only [unitCircle, s1, c1, Real.sin_pi_div_four, Real.cos_pi_div_four]
      have hsq : Real.sqrt 2 ^ 2 = 2 := Real.sq_sqrt (by norm_num)
      simp only [V3.sqLen, V3.sub_x, V3.sub_y, V3.sub_z, V3.add_x, V3.add_y, V3.add_z, V3.smul_x,
        V3.smul_y, V3.smul_z]
      have hcp := confusion_pos
      nlinarith
  · show Real.pi / 4 < 3 * Real.pi / 4
    linarith

/-- With the default arguments points off the plane or off the ellipse are not contained; `x`, `y` and `z` are the
coordinates with respect to the axes and the normal of the supporting ellipse. -/
theorem C11_off_ellipse (arc : EllipseArc) (h : ValidElliptical arc.ellipse) (x y z : ℝ)
    (hp : 1 / 10 ^ 10 ≤ |z| ∨ 1 / 10 ^ 10 ≤ |(x / arc.ellipse.majLen) ^ 2 + (y / arc.ellipse.minLen) ^ 2 - 1|) :
    arc.containsDefault (Spec.localPoint arc.ellipse.center arc.ellipse.major arc.ellipse.minor x y
      + z • arc.ellipse.normal) = .val False := by
  obtain ⟨d1, d2, d3, d4, d5, d6⟩ := h.dots
  obtain ⟨e1, e2, e3⟩ := local_coords h x y
  set e := arc.ellipse with he
  set q := Spec.localPoint e.center e.major e.minor x y with hq
  have hsub : q + z • e.normal - e.center = (q - e.center) + z • e.normal := by module
  have f1 : (q + z • e.normal - e.center).dot e.major = x := by
    rw [hsub, V3.add_dot, V3.smul_dot, e1, V3.dot_comm e.normal, d6]; ring
  have f2 : (q + z • e.normal - e.center).dot e.minor = y := by
    rw [hsub, V3.add_dot, V3.smul_dot, e2, V3.dot_comm e.normal, d5]; ring
  have f3 : (q + z • e.normal - e.center).dot e.normal = z := by
    rw [hsub, V3.add_dot, V3.smul_dot, e3, d3]; ring
  have hn : ¬ Ellipse.contains e (q + z • e.normal) angular := by
    rintro ⟨k1, _, _, k2⟩
    have k1 : |(q + z • e.normal - e.center).dot e.normal| < angular := k1 rfl
    rw [f3] at k1
    rw [f1, f2, show x * x / (e.majLen * e.majLen) = (x / e.majLen) ^ 2 by ring,
      show y * y / (e.minLen * e.minLen) = (y / e.minLen) ^ 2 by ring] at k2
    have ha : angular = 1 / 10 ^ 10 := by norm_num [angular]
    rw [ha] at k1 k2
    rcases hp with hp | hp <;> linarith
  unfold EllipseArc.containsDefault EllipseArc.contains
  rw [if_pos ⟨rfl, hn⟩]

/-- A point above the unit circle, and its centre. -/
example (arc : EllipseArc) (h : arc.ellipse = unitCircle) :
    arc.containsDefault (Spec.localPoint arc.ellipse.center arc.ellipse.major arc.ellipse.minor 1 0
      + (1 / 10 : ℝ) • arc.ellipse.normal) = .val False ∧
    arc.containsDefault (Spec.localPoint arc.ellipse.center arc.ellipse.major arc.ellipse.minor 0 0
      + (0 : ℝ) • arc.ellipse.normal) = .val False := by
  have hv : ValidElliptical arc.ellipse := by rw [h]; exact unitCircle_valid
  refine ⟨C11_off_ellipse arc hv 1 0 (1 / 10) (Or.inl ?_), C11_off_ellipse arc hv 0 0 0 (Or.inr ?_)⟩
  · rw [abs_of_pos (by norm_num)]; norm_num
  · norm_num

end Props
