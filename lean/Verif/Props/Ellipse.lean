import Verif.Model.Geometry.Elliptical
import Verif.Spec.Elliptical
import Verif.Props.Plane

/-!
# Circles, ellipses, arcs and disks (C09, C10, C11, C12)
-/

namespace Props
open Verif Frackit

/-- A valid elliptical geometry: right-handed orthonormal axes, positive axis lengths. -/
structure ValidElliptical (e : Elliptical) : Prop where
  frame : Spec.RightHandedOrthonormal e.major e.minor e.normal
  maj_pos : 0 < e.majLen
  min_pos : 0 < e.minLen

theorem ValidElliptical.dots {e : Elliptical} (h : ValidElliptical e) :
    e.major.dot e.major = 1 ∧ e.minor.dot e.minor = 1 ∧ e.normal.dot e.normal = 1 ∧
    e.major.dot e.minor = 0 ∧ e.minor.dot e.normal = 0 ∧ e.major.dot e.normal = 0 := by
  obtain ⟨⟨h1, h2, h3, h4, h5, h6, _⟩, _, _⟩ := h
  refine ⟨?_, ?_, ?_, h4, h5, h6⟩
  · rw [← V3.sqLen_eq_dot]; exact (Spec.isUnit_iff _).1 h1
  · rw [← V3.sqLen_eq_dot]; exact (Spec.isUnit_iff _).1 h2
  · rw [← V3.sqLen_eq_dot]; exact (Spec.isUnit_iff _).1 h3

theorem frame_of_cross' {u v : V3} (hu : Spec.IsUnit u) (hv : Spec.IsUnit v)
    (ho : u.dot v = 0) : Spec.RightHandedOrthonormal u v (u.cross v) := by
  have h := frame_of_cross hu hv ho
  obtain ⟨h1, h2, h3, h4, h5, h6, h7⟩ := h
  refine ⟨hu, hv, h2, ho, ?_, ?_, ?_⟩
  · exact V3.dot_cross_right u v
  · exact V3.dot_cross_left u v
  · have hs := (Spec.isUnit_iff _).1 h2
    have : Spec.det u v (u.cross v) = (u.cross v).sqLen := by
      simp [Spec.det, V3.cross, V3.sqLen]; ring
    rw [this, hs]

/-- Orthonormal axes and positive lengths give a valid ellipse or disk with the same data. -/
theorem C09_make_valid (c u v : V3) (a b : ℝ) (hu : Spec.IsUnit u) (hv : Spec.IsUnit v)
    (ho : Spec.Orthogonal u v) (ha : 0 < a) (hb : 0 < b) :
    ∃ e, Elliptical.make c u v a b = .val e ∧ ValidElliptical e ∧ e.center = c ∧ e.major = u ∧
      e.minor = v ∧ e.majLen = a ∧ e.minLen = b := by
  have hn := mkDirection_of_unit (cross_unit hu hv ho)
  refine ⟨⟨c, u, v, u.cross v, a, b⟩, ?_, ⟨frame_of_cross' hu hv ho, ha, hb⟩, rfl, rfl, rfl, rfl, rfl⟩
  simp [Elliptical.make, hn]

/-- A circle is a valid elliptical geometry around the given normal with equal axis lengths. -/
theorem C09_circle_valid (c n : V3) (r : ℝ) (hn : Spec.IsUnit n) (hr : 0 < r) :
    ∃ e, Circle.make c n r = .val e ∧ ValidElliptical e ∧ e.center = c ∧ e.normal = n ∧
      e.majLen = r ∧ e.minLen = r := by
  obtain ⟨b, s, hb, hu, hs, hv⟩ := exists_direction (makeOrthogonalVector_ne_zero n)
  have ho : n.dot b = 0 := by
    have := makeOrthogonalVector_orthogonal n
    rw [hv, V3.dot_smul] at this
    exact (mul_eq_zero.1 this).resolve_left hs.ne'
  have hc := mkDirection_of_unit (cross_unit hn hu ho)
  have hf := frame_of_cross hn hu ho
  have hcr : b.cross (n.cross b) = n := by
    have h1 := (Spec.isUnit_iff b).1 hu
    have : b.cross (n.cross b) = b.sqLen • n - (n.dot b) • b := by
      ext <;> simp [V3.cross, V3.sqLen, V3.dot] <;> ring
    rw [this, h1, ho]; module
  refine ⟨⟨c, b, n.cross b, n, r, r⟩, ?_, ⟨hf, hr, hr⟩, rfl, rfl, rfl, rfl⟩
  simp [Circle.make, Elliptical.make, hb, hc, hcr, mkDirection_of_unit hn]

/-! ## C09 Ellipse and circle parametrisation stays on the curve -/

theorem local_coords {e : Elliptical} (h : ValidElliptical e) (x y : ℝ) :
    (Spec.localPoint e.center e.major e.minor x y - e.center).dot e.major = x ∧
    (Spec.localPoint e.center e.major e.minor x y - e.center).dot e.minor = y ∧
    (Spec.localPoint e.center e.major e.minor x y - e.center).dot e.normal = 0 := by
  obtain ⟨d1, d2, d3, d4, d5, d6⟩ := h.dots
  have e1 : Spec.localPoint e.center e.major e.minor x y - e.center
      = x • e.major + y • e.minor := by
    ext <;> simp [Spec.localPoint] <;> ring
  rw [e1]
  refine ⟨?_, ?_, ?_⟩
  · rw [V3.add_dot, V3.smul_dot, V3.smul_dot, d1, V3.dot_comm e.minor, d4]; ring
  · rw [V3.add_dot, V3.smul_dot, V3.smul_dot, d4, d2]; ring
  · rw [V3.add_dot, V3.smul_dot, V3.smul_dot, d6, d5]; ring

theorem point_eq_local (e : Elliptical) (t : ℝ) : Ellipse.getPointFromAngle e t
    = Spec.localPoint e.center e.major e.minor (Real.cos t * e.majLen) (Real.sin t * e.minLen) := by
  unfold Ellipse.getPointFromAngle Spec.localPoint
  ext <;> simp

/-- Every point produced by an ellipse is on the ellipse. -/
theorem C09_ellipse_points_on_curve (e : Elliptical) (h : ValidElliptical e) (t : ℝ) :
    Spec.OnEllipse e.center e.major e.minor e.majLen e.minLen (Ellipse.getPointFromAngle e t) ∧
    Spec.OnEllipse e.center e.major e.minor e.majLen e.minLen (Ellipse.getPoint e t) := by
  have key : ∀ t, Spec.OnEllipse e.center e.major e.minor e.majLen e.minLen
      (Ellipse.getPointFromAngle e t) := by
    intro t
    refine ⟨_, _, ?_, point_eq_local e t⟩
    rw [mul_div_cancel_right₀ _ h.maj_pos.ne', mul_div_cancel_right₀ _ h.min_pos.ne']
    exact Real.cos_sq_add_sin_sq t
  exact ⟨key t, key _⟩

/-- An angle in `[0, 2π)` for a point of the unit circle. -/
theorem exists_angle (X Y : ℝ) (h : X ^ 2 + Y ^ 2 = 1) :
    ∃ t, 0 ≤ t ∧ t < 2 * Real.pi ∧ Real.cos t = X ∧ Real.sin t = Y := by
  have hX : X ∈ Set.Icc (-1 : ℝ) 1 := by constructor <;> nlinarith [sq_nonneg Y]
  have hpi := Real.pi_pos
  by_cases hY : 0 ≤ Y
  · refine ⟨Real.arccos X, Real.arccos_nonneg X, ?_, Real.cos_arccos hX.1 hX.2, ?_⟩
    · linarith [Real.arccos_le_pi X]
    · rw [Real.sin_arccos, show 1 - X ^ 2 = Y ^ 2 by linarith, Real.sqrt_sq hY]
  · push Not at hY
    have hac : 0 < Real.arccos X := by
      rw [Real.arccos_pos]; nlinarith
    refine ⟨2 * Real.pi - Real.arccos X, by linarith [Real.arccos_le_pi X], by linarith, ?_, ?_⟩
    · rw [Real.cos_two_pi_sub, Real.cos_arccos hX.1 hX.2]
    · rw [Real.sin_two_pi_sub, Real.sin_arccos, show 1 - X ^ 2 = Y ^ 2 by linarith,
        Real.sqrt_sq_eq_abs, abs_of_neg hY]; ring

/-- Every point of the ellipse is produced for some angle in `[0, 2π)`. -/
theorem C09_ellipse_points_reached (e : Elliptical) (h : ValidElliptical e) (p : V3)
    (hp : Spec.OnEllipse e.center e.major e.minor e.majLen e.minLen p) :
    ∃ t, 0 ≤ t ∧ t < 2 * Real.pi ∧ Ellipse.getPointFromAngle e t = p := by
  obtain ⟨x, y, hxy, rfl⟩ := hp
  obtain ⟨t, h0, h1, hc, hs⟩ := exists_angle _ _ hxy
  refine ⟨t, h0, h1, ?_⟩
  rw [point_eq_local, hc, hs, div_mul_cancel₀ _ h.maj_pos.ne', div_mul_cancel₀ _ h.min_pos.ne']

/-- Points of the ellipse are contained for every positive tolerance. -/
theorem C09_ellipse_contains (e : Elliptical) (h : ValidElliptical e) (p : V3) (eps : ℝ)
    (check : Bool) (he : 0 < eps)
    (hp : Spec.OnEllipse e.center e.major e.minor e.majLen e.minLen p) :
    Ellipse.contains e p eps check := by
  obtain ⟨x, y, hxy, rfl⟩ := hp
  obtain ⟨e1, e2, e3⟩ := local_coords h x y
  have ha := h.maj_pos
  have hb := h.min_pos
  refine ⟨fun _ => ?_, ?_⟩
  · show |(_ - e.center).dot e.normal| < eps
    rw [e3, abs_zero]; exact he
  · simp only
    rw [e1, e2]
    refine ⟨by positivity, by positivity, ?_⟩
    have : x * x / (e.majLen * e.majLen) + y * y / (e.minLen * e.minLen) - 1 = 0 := by
      have h1 : x * x / (e.majLen * e.majLen) = (x / e.majLen) ^ 2 := by field_simp
      have h2 : y * y / (e.minLen * e.minLen) = (y / e.minLen) ^ 2 := by field_simp
      rw [h1, h2]; linarith
    rw [this, abs_zero]; exact he

/-- The point of space with given coordinates along the three axes. -/
theorem expand_frame {e : Elliptical} (h : ValidElliptical e) (p : V3)
    (hp : (p - e.center).dot e.normal = 0) :
    p = Spec.localPoint e.center e.major e.minor ((p - e.center).dot e.major)
      ((p - e.center).dot e.minor) := by
  obtain ⟨d1, d2, d3, d4, d5, d6⟩ := h.dots
  have hdet := h.frame.2.2.2.2.2.2
  have hcr : e.normal.dot (e.major.cross e.minor) = 1 := by
    rw [← hdet]; simp [Spec.det, V3.dot, V3.cross]; ring
  generalize hw : p - e.center = w at *
  -- w = (w·u)u + (w·v)v + (w·n)n for an orthonormal frame with determinant one
  have key : w = (w.dot e.major) • e.major + (w.dot e.minor) • e.minor
      + (w.dot e.normal) • e.normal := by
    have z : (w - ((w.dot e.major) • e.major + (w.dot e.minor) • e.minor
      + (w.dot e.normal) • e.normal)).sqLen = 0 := by
      have hzero : ∀ r : V3, r.dot e.major = 0 → r.dot e.minor = 0 → r.dot e.normal = 0 →
          r.sqLen = 0 := by
        intro r r1 r2 r3
        have id : (e.normal.dot (e.major.cross e.minor)) • r
            = (r.dot e.normal) • (e.major.cross e.minor) + (r.dot e.major) • (e.minor.cross e.normal)
              + (r.dot e.minor) • (e.normal.cross e.major) := by
          ext <;> simp [V3.dot, V3.cross] <;> ring
        rw [hcr, r1, r2, r3] at id
        have : r = 0 := by simpa using id
        rw [this]; simp [V3.sqLen]
      apply hzero
      · rw [V3.sub_dot, V3.add_dot, V3.add_dot, V3.smul_dot, V3.smul_dot, V3.smul_dot, d1,
          V3.dot_comm e.minor, d4, V3.dot_comm e.normal, d6]; ring
      · rw [V3.sub_dot, V3.add_dot, V3.add_dot, V3.smul_dot, V3.smul_dot, V3.smul_dot, d4, d2,
          V3.dot_comm e.normal, d5]; ring
      · rw [V3.sub_dot, V3.add_dot, V3.add_dot, V3.smul_dot, V3.smul_dot, V3.smul_dot, d6, d5, d3]
        ring
    exact sub_eq_zero.1 (V3.sqLen_eq_zero.1 z)
  rw [hp, zero_smul, add_zero] at key
  have hpw : p = e.center + w := by rw [← hw]; module
  rw [hpw]
  conv_lhs => rw [key]
  ext <;> simp [Spec.localPoint] <;> ring

/-- A point contained for every positive tolerance is on the ellipse. -/
theorem C09_ellipse_contained_on_curve (e : Elliptical) (h : ValidElliptical e) (p : V3)
    (hp : ∀ eps, 0 < eps → Ellipse.contains e p eps) :
    Spec.OnEllipse e.center e.major e.minor e.majLen e.minLen p := by
  have hz : ∀ r : ℝ, (∀ eps, 0 < eps → |r| < eps) → r = 0 := by
    intro r hr
    by_contra hc
    exact lt_irrefl _ (hr _ (abs_pos.2 hc))
  have h1 : (p - e.center).dot e.normal = 0 := hz _ fun eps he => (hp eps he).1 rfl
  have h2 := hz _ fun eps he => (hp eps he).2.2.2
  refine ⟨_, _, ?_, expand_frame h p h1⟩
  have ha := h.maj_pos
  have hb := h.min_pos
  have e1 : ∀ x : ℝ, x * x / (e.majLen * e.majLen) = (x / e.majLen) ^ 2 := by
    intro x; field_simp
  have e2 : ∀ y : ℝ, y * y / (e.minLen * e.minLen) = (y / e.minLen) ^ 2 := by
    intro y; field_simp
  rw [e1, e2] at h2
  linarith

/-- Circles: every produced point is in the plane at distance `radius` of the centre and is
contained for every positive tolerance. -/
theorem C09_circle_points (c n : V3) (r t eps : ℝ) (hn : Spec.IsUnit n) (hr : 0 < r) (he : 0 < eps) :
    ∃ k, Circle.make c n r = .val k ∧
      Spec.OnPlane c n (Circle.getPointFromAngle k t) ∧
      Spec.dist (Circle.getPointFromAngle k t) c = r ∧
      Circle.contains k (Circle.getPointFromAngle k t) eps ∧
      Circle.contains k (Circle.getPoint k t) eps := by
  obtain ⟨k, hk, hv, hc, hnn, hmaj, hmin⟩ := C09_circle_valid c n r hn hr
  obtain ⟨d1, d2, d3, d4, d5, d6⟩ := hv.dots
  have hdiff : ∀ t, Circle.getPointFromAngle k t - k.center
      = (Real.cos t * r) • k.major + (Real.sin t * r) • k.minor := by
    intro t; unfold Circle.getPointFromAngle; simp only; rw [hmaj]; module
  have hlen : ∀ t, (Circle.getPointFromAngle k t - k.center).len = r := by
    intro t
    unfold V3.len
    rw [hdiff, V3.sqLen_add, V3.sqLen_smul, V3.sqLen_smul, V3.smul_dot, V3.dot_smul,
      V3.sqLen_eq_dot, V3.sqLen_eq_dot, d1, d2, d4]
    rw [show (Real.cos t * r) ^ 2 * 1 + 2 * (Real.cos t * r * (Real.sin t * r * 0))
      + (Real.sin t * r) ^ 2 * 1 = (Real.cos t ^ 2 + Real.sin t ^ 2) * r ^ 2 by ring,
      Real.cos_sq_add_sin_sq, one_mul, Real.sqrt_sq hr.le]
  have hnorm : ∀ t, (Circle.getPointFromAngle k t - k.center).dot k.normal = 0 := by
    intro t; rw [hdiff, V3.add_dot, V3.smul_dot, V3.smul_dot, d6, d5]; ring
  have hcont : ∀ t, Circle.contains k (Circle.getPointFromAngle k t) eps := by
    intro t
    refine ⟨?_, ?_⟩
    · show |(_ - k.center).dot k.normal| < eps
      rw [hnorm, abs_zero]; exact he
    · rw [V3.len_sub_comm, hlen, hmaj, sub_self, abs_zero]; exact he
  refine ⟨k, hk, ?_, ?_, hcont t, hcont _⟩
  · rw [Spec.onPlane_iff, ← hc, ← hnn, V3.dot_comm]; exact hnorm t
  · rw [Spec.dist_eq_len, ← hc]; exact hlen t

/-- Conversely every point of the plane at distance `radius` of the centre is produced by the
circle for some angle in `[0, 2π)`. -/
theorem C09_circle_points_reached (c n p : V3) (r : ℝ) (hn : Spec.IsUnit n) (hr : 0 < r)
    (hp : Spec.OnPlane c n p) (hd : Spec.dist p c = r) :
    ∃ k t, Circle.make c n r = .val k ∧ 0 ≤ t ∧ t < 2 * Real.pi ∧
      Circle.getPointFromAngle k t = p := by
  obtain ⟨k, hk, hv, hc, hnn, hmaj, hmin⟩ := C09_circle_valid c n r hn hr
  have hpn : (p - k.center).dot k.normal = 0 := by
    rw [hc, hnn, V3.dot_comm]; exact (Spec.onPlane_iff _ _ _).1 hp
  have hexp := expand_frame hv p hpn
  set x := (p - k.center).dot k.major with hx
  set y := (p - k.center).dot k.minor with hy
  obtain ⟨d1, d2, d3, d4, d5, d6⟩ := hv.dots
  have hsq : x ^ 2 + y ^ 2 = r ^ 2 := by
    have h1 : p - k.center = x • k.major + y • k.minor := by
      rw [hexp]; ext <;> simp [Spec.localPoint] <;> ring
    have h2 : (p - k.center).sqLen = r ^ 2 := by
      rw [← V3.len_sq, hc, ← Spec.dist_eq_len, hd]
    rw [h1, V3.sqLen_add, V3.sqLen_smul, V3.sqLen_smul, V3.smul_dot, V3.dot_smul,
      V3.sqLen_eq_dot, V3.sqLen_eq_dot, d1, d2, d4] at h2
    linarith
  obtain ⟨t, h0, h1, hct, hst⟩ := exists_angle (x / r) (y / r) (by
    rw [div_pow, div_pow, ← add_div, hsq, div_self (by positivity)])
  refine ⟨k, t, hk, h0, h1, ?_⟩
  rw [hexp]
  unfold Circle.getPointFromAngle
  simp only
  rw [hct, hst, hmaj, div_mul_cancel₀ _ hr.ne', div_mul_cancel₀ _ hr.ne']
  ext <;> simp [Spec.localPoint]

/-- Non-trivial instance: a tilted ellipse with different axis lengths. -/
example : ∃ e, Elliptical.make ⟨1, 2, 3⟩ ⟨3 / 5, 4 / 5, 0⟩ ⟨0, 0, 1⟩ 5 2 = .val e ∧
    ValidElliptical e := by
  obtain ⟨e, h1, h2, _⟩ := C09_make_valid ⟨1, 2, 3⟩ ⟨3 / 5, 4 / 5, 0⟩ ⟨0, 0, 1⟩ 5 2
    (by norm_num [Spec.IsUnit]) (by norm_num [Spec.IsUnit])
    (by norm_num [Spec.Orthogonal, Spec.inner]) (by norm_num) (by norm_num)
  exact ⟨e, h1, h2⟩

end Props
