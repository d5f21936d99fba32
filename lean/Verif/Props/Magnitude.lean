import Verif.Model.Magnitude.Magnitude
import Verif.Lemmas.Measure
import Verif.Props.HollowCylinder
import Mathlib.Analysis.SpecialFunctions.Integrals.Basic

/-!
# Magnitudes (C23, C56)
-/

namespace Props
open Verif Frackit Lemmas MeasureTheory

/-! ## C23 Magnitudes agree with geometry -/

/-- Points have magnitude zero. -/
theorem C23_point (p : V3) : computeMagnitude (.point p) = .val 0 := rfl

/-- Segments: the length of the straight curve between the end points. -/
theorem C23_segment (s : Segment) :
    computeMagnitude (.segment s) = .val (Spec.curveLength (fun t =>
      ⟨(1 - t) * s.source.x + t * s.target.x, (1 - t) * s.source.y + t * s.target.y,
        (1 - t) * s.source.z + t * s.target.z⟩) 0 1) := by
  have hd : ∀ a b t : ℝ, deriv (fun t => (1 - t) * a + t * b) t = b - a := by
    intro a b t
    have : HasDerivAt (fun t => (1 - t) * a + t * b) ((0 - 1) * a + 1 * b) t :=
      (((hasDerivAt_const t (1 : ℝ)).sub (hasDerivAt_id t)).mul_const a).add
        ((hasDerivAt_id t).mul_const b)
    rw [this.deriv]; ring
  show Outcome.val s.length = _
  congr 1
  unfold Spec.curveLength Spec.velocity
  simp only [hd]
  rw [intervalIntegral.integral_const, Spec.norm_eq_len]
  simp [Segment.length]
  rfl

theorem trig_deriv (c a b t : ℝ) (k l : ℝ) :
    deriv (fun t => c + k * Real.cos t * a + l * Real.sin t * b) t
      = -(k * Real.sin t) * a + l * Real.cos t * b := by
  have : HasDerivAt (fun t => c + k * Real.cos t * a + l * Real.sin t * b)
      (0 + k * (-Real.sin t) * a + l * Real.cos t * b) t :=
    ((hasDerivAt_const t c).add (((Real.hasDerivAt_cos t).const_mul k).mul_const a)).add
      (((Real.hasDerivAt_sin t).const_mul l).mul_const b)
  rw [this.deriv]; ring

/-- The ellipse with centre `c`, axes `u`, `v` and semi-axes `a`, `b` as a curve. -/
noncomputable def ellipseCurve (c u v : V3) (a b : ℝ) (t : ℝ) : V3 :=
  Spec.localPoint c u v (a * Real.cos t) (b * Real.sin t)

theorem ellipse_speed {c u v : V3} (hu : Spec.IsUnit u) (hv : Spec.IsUnit v)
    (huv : Spec.Orthogonal u v) (a b t : ℝ) :
    Spec.norm (Spec.velocity (ellipseCurve c u v a b) t)
      = Real.sqrt (a ^ 2 * Real.sin t ^ 2 + b ^ 2 * Real.cos t ^ 2) := by
  unfold Spec.norm Spec.velocity ellipseCurve Spec.localPoint
  simp only [trig_deriv]
  congr 1
  unfold Spec.IsUnit at hu hv
  unfold Spec.Orthogonal Spec.inner at huv
  linear_combination (a * Real.sin t) ^ 2 * hu + (b * Real.cos t) ^ 2 * hv
    - 2 * (a * Real.sin t) * (b * Real.cos t) * huv

/-- Circles: the length of the curve. -/
theorem C23_circle (c n : V3) (r : ℝ) (hn : Spec.IsUnit n) (hr : 0 < r) :
    ∃ k, Circle.make c n r = .val k ∧ k.center = c ∧ k.normal = n ∧
      computeMagnitude (.circle k)
        = .val (Spec.curveLength (ellipseCurve c k.major k.minor r r) 0 (2 * Real.pi)) := by
  obtain ⟨k, hk, hkv, hkc, hkn, hkm, _⟩ := C09_circle_valid c n r hn hr
  refine ⟨k, hk, hkc, hkn, ?_⟩
  show Outcome.val (2 * Real.pi * k.majLen) = _
  congr 1
  unfold Spec.curveLength
  obtain ⟨hu, hv, _, huv, _⟩ := hkv.frame
  have : ∀ t, Spec.norm (Spec.velocity (ellipseCurve c k.major k.minor r r) t) = r := by
    intro t
    rw [ellipse_speed hu hv huv,
      show r ^ 2 * Real.sin t ^ 2 + r ^ 2 * Real.cos t ^ 2 = r ^ 2 by
        rw [← mul_add, Real.sin_sq_add_cos_sq, mul_one], Real.sqrt_sq hr.le]
  simp only [this, intervalIntegral.integral_const, hkm]
  simp

/-- Disks: the area of the set of their points. -/
theorem C23_disk (d : Elliptical) (h : ValidElliptical d) :
    ∃ m, computeMagnitude (.disk d) = .val m ∧ 0 ≤ m ∧
      Spec.area d.center d.major d.minor
        (Spec.InDisk d.center d.major d.minor d.majLen d.minLen) = ENNReal.ofReal m := by
  have ha := h.maj_pos
  have hb := h.min_pos
  refine ⟨Disk.area d, rfl, by unfold Disk.area; positivity, ?_⟩
  unfold Disk.area
  rw [← volume_ellipse d.majLen d.minLen ha hb]
  unfold Spec.area
  congr 1
  ext w
  obtain ⟨hu, hv, _, huv, _⟩ := h.frame
  constructor
  · rintro ⟨x, y, hxy, he⟩
    obtain ⟨h0, h1⟩ := localPoint_inj hu hv huv he
    simp only [Set.mem_ofPred_eq, h0, h1]
    exact hxy
  · intro hw
    exact ⟨w 0, w 1, hw, rfl⟩

/-- Triangles: the area of the set of their points, in every orthonormal coordinate system of a
plane they lie in. -/
theorem C23_triangle (c u v p1 p2 p3 : V3) (hu : Spec.IsUnit u) (hv : Spec.IsUnit v)
    (huv : Spec.Orthogonal u v)
    (h1 : ∃ x y, p1 = Spec.localPoint c u v x y) (h2 : ∃ x y, p2 = Spec.localPoint c u v x y)
    (h3 : ∃ x y, p3 = Spec.localPoint c u v x y) :
    ∃ m, computeMagnitude (.triangle (Triangle.make p1 p2 p3)) = .val m ∧ 0 ≤ m ∧
      Spec.area c u v (Spec.InTriangle p1 p2 p3) = ENNReal.ofReal m := by
  obtain ⟨x1, y1, rfl⟩ := h1
  obtain ⟨x2, y2, rfl⟩ := h2
  obtain ⟨x3, y3, rfl⟩ := h3
  refine ⟨_, rfl, ?_, ?_⟩
  · unfold Triangle.make
    have := V3.len_nonneg ((Spec.localPoint c u v x2 y2 - Spec.localPoint c u v x1 y1).cross
      (Spec.localPoint c u v x3 y3 - Spec.localPoint c u v x1 y1))
    positivity
  · rw [area_triangle c u v hu hv huv]
    congr 1
    unfold Triangle.make
    simp only
    rw [show (0.5 : ℝ) = 1 / 2 by norm_num]
    congr 1
    rw [← Real.sqrt_sq_eq_abs, V3.len]
    congr 1
    unfold Spec.IsUnit at hu hv
    unfold Spec.Orthogonal Spec.inner at huv
    simp only [V3.sqLen, V3.cross, Spec.localPoint, V3.sub_x, V3.sub_y, V3.sub_z]
    have hl : (u.y * v.z - u.z * v.y) ^ 2 + (u.z * v.x - u.x * v.z) ^ 2
        + (u.x * v.y - u.y * v.x) ^ 2 = 1 := by
      linear_combination (v.x ^ 2 + v.y ^ 2 + v.z ^ 2) * hu + hv
        - (u.x * v.x + u.y * v.y + u.z * v.z) * huv
    linear_combination
      -((x2 - x1) * (y3 - y1) - (x3 - x1) * (y2 - y1)) ^ 2 * hl

/-- Lateral surfaces of cylinders: the area of the surface parametrised by angle and height. -/
theorem C23_cylinder_surface (k : Elliptical) (h : ℝ) (hk : ValidElliptical k)
    (hc : k.minLen = k.majLen) (hh : 0 ≤ h) :
    ∃ s, CylinderSurface.ofCircle k h = .val s ∧
      computeMagnitude (.cylinderSurface s)
        = .val (Spec.surfaceArea (fun φ z => ⟨
            k.center.x + k.majLen * Real.cos φ * k.major.x + k.majLen * Real.sin φ * k.minor.x
              + z * k.normal.x,
            k.center.y + k.majLen * Real.cos φ * k.major.y + k.majLen * Real.sin φ * k.minor.y
              + z * k.normal.y,
            k.center.z + k.majLen * Real.cos φ * k.major.z + k.majLen * Real.sin φ * k.minor.z
              + z * k.normal.z⟩) 0 (2 * Real.pi) 0 h) := by
  obtain ⟨t, ht, _⟩ := C09_circle_valid (k.center + h • k.normal) k.normal k.majLen
    hk.frame.2.2.1 hk.maj_pos
  refine ⟨⟨h, t, k⟩, by unfold CylinderSurface.ofCircle; rw [ht]; rfl, ?_⟩
  show Outcome.val (2 * Real.pi * k.majLen * h) = _
  congr 1
  obtain ⟨hu, hv, hn, huv, hvn, hun, hdet⟩ := hk.frame
  unfold Spec.IsUnit at hu hv hn
  unfold Spec.Orthogonal Spec.inner at huv hvn hun
  have hr := hk.maj_pos
  have hd1 : ∀ c a b z n φ : ℝ, deriv (fun φ => c + k.majLen * Real.cos φ * a
      + k.majLen * Real.sin φ * b + z * n) φ
      = -(k.majLen * Real.sin φ) * a + k.majLen * Real.cos φ * b := by
    intro c a b z n φ
    rw [← trig_deriv (c := c + z * n)]
    congr 1; funext φ; ring
  have hd2 : ∀ c n z : ℝ, deriv (fun z => c + z * n) z = n := by
    intro c n z
    have : HasDerivAt (fun z : ℝ => c + z * n) (0 + 1 * n) z :=
      (hasDerivAt_const z c).add ((hasDerivAt_id z).mul_const n)
    rw [this.deriv]; ring
  have key : ∀ φ z : ℝ, Spec.norm (Spec.vprod
      (Spec.velocity (fun s' => (⟨
            k.center.x + k.majLen * Real.cos s' * k.major.x + k.majLen * Real.sin s' * k.minor.x
              + z * k.normal.x,
            k.center.y + k.majLen * Real.cos s' * k.major.y + k.majLen * Real.sin s' * k.minor.y
              + z * k.normal.y,
            k.center.z + k.majLen * Real.cos s' * k.major.z + k.majLen * Real.sin s' * k.minor.z
              + z * k.normal.z⟩ : V3)) φ)
      (Spec.velocity (fun z' => (⟨
            k.center.x + k.majLen * Real.cos φ * k.major.x + k.majLen * Real.sin φ * k.minor.x
              + z' * k.normal.x,
            k.center.y + k.majLen * Real.cos φ * k.major.y + k.majLen * Real.sin φ * k.minor.y
              + z' * k.normal.y,
            k.center.z + k.majLen * Real.cos φ * k.major.z + k.majLen * Real.sin φ * k.minor.z
              + z' * k.normal.z⟩ : V3)) z)) = k.majLen := by
    intro φ z
    unfold Spec.velocity Spec.norm Spec.vprod
    simp only [hd1, hd2]
    rw [← Real.sqrt_sq hr.le]
    congr 1
    have hcs := Real.sin_sq_add_cos_sq φ
    set S := Real.sin φ
    set C := Real.cos φ
    set r := Real.sqrt (k.majLen ^ 2)
    have hrr : r = k.majLen := Real.sqrt_sq hr.le
    set X := -(r * S) * k.major.x + r * C * k.minor.x
    set Y := -(r * S) * k.major.y + r * C * k.minor.y
    set Z := -(r * S) * k.major.z + r * C * k.minor.z
    have h1 : X ^ 2 + Y ^ 2 + Z ^ 2 = r ^ 2 := by
      simp only [X, Y, Z]
      linear_combination (r * S) ^ 2 * hu + (r * C) ^ 2 * hv - 2 * r ^ 2 * S * C * huv + r ^ 2 * hcs
    have h2 : X * k.normal.x + Y * k.normal.y + Z * k.normal.z = 0 := by
      simp only [X, Y, Z]
      linear_combination -(r * S) * hun + r * C * hvn
    linear_combination (k.normal.x ^ 2 + k.normal.y ^ 2 + k.normal.z ^ 2) * h1 + r ^ 2 * hn
      - (X * k.normal.x + Y * k.normal.y + Z * k.normal.z) * h2 + (r + k.majLen) * hrr
  unfold Spec.surfaceArea
  simp only [key, intervalIntegral.integral_const]
  simp
  ring

/-- Boxes: the volume of the set of their points. -/
theorem C23_box (x0 y0 z0 x1 y1 z1 : ℝ) (b : Box) (hb : Box.make x0 y0 z0 x1 y1 z1 = .val b) :
    ∃ m, computeMagnitude (.box b) = .val m ∧ 0 ≤ m ∧
      Spec.volume (Spec.InBox ⟨x0, y0, z0⟩ ⟨x1, y1, z1⟩) = ENNReal.ofReal m := by
  unfold Box.make at hb
  split_ifs at hb with hx hy hz
  cases hb
  have hx' := not_lt.1 hx
  have hy' := not_lt.1 hy
  have hz' := not_lt.1 hz
  refine ⟨_, rfl, ?_, volume_box _ _ hx' hy'⟩
  exact mul_nonneg (mul_nonneg (sub_nonneg.2 hx') (sub_nonneg.2 hy')) (sub_nonneg.2 hz')

/-- Spheres: the volume of the ball. -/
theorem C23_sphere (s : Sphere) (hr : 0 ≤ s.radius) :
    ∃ m, computeMagnitude (.sphere s) = .val m ∧ 0 ≤ m ∧
      Spec.volume (fun p => Spec.dist p s.center ≤ s.radius) = ENNReal.ofReal m := by
  refine ⟨s.volume, rfl, by unfold Sphere.volume; positivity, ?_⟩
  rw [volume_ball s.center s.radius hr]
  unfold Sphere.volume
  congr 1; ring

/-- Cylinders of any orientation: the volume of the set of their points. -/
theorem C23_cylinder (c : Cylinder) (h : ValidCylinder c) :
    ∃ m, computeMagnitude (.cylinder c) = .val m ∧ 0 ≤ m ∧
      Spec.volume (Spec.InCylinder c.bottom.center c.bottom.normal c.radius c.height)
        = ENNReal.ofReal m := by
  have hr : 0 < c.radius := h.bottom.maj_pos
  have hh := h.height_pos
  refine ⟨c.volume, rfl, by unfold Cylinder.volume; positivity, ?_⟩
  rw [volume_cylinder h.bottom.frame _ _ hr.le]
  rfl

/-- Hollow cylinders of any orientation: the volume of the set of their points. -/
theorem C23_hollow_cylinder (c : HollowCylinder) (center axis : V3) (r1 r2 h : ℝ)
    (hv : ValidHollow c center axis r1 r2 h) (h1 : 0 ≤ r1) (h2 : r1 ≤ r2) (hh : 0 ≤ h) :
    ∃ m, computeMagnitude (.hollowCylinder c) = .val m ∧ 0 ≤ m ∧
      Spec.volume (Spec.InShell center axis r1 r2 h) = ENNReal.ofReal m := by
  obtain ⟨u, v, _, _, hf⟩ := circle_frame center axis r1 hv.axis_unit
  refine ⟨c.volume, rfl, ?_, ?_⟩
  · unfold HollowCylinder.volume
    rw [hv.inner, hv.outer, hv.height]
    exact mul_nonneg (mul_nonneg Real.pi_pos.le hh) (by nlinarith)
  · rw [volume_shell hf r1 r2 h h1 h2]
    unfold HollowCylinder.volume
    rw [hv.inner, hv.outer, hv.height]

/-- Concrete geometries meeting the hypotheses of the theorems above. -/
example : ValidElliptical unitCircle ∧ unitCircle.minLen = unitCircle.majLen ∧
    (∃ c, ValidCylinder c) ∧ (∃ c, ValidHollow c ⟨0, 0, 0⟩ ⟨0, 0, 1⟩ 1 2 3) ∧
    (∃ b, Box.make 0 0 0 1 2 3 = .val b) := by
  refine ⟨unitCircle_valid, rfl, ?_, ?_, ?_⟩
  · obtain ⟨c, _, hc, _⟩ := (C14_construction unitCircle 1 unitCircle_valid one_pos).2.2
    exact ⟨c, hc⟩
  · obtain ⟨c, _, hc⟩ := (C15_construction ⟨0, 0, 0⟩ ⟨0, 0, 1⟩ 1 2 3
      (by norm_num [Spec.IsUnit])).2 (by norm_num)
    exact ⟨c, hc⟩
  · exact ⟨_, by unfold Box.make; norm_num; rfl⟩

/-! ## C56 Length of an ellipse -/

/-- The property claimed: the length returned for an ellipse is the length of the curve. -/
def C56_full : Prop :=
  ∀ e : Elliptical, ValidElliptical e →
    computeMagnitude (.ellipse e) = .val (Spec.curveLength
      (ellipseCurve e.center e.major e.minor e.majLen e.minLen) 0 (2 * Real.pi))

theorem integral_sin_cos_weights (a b : ℝ) :
    ∫ t in (0 : ℝ)..(2 * Real.pi), (a * Real.sin t ^ 2 + b * Real.cos t ^ 2)
      = Real.pi * (a + b) := by
  rw [intervalIntegral.integral_add, intervalIntegral.integral_const_mul,
    intervalIntegral.integral_const_mul, integral_sin_sq, integral_cos_sq]
  · simp; ring
  · exact (by fun_prop : Continuous fun t : ℝ => a * Real.sin t ^ 2).intervalIntegrable _ _
  · exact (by fun_prop : Continuous fun t : ℝ => b * Real.cos t ^ 2).intervalIntegrable _ _

theorem weighted_le_speed (a b t : ℝ) :
    a * Real.sin t ^ 2 + b * Real.cos t ^ 2
      ≤ Real.sqrt (a ^ 2 * Real.sin t ^ 2 + b ^ 2 * Real.cos t ^ 2) := by
  apply Real.le_sqrt_of_sq_le
  have h := Real.sin_sq_add_cos_sq t
  have h1 : a ^ 2 * Real.sin t ^ 2 + b ^ 2 * Real.cos t ^ 2
      - (a * Real.sin t ^ 2 + b * Real.cos t ^ 2) ^ 2
      = (Real.sin t * Real.cos t * (a - b)) ^ 2 := by
    have hc : Real.cos t ^ 2 = 1 - Real.sin t ^ 2 := by linarith
    have : (Real.sin t * Real.cos t * (a - b)) ^ 2
        = Real.sin t ^ 2 * Real.cos t ^ 2 * (a - b) ^ 2 := by ring
    rw [this, hc]; ring
  nlinarith [sq_nonneg (Real.sin t * Real.cos t * (a - b))]

/-- The length returned is never larger than the length of the curve, it is exact for circles, and
it is strictly too small for every other ellipse.  (Missing for the full property: equality for
ellipses that are not circles, which is false.) -/
theorem C56_length_partial (e : Elliptical) (h : ValidElliptical e) :
    ∃ m, computeMagnitude (.ellipse e) = .val m ∧
      (e.majLen = e.minLen → m = Spec.curveLength
        (ellipseCurve e.center e.major e.minor e.majLen e.minLen) 0 (2 * Real.pi)) ∧
      (e.majLen ≠ e.minLen → m < Spec.curveLength
        (ellipseCurve e.center e.major e.minor e.majLen e.minLen) 0 (2 * Real.pi)) := by
  obtain ⟨hu, hv, _, huv, _⟩ := h.frame
  refine ⟨Real.pi * (e.majLen + e.minLen), rfl, ?_, ?_⟩
  · intro hab
    unfold Spec.curveLength
    simp only [ellipse_speed hu hv huv]
    have : ∀ t, Real.sqrt (e.majLen ^ 2 * Real.sin t ^ 2 + e.minLen ^ 2 * Real.cos t ^ 2)
        = e.majLen := by
      intro t
      rw [← hab, ← mul_add, Real.sin_sq_add_cos_sq, mul_one, Real.sqrt_sq h.maj_pos.le]
    simp only [this, intervalIntegral.integral_const]
    rw [← hab]; simp; ring
  · intro hab
    unfold Spec.curveLength
    simp only [ellipse_speed hu hv huv]
    rw [← integral_sin_cos_weights]
    have hpi := Real.pi_pos
    apply intervalIntegral.integral_lt_integral_of_continuousOn_of_le_of_exists_lt (by positivity)
    · exact (by fun_prop : Continuous fun t : ℝ =>
        e.majLen * Real.sin t ^ 2 + e.minLen * Real.cos t ^ 2).continuousOn
    · exact (by fun_prop : Continuous fun t : ℝ =>
        Real.sqrt (e.majLen ^ 2 * Real.sin t ^ 2 + e.minLen ^ 2 * Real.cos t ^ 2)).continuousOn
    · intro t _; exact weighted_le_speed _ _ t
    · refine ⟨Real.pi / 4, ⟨by positivity, by linarith⟩, ?_⟩
      apply Real.lt_sqrt_of_sq_lt
      rw [Real.sin_pi_div_four, Real.cos_pi_div_four]
      have h2 : (Real.sqrt 2 / 2) ^ 2 = 1 / 2 := by
        rw [div_pow, Real.sq_sqrt (by norm_num)]; norm_num
      rw [h2]
      have : 0 < (e.majLen - e.minLen) ^ 2 := by
        have := sub_ne_zero.2 hab
        positivity
      nlinarith

/-- An ellipse with semi-axes 2 and 1. -/
noncomputable def longEllipse : Elliptical := { unitCircle with majLen := 2 }

theorem longEllipse_valid : ValidElliptical longEllipse :=
  ⟨unitCircle_valid.frame, by norm_num [longEllipse], by
    have := unitCircle_valid.min_pos; simpa [longEllipse] using this⟩

/-- **The code violates the property**: for semi-axes 2 and 1 the length returned is too small. -/
theorem C56_disproof : ¬ C56_full := by
  intro hf
  obtain ⟨m, hm, _, hlt⟩ := C56_length_partial longEllipse longEllipse_valid
  have := hf longEllipse longEllipse_valid
  rw [hm] at this
  have h2 := hlt (by norm_num [longEllipse, unitCircle])
  cases this
  exact lt_irrefl _ h2

/-- A full elliptical arc is given the same (too small) length. -/
theorem C56_full_arc (a : EllipseArc) (occ : ℝ) (h : a.isFullEllipse) :
    computeMagnitude (.arc a occ) = computeMagnitude (.ellipse a.ellipse) := by
  simp [computeMagnitude, AnyGeometry.dimension, computeLength, h]

end Props
