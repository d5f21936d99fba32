import Verif.Model.Intersection.CylinderPlanar
import Verif.Props.Angle

/-!
# C52 The ellipse in which a plane cuts a cylinder
-/

namespace Props
open Verif Frackit

theorem gpAngle_unit {a b : V3} (ha : Spec.IsUnit a) (hb : Spec.IsUnit b) :
    gpAngle a b = Real.arccos (a.dot b) := by
  unfold gpAngle
  rw [unit_len ha, unit_len hb, mul_one, div_one]

theorem gpAngle_comm (a b : V3) : gpAngle a b = gpAngle b a := by
  unfold gpAngle; rw [V3.dot_comm, mul_comm]

theorem cos_gpAngle {a b : V3} (ha : Spec.IsUnit a) (hb : Spec.IsUnit b) :
    Real.cos (gpAngle a b) = a.dot b := by
  rw [gpAngle_unit ha hb]
  have := abs_le.1 (unit_abs_dot_le ha hb)
  exact Real.cos_arccos this.1 this.2

theorem not_parallel_dot {a b : V3} (ha : Spec.IsUnit a) (hb : Spec.IsUnit b)
    (h : ¬ gpIsParallel a b angular) : (a.dot b) ^ 2 < 1 := by
  have hle := abs_le.1 (unit_abs_dot_le ha hb)
  have hne : a.dot b ≠ 1 ∧ a.dot b ≠ -1 := by
    constructor
    · intro e
      apply h
      left
      rw [gpAngle_unit ha hb, e, Real.arccos_one]; exact angular_pos.le
    · intro e
      apply h
      right
      rw [gpAngle_unit ha hb, e, Real.arccos_neg_one, sub_self]; exact angular_pos.le
  have h1 : -1 < a.dot b := lt_of_le_of_ne hle.1 (Ne.symm hne.2)
  have h2 : a.dot b < 1 := lt_of_le_of_ne hle.2 hne.1
  nlinarith

theorem not_normal_dot {a b : V3} (ha : Spec.IsUnit a) (hb : Spec.IsUnit b)
    (h : ¬ gpIsNormal a b angular) : a.dot b ≠ 0 := by
  intro e
  apply h
  unfold gpIsNormal
  rw [gpAngle_unit ha hb, e, Real.arccos_zero, sub_self, abs_zero]; exact angular_pos.le

/-- The sine of the angle between directions which are parallel up to the tolerance. -/
theorem parallel_sin {a b : V3} (ha : Spec.IsUnit a) (hb : Spec.IsUnit b)
    (h : gpIsParallel a b angular) : Real.sqrt (1 - (a.dot b) ^ 2) ≤ angular := by
  unfold gpIsParallel at h
  rw [gpAngle_unit ha hb] at h
  rw [← Real.sin_arccos]
  rcases h with h | h
  · exact (Real.sin_le (Real.arccos_nonneg _)).trans h
  · rw [← Real.sin_pi_sub]
    exact (Real.sin_le (by have := Real.arccos_le_pi (a.dot b); linarith)).trans h

/-- A kernel which intersects the plane and the line exactly. -/
def ExactPlaneLine (K : Kernel) (pl : Plane) (l : Line) : Prop :=
  ∃ x, K.planeLine pl l = some x ∧ Spec.OnPlane pl.supp pl.normal x ∧ Spec.OnLine l.supp l.dir x

/-- A planar geometry whose plane has a unit normal and contains its centre. -/
structure FaceInPlane (face : FaceGeom) : Prop where
  unit : Spec.IsUnit face.plane.normal
  center : Spec.OnPlane face.plane.supp face.plane.normal face.center

/-- For a plane inclined to the axis, the ellipse consists of exactly the common points of the plane
and the infinitely extended cylinder. -/
theorem C52_oblique (K : Kernel) (c : CylinderSurface) (face : FaceGeom) (charLength eps : ℝ)
    (hc : ValidSurface c) (hf : FaceInPlane face) (hL : 0 < charLength) (he : 0 < eps)
    (hnp : ¬ gpIsParallel face.plane.normal c.bottom.normal angular)
    (hnn : ¬ gpIsNormal face.plane.normal c.bottom.normal angular)
    (hK : ExactPlaneLine K face.plane ⟨c.bottom.center, c.bottom.normal⟩) :
    ∃ e, infEllipse K c face charLength eps = .val (some e) ∧ ValidElliptical e ∧
      ∀ p, Spec.OnEllipse e.center e.major e.minor e.majLen e.minLen p ↔
        Spec.OnPlane face.plane.supp face.plane.normal p ∧
        Spec.OnInfCylinder c.bottom.center c.bottom.normal c.radius p := by
  obtain ⟨x0, hx0, hxp, hxl⟩ := hK
  have hn := hf.unit
  have hd := hc.axis
  have hr : 0 < c.radius := hc.bottom.maj_pos
  set n := face.plane.normal with hnE
  set d := c.bottom.normal with hdE
  have hnn1 : n.dot n = 1 := (Spec.isUnit_iff _).1 hn
  have hdd1 : d.dot d = 1 := (Spec.isUnit_iff _).1 hd
  have hlt := not_parallel_dot hn hd hnp
  have hnz := not_normal_dot hn hd hnn
  have hcos := cos_gpAngle hn hd
  have hangs : ¬ gpIsNormal d n angular := by
    unfold gpIsNormal at hnn ⊢; rw [gpAngle_comm]; exact hnn
  set g := n.dot d with hg
  -- the major axis
  have hproj : face.plane.projection (face.center + charLength • d) - face.center
      = charLength • (d - g • n) := by
    unfold Plane.projection
    rw [← hnE, show face.center + charLength • d - face.plane.supp
      = (face.center - face.plane.supp) + charLength • d by module, V3.dot_add, V3.dot_smul,
      (Spec.onPlane_iff _ _ _).1 hf.center, ← hg]
    module
  have hwq : (d - g • n).sqLen = 1 - g ^ 2 := by
    rw [V3.sqLen_sub, V3.sqLen_smul, V3.dot_smul, V3.dot_comm d n, ← hg, V3.sqLen_eq_dot,
      V3.sqLen_eq_dot, hnn1, hdd1]; ring
  have hwne : charLength • (d - g • n) ≠ 0 := by
    rw [← V3.sqLen_pos, V3.sqLen_smul, hwq]
    have : 0 < charLength ^ 2 := by positivity
    nlinarith
  obtain ⟨m, k, hm, hmu, hk, hke⟩ := exists_direction hwne
  obtain ⟨s, hs, hds⟩ : ∃ s : ℝ, 0 < s ∧ d = s • m + g • n := by
    refine ⟨k / charLength, div_pos hk hL, ?_⟩
    have h1 : d - g • n = (k / charLength) • m := by
      have h2 : charLength⁻¹ • (charLength • (d - g • n)) = charLength⁻¹ • (k • m) := by rw [hke]
      rw [smul_smul, inv_mul_cancel₀ hL.ne', one_smul, smul_smul] at h2
      rw [h2, div_eq_inv_mul]
    rw [← h1]; module
  have hmm1 : m.dot m = 1 := (Spec.isUnit_iff _).1 hmu
  have hnm : n.dot m = 0 := by
    have h1 : n.dot d = s * n.dot m + g := by
      conv_lhs => rw [hds]
      rw [V3.dot_add, V3.dot_smul, V3.dot_smul, hnn1]; ring
    have h2 : s * n.dot m = 0 := by linarith
    rcases mul_eq_zero.1 h2 with h | h
    · exact absurd h hs.ne'
    · exact h
  have hmd : m.dot d = s := by
    conv_lhs => rw [hds]
    rw [V3.dot_add, V3.dot_smul, V3.dot_smul, hmm1, V3.dot_comm m n, hnm]; ring
  have hs2 : s ^ 2 = 1 - g ^ 2 := by
    have h1 : d.dot d = s * d.dot m + g * d.dot n := by
      rw [← V3.dot_smul, ← V3.dot_smul, ← V3.dot_add, ← hds]
    rw [hdd1, V3.dot_comm d m, hmd, V3.dot_comm d n, ← hg] at h1
    linarith
  have hmin := mkDirection_of_unit (cross_unit hn hmu hnm)
  have hmnm : m.cross (n.cross m) = n := by
    have : m.cross (n.cross m) = m.dot m • n - m.dot n • m := by
      ext <;> simp [V3.cross, V3.dot] <;> ring
    rw [this, hmm1, V3.dot_comm m n, hnm]; module
  have hright : isRightHandSystem m (n.cross m) n := by
    unfold isRightHandSystem boxProduct
    have : m.dot ((n.cross m).cross n) = m.dot m * n.dot n - m.dot n * n.dot m := by
      simp [V3.cross, V3.dot]; ring
    rw [this, hmm1, hnn1, V3.dot_comm m n, hnm]; norm_num
  have hvd : (n.cross m).dot d = 0 := by
    rw [hds, V3.dot_add, V3.dot_smul, V3.dot_smul, V3.dot_comm _ m, V3.dot_comm _ n,
      V3.dot_cross_left, V3.dot_cross_right]; ring
  have hframe : Spec.RightHandedOrthonormal m (n.cross m) n := by
    have := frame_of_cross hn hmu hnm
    exact this
  -- the computed ellipse
  have hplane : intersectPlaneLine K face.plane ⟨c.bottom.center, d⟩ eps = .val (.point x0) := by
    unfold intersectPlaneLine
    simp only
    rw [if_pos hangs, hx0]
    simp only
    rw [if_pos]
    unfold Plane.contains
    rw [V3.dot_comm, (Spec.onPlane_iff _ _ _).1 hxp, abs_zero]
    exact he
  have hmaj : |c.radius / Real.cos (gpAngle n d)| = c.radius / |g| := by
    rw [hcos, abs_div, abs_of_pos hr]
  have hg0 : 0 < |g| := abs_pos.2 hnz
  refine ⟨⟨x0, m, n.cross m, n, c.radius / |g|, c.radius⟩, ?_, ?_, ?_⟩
  · unfold infEllipse
    simp only
    rw [if_neg hnp, if_pos hnn, hproj, hm, Outcome.val_bind, ← hnE, hmin, Outcome.val_bind,
      if_pos hright]
    unfold CylinderSurface.centerSegment
    rw [hc.top_center, (center_line _ _ _ hd hc.height_pos).1, Outcome.val_bind, hplane,
      Outcome.val_bind]
    simp only [Elliptical.make]
    rw [hmnm, mkDirection_of_unit hn, hmaj]
    rfl
  · exact ⟨hframe, div_pos hr hg0, hr⟩
  have hvalid : ValidElliptical ⟨x0, m, n.cross m, n, c.radius / |g|, c.radius⟩ :=
    ⟨hframe, div_pos hr hg0, hr⟩
  obtain ⟨t0, ht0⟩ := (Spec.onLine_iff _ _ _).1 hxl
  have hvv : (n.cross m).dot (n.cross m) = 1 := hvalid.dots.2.1
  have hmv : m.dot (n.cross m) = 0 := hvalid.dots.2.2.2.1
  -- distance to the axis
  have hrad : ∀ X Y : ℝ, Spec.radial c.bottom.center d (Spec.localPoint x0 m (n.cross m) X Y) ^ 2
      = X ^ 2 * g ^ 2 + Y ^ 2 := by
    intro X Y
    have e1 : Spec.localPoint x0 m (n.cross m) X Y = (c.bottom.center + X • m + Y • n.cross m) + t0 • d := by
      rw [ht0]; ext <;> simp [Spec.localPoint] <;> ring
    rw [← radialVec_len, e1, radialVec_along_axis hd, V3.len_sq, radialVec_eq,
      show c.bottom.center + X • m + Y • n.cross m - c.bottom.center = X • m + Y • n.cross m by module,
      V3.dot_add, V3.dot_smul, V3.dot_smul, V3.dot_comm d m, V3.dot_comm d (n.cross m), hmd, hvd,
      show c.bottom.center + X • m + Y • n.cross m - (c.bottom.center + (X * s + Y * 0) • d)
        = (X • m + Y • n.cross m) - (X * s) • d by module,
      V3.sqLen_sub, V3.sqLen_smul, V3.dot_smul, V3.add_dot, V3.smul_dot, V3.smul_dot, hmd, hvd,
      V3.sqLen_add, V3.sqLen_smul, V3.sqLen_smul, V3.dot_smul, V3.smul_dot, hmv]
    simp only [V3.sqLen_eq_dot]
    rw [hmm1, hvv, hdd1]
    linear_combination (-X ^ 2) * hs2
  have hiff : ∀ X Y : ℝ, (X / (c.radius / |g|)) ^ 2 + (Y / c.radius) ^ 2 = 1 ↔
      Spec.radial c.bottom.center d (Spec.localPoint x0 m (n.cross m) X Y) = c.radius := by
    intro X Y
    have h1 : (X / (c.radius / |g|)) ^ 2 + (Y / c.radius) ^ 2
        = (X ^ 2 * g ^ 2 + Y ^ 2) / c.radius ^ 2 := by
      rw [← sq_abs g]
      field_simp
    rw [h1, div_eq_one_iff_eq (by positivity), ← hrad, sq_eq_sq₀ (radial_nonneg _ _ _) hr.le]
  intro p
  constructor
  · rintro ⟨X, Y, hXY, rfl⟩
    refine ⟨?_, (hiff X Y).1 hXY⟩
    rw [Spec.onPlane_iff, show Spec.localPoint x0 m (n.cross m) X Y - face.plane.supp
      = (x0 - face.plane.supp) + X • m + Y • n.cross m by ext <;> simp [Spec.localPoint] <;> ring,
      V3.dot_add, V3.dot_add, V3.dot_smul, V3.dot_smul, (Spec.onPlane_iff _ _ _).1 hxp, hnm,
      V3.dot_cross_left]
    ring
  · rintro ⟨hp, hrp⟩
    have hx := expand_frame hvalid p (by
      simp only
      rw [V3.dot_comm, show p - x0 = (p - face.plane.supp) - (x0 - face.plane.supp) by module,
        V3.dot_sub, (Spec.onPlane_iff _ _ _).1 hp, (Spec.onPlane_iff _ _ _).1 hxp, sub_zero])
    simp only at hx
    refine ⟨_, _, ?_, hx⟩
    rw [hiff, ← hx]
    exact hrp

/-- The circle constructed for a plane that is orthogonal to the axis up to the angular tolerance. -/
theorem orthogonal_ellipse (K : Kernel) (c : CylinderSurface) (face : FaceGeom) (charLength eps : ℝ)
    (hc : ValidSurface c) (hp : gpIsParallel face.plane.normal c.bottom.normal angular) :
    infEllipse K c face charLength eps = .val (some ⟨face.plane.projection c.bottom.center,
      c.bottom.major, c.bottom.minor, c.bottom.normal, c.radius, c.radius⟩) := by
  unfold infEllipse
  simp only
  rw [if_pos hp, elliptical_make_axes hc.bottom.frame]
  rfl

/-- For a plane orthogonal to the axis, the ellipse consists of exactly the common points of the plane
and the infinitely extended cylinder. -/
theorem C52_orthogonal (K : Kernel) (c : CylinderSurface) (face : FaceGeom) (charLength eps : ℝ)
    (hc : ValidSurface c)
    (hpar : face.plane.normal = c.bottom.normal ∨ face.plane.normal = -c.bottom.normal) :
    ∃ e, infEllipse K c face charLength eps = .val (some e) ∧ ValidElliptical e ∧
      ∀ p, Spec.OnEllipse e.center e.major e.minor e.majLen e.minLen p ↔
        Spec.OnPlane face.plane.supp face.plane.normal p ∧
        Spec.OnInfCylinder c.bottom.center c.bottom.normal c.radius p := by
  have hr : 0 < c.radius := hc.bottom.maj_pos
  have hd := hc.axis
  have hdd1 : c.bottom.normal.dot c.bottom.normal = 1 := (Spec.isUnit_iff _).1 hd
  have hgp : gpIsParallel face.plane.normal c.bottom.normal angular := by
    have hu : Spec.IsUnit face.plane.normal := by
      rcases hpar with h | h
      · rw [h]; exact hd
      · rw [h, Spec.isUnit_iff, V3.sqLen_neg]; exact (Spec.isUnit_iff _).1 hd
    unfold gpIsParallel
    rw [gpAngle_unit hu hd]
    rcases hpar with h | h
    · left; rw [h, hdd1, Real.arccos_one]; exact angular_pos.le
    · right; rw [h, V3.neg_dot, hdd1, Real.arccos_neg_one, sub_self]; exact angular_pos.le
  have hvalid : ValidElliptical ⟨face.plane.projection c.bottom.center,
      c.bottom.major, c.bottom.minor, c.bottom.normal, c.radius, c.radius⟩ :=
    ⟨hc.bottom.frame, hr, hr⟩
  refine ⟨_, orthogonal_ellipse K c face charLength eps hc hgp, hvalid, ?_⟩
  obtain ⟨d1, d2, d3, d4, d5, d6⟩ := hvalid.dots
  simp only at d1 d2 d3 d4 d5 d6 ⊢
  set q := c.bottom.center with hq
  set d := c.bottom.normal with hdE
  set u := c.bottom.major
  set v := c.bottom.minor
  -- the plane in terms of the axis
  have hpl : ∀ p, Spec.OnPlane face.plane.supp face.plane.normal p ↔ d.dot (p - face.plane.supp) = 0 := by
    intro p
    rw [Spec.onPlane_iff]
    rcases hpar with h | h
    · rw [h]
    · rw [h, V3.neg_dot, neg_eq_zero]
  have hctr : face.plane.projection q = q + (-(d.dot (q - face.plane.supp))) • d := by
    unfold Plane.projection
    rcases hpar with h | h
    · rw [h]; module
    · rw [h, V3.neg_dot]; module
  set t0 := -(d.dot (q - face.plane.supp)) with ht0
  have hrad : ∀ X Y : ℝ, Spec.radial q d (Spec.localPoint (face.plane.projection q) u v X Y) ^ 2
      = X ^ 2 + Y ^ 2 := by
    intro X Y
    have e1 : Spec.localPoint (face.plane.projection q) u v X Y = (q + X • u + Y • v) + t0 • d := by
      rw [hctr]; ext <;> simp [Spec.localPoint] <;> ring
    rw [← radialVec_len, e1, radialVec_along_axis hd, V3.len_sq, radialVec_eq,
      show q + X • u + Y • v - q = X • u + Y • v by module,
      V3.dot_add, V3.dot_smul, V3.dot_smul, V3.dot_comm d u, V3.dot_comm d v, d6, d5,
      show q + X • u + Y • v - (q + (X * 0 + Y * 0) • d) = X • u + Y • v by module,
      V3.sqLen_add, V3.sqLen_smul, V3.sqLen_smul, V3.dot_smul, V3.smul_dot, d4]
    simp only [V3.sqLen_eq_dot]
    rw [d1, d2]; ring
  have hiff : ∀ X Y : ℝ, (X / c.radius) ^ 2 + (Y / c.radius) ^ 2 = 1 ↔
      Spec.radial q d (Spec.localPoint (face.plane.projection q) u v X Y) = c.radius := by
    intro X Y
    rw [← sq_eq_sq₀ (radial_nonneg _ _ _) hr.le, hrad, div_pow, div_pow, ← add_div,
      div_eq_one_iff_eq (by positivity)]
  have hcp : d.dot (face.plane.projection q - face.plane.supp) = 0 := by
    rw [hctr, show q + t0 • d - face.plane.supp = (q - face.plane.supp) + t0 • d by module, V3.dot_add,
      V3.dot_smul, hdd1, ht0]; ring
  intro p
  rw [hpl]
  constructor
  · rintro ⟨X, Y, hXY, rfl⟩
    refine ⟨?_, (hiff X Y).1 hXY⟩
    rw [show Spec.localPoint (face.plane.projection q) u v X Y - face.plane.supp
      = (face.plane.projection q - face.plane.supp) + X • u + Y • v by
        ext <;> simp [Spec.localPoint] <;> ring,
      V3.dot_add, V3.dot_add, V3.dot_smul, V3.dot_smul, hcp, V3.dot_comm d u, V3.dot_comm d v, d5, d6]
    ring
  · rintro ⟨hp, hrp⟩
    have hx := expand_frame hvalid p (by
      simp only
      rw [V3.dot_comm, show p - face.plane.projection q
        = (p - face.plane.supp) - (face.plane.projection q - face.plane.supp) by module,
        V3.dot_sub, hp, hcp, sub_zero])
    simp only at hx
    refine ⟨_, _, ?_, hx⟩
    rw [hiff, ← hx]
    exact hrp

/-- For a plane that is orthogonal to the axis up to the angular tolerance only, the points of the
returned circle leave the plane by at most the tolerance times the radius, and leave the cylinder by at
most the tolerance times the distance of the plane from the bottom centre. -/
theorem C52_nearly_orthogonal (K : Kernel) (c : CylinderSurface) (face : FaceGeom)
    (charLength eps : ℝ) (hc : ValidSurface c) (hn : Spec.IsUnit face.plane.normal)
    (hpar : gpIsParallel face.plane.normal c.bottom.normal angular) :
    ∃ e, infEllipse K c face charLength eps = .val (some e) ∧ ValidElliptical e ∧
      ∀ p, Spec.OnEllipse e.center e.major e.minor e.majLen e.minLen p →
        |Spec.inner face.plane.normal (p - face.plane.supp)| ≤ c.radius * angular ∧
        |Spec.radial c.bottom.center c.bottom.normal p - c.radius| ≤
          |Spec.inner face.plane.normal (c.bottom.center - face.plane.supp)| * angular := by
  have hr : 0 < c.radius := hc.bottom.maj_pos
  have hd := hc.axis
  have hvalid : ValidElliptical ⟨face.plane.projection c.bottom.center,
      c.bottom.major, c.bottom.minor, c.bottom.normal, c.radius, c.radius⟩ :=
    ⟨hc.bottom.frame, hr, hr⟩
  refine ⟨_, orthogonal_ellipse K c face charLength eps hc hpar, hvalid, ?_⟩
  obtain ⟨d1, d2, d3, d4, d5, d6⟩ := hvalid.dots
  have hsin := parallel_sin hn hd hpar
  have hnn1 : face.plane.normal.dot face.plane.normal = 1 := (Spec.isUnit_iff _).1 hn
  simp only at d1 d2 d3 d4 d5 d6 ⊢
  set q := c.bottom.center with hq
  set d := c.bottom.normal with hdE
  set u := c.bottom.major with hu
  set v := c.bottom.minor with hv
  set n := face.plane.normal with hnE
  set k := n.dot (q - face.plane.supp) with hk
  have hcomp : (n.dot u) ^ 2 + (n.dot v) ^ 2 = 1 - (n.dot d) ^ 2 := by
    have h1 := congrArg (fun z => n.dot z) (frame_components hc.bottom n)
    simp only [V3.dot_add, V3.dot_smul] at h1
    rw [hnn1] at h1
    linarith
  have hang2 : 1 - (n.dot d) ^ 2 ≤ angular ^ 2 := by
    have h0 : 0 ≤ 1 - (n.dot d) ^ 2 := by rw [← hcomp]; positivity
    rw [← Real.sq_sqrt h0]
    exact pow_le_pow_left₀ (Real.sqrt_nonneg _) hsin 2
  rintro p ⟨X, Y, hXY, rfl⟩
  have hXY' : X ^ 2 + Y ^ 2 = c.radius ^ 2 := by
    rw [div_pow, div_pow, ← add_div, div_eq_one_iff_eq (by positivity)] at hXY
    exact hXY
  have hctr : face.plane.projection q = q - k • n := by
    unfold Plane.projection
    rw [hk, hnE]; try module
  have hpq : Spec.localPoint (face.plane.projection q) u v X Y = q - k • n + X • u + Y • v := by
    rw [hctr]; ext <;> simp [Spec.localPoint] <;> ring
  rw [hpq, Spec.inner_eq_dot, Spec.inner_eq_dot]
  constructor
  · have h1 : n.dot (q - k • n + X • u + Y • v - face.plane.supp) = X * n.dot u + Y * n.dot v := by
      rw [show q - k • n + X • u + Y • v - face.plane.supp
        = (q - face.plane.supp) + (-k) • n + X • u + Y • v by module, V3.dot_add, V3.dot_add,
        V3.dot_add, V3.dot_smul, V3.dot_smul, V3.dot_smul, hnn1, ← hk]; ring
    rw [h1]
    refine abs_le_of_sq_le_sq ?_ (mul_nonneg hr.le angular_pos.le)
    have h2 : (X * n.dot u + Y * n.dot v) ^ 2 ≤ (X ^ 2 + Y ^ 2) * ((n.dot u) ^ 2 + (n.dot v) ^ 2) := by
      nlinarith [sq_nonneg (X * n.dot v - Y * n.dot u)]
    rw [hXY', hcomp] at h2
    rw [mul_pow]
    exact h2.trans (mul_le_mul_of_nonneg_left hang2 (sq_nonneg _))
  · -- the radial vector is that of the circle point minus `k` times that of the normal
    rw [← radialVec_len, radialVec_eq]
    set w := n - (d.dot n) • d with hw
    have e1 : q - k • n + X • u + Y • v
        - (q + (d.dot (q - k • n + X • u + Y • v - q)) • d) = (X • u + Y • v) - k • w := by
      rw [show q - k • n + X • u + Y • v - q = (-k) • n + X • u + Y • v by module, V3.dot_add,
        V3.dot_add, V3.dot_smul, V3.dot_smul, V3.dot_smul, V3.dot_comm d u, V3.dot_comm d v, d5, d6,
        hw]
      module
    rw [e1]
    have hlen : (X • u + Y • v).len = c.radius := by
      rw [← sq_eq_sq₀ (V3.len_nonneg _) hr.le, V3.len_sq, V3.sqLen_add, V3.sqLen_smul, V3.sqLen_smul,
        V3.dot_smul, V3.smul_dot, d4, V3.sqLen_eq_dot, V3.sqLen_eq_dot, d1, d2]
      linarith
    have hwl : w.len ≤ angular := by
      refine abs_le_of_sq_le_sq' ?_ angular_pos.le |>.2
      rw [V3.len_sq, hw, V3.sqLen_sub, V3.sqLen_smul, V3.dot_smul, V3.sqLen_eq_dot, V3.sqLen_eq_dot,
        hnn1, (Spec.isUnit_iff _).1 hd |> fun h => (h : d.dot d = 1), V3.dot_comm d n]
      linarith
    have hkw : (k • w).len ≤ |k| * angular := by
      rw [V3.len_smul]
      exact mul_le_mul_of_nonneg_left hwl (abs_nonneg _)
    rw [← hlen]
    have t1 := V3.len_add_le ((X • u + Y • v) - k • w) (k • w)
    have t2 := V3.len_add_le (X • u + Y • v) (-(k • w))
    rw [V3.len_neg, ← sub_eq_add_neg] at t2
    rw [show (X • u + Y • v) - k • w + k • w = X • u + Y • v by module] at t1
    rw [abs_le]
    constructor <;> linarith

/-! ### A plane inclined by 45 degrees -/

/-- A kernel returning the origin for every plane and line. -/
def originKernel : Kernel := ⟨fun _ _ _ => none, fun _ _ => some 0, fun _ _ _ => []⟩

noncomputable def inclinedFace : FaceGeom :=
  ⟨inclinedPlane, 0, fun _ _ => .val True, fun _ _ => [], fun _ _ => []⟩

noncomputable def unitSurface : CylinderSurface :=
  ⟨1, ⟨⟨0, 0, 1⟩, ⟨1, 0, 0⟩, ⟨0, 1, 0⟩, ⟨0, 0, 1⟩, 1, 1⟩, unitCircle⟩

theorem unitSurface_valid : ValidSurface unitSurface :=
  ⟨unitCircle_valid, by ext <;> norm_num [unitSurface, unitCircle], one_pos⟩

theorem inclined_faceInPlane : FaceInPlane inclinedFace :=
  ⟨inclined_frame.2.2.1, by simp [Spec.OnPlane, inclinedFace, inclinedPlane]⟩

theorem inclined_dot : inclinedFace.plane.normal.dot unitSurface.bottom.normal = Real.sqrt 2 / 2 := by
  simp [inclinedFace, inclinedPlane, unitSurface, unitCircle, V3.dot]

theorem inclined_angle :
    gpAngle inclinedFace.plane.normal unitSurface.bottom.normal = Real.pi / 4 := by
  rw [gpAngle_unit inclined_faceInPlane.unit unitSurface_valid.axis, inclined_dot, ← Real.cos_pi_div_four]
  have := Real.pi_pos
  exact Real.arccos_cos (by linarith) (by linarith)

theorem inclined_not_parallel :
    ¬ gpIsParallel inclinedFace.plane.normal unitSurface.bottom.normal angular := by
  unfold gpIsParallel
  rw [inclined_angle]
  have := Real.two_le_pi
  have ha : angular < 1 / 4 := by norm_num [angular]
  rintro (h | h) <;> linarith

theorem inclined_not_normal :
    ¬ gpIsNormal inclinedFace.plane.normal unitSurface.bottom.normal angular := by
  unfold gpIsNormal
  rw [inclined_angle]
  have := Real.two_le_pi
  have ha : angular < 1 / 4 := by norm_num [angular]
  rw [show Real.pi / 2 - Real.pi / 4 = Real.pi / 4 by ring, abs_of_nonneg (by linarith)]
  linarith

/-- The hypotheses of `C52_oblique` hold for the plane inclined by 45 degrees. -/
example : ∃ e, infEllipse originKernel unitSurface inclinedFace 1 1 = .val (some e) ∧
    Spec.OnEllipse e.center e.major e.minor e.majLen e.minLen ⟨1, 0, 1⟩ := by
  obtain ⟨e, h1, _, h2⟩ := C52_oblique originKernel unitSurface inclinedFace 1 1 unitSurface_valid
    inclined_faceInPlane one_pos one_pos inclined_not_parallel inclined_not_normal
    ⟨0, rfl, by simp [Spec.OnPlane, inclinedFace, inclinedPlane],
      ⟨0, by simp [unitSurface, unitCircle]⟩⟩
  refine ⟨e, h1, (h2 _).2 ⟨?_, ?_⟩⟩
  · simp [Spec.OnPlane, inclinedFace, inclinedPlane]
  · show Spec.radial _ _ _ = (1 : ℝ)
    have h := radial_sq unitSurface.bottom.center unitSurface.bottom.normal ⟨1, 0, 1⟩
    have h0 := radial_nonneg unitSurface.bottom.center unitSurface.bottom.normal ⟨1, 0, 1⟩
    simp [unitSurface, unitCircle, V3.sqLen, V3.dot] at h h0 ⊢
    exact h.resolve_right (by intro h; linarith)

/-- The hypotheses of `C52_orthogonal` hold for the plane of the bottom. -/
example : ∃ e, infEllipse originKernel unitSurface
    ⟨⟨0, ⟨1, 0, 0⟩, ⟨0, 1, 0⟩, ⟨0, 0, 1⟩⟩, 0, fun _ _ => .val True, fun _ _ => [], fun _ _ => []⟩ 1 1
      = .val (some e) := by
  obtain ⟨e, h, _⟩ := C52_orthogonal originKernel unitSurface
    ⟨⟨0, ⟨1, 0, 0⟩, ⟨0, 1, 0⟩, ⟨0, 0, 1⟩⟩, 0, fun _ _ => .val True, fun _ _ => [], fun _ _ => []⟩ 1 1
    unitSurface_valid (.inl (by simp [unitSurface, unitCircle]))
  exact ⟨e, h⟩

end Props
