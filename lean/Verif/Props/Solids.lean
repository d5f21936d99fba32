import Verif.Spec.Solids
import Verif.Props.HollowCylinder

/-!
# Spheres, lateral surfaces and the faces of cylinders (C69, C70)
-/

namespace Props
open Verif Frackit

/-! ## C69 Spheres contain the ball, cylinder surfaces contain the lateral surface -/

/-- Points of the ball are contained for every positive tolerance, contained points are closer to the
centre than the radius plus the tolerance, and exactly the points of the ball are contained for every
positive tolerance. -/
theorem C69_sphere (s : Sphere) (p : V3) (hr : 0 ≤ s.radius) :
    (∀ eps, 0 < eps → Spec.InBall s.center s.radius p → s.contains p eps) ∧
    (∀ eps, 0 < eps → s.contains p eps → Spec.dist s.center p < s.radius + eps) ∧
    ((∀ eps, 0 < eps → s.contains p eps) ↔ Spec.InBall s.center s.radius p) := by
  have hsq : Spec.dist s.center p ^ 2 = (p - s.center).sqLen := by
    rw [Spec.dist_comm, Spec.dist_eq_len, V3.len_sq]
  have h0 : 0 ≤ Spec.dist s.center p := Real.sqrt_nonneg _
  unfold Sphere.contains Spec.InBall
  rw [← hsq]
  set d := Spec.dist s.center p
  have k1 : ∀ eps, 0 < eps → d ≤ s.radius → d ^ 2 - s.radius * s.radius < eps * eps := by
    intro eps he hd
    nlinarith
  have k2 : ∀ eps, 0 < eps → d ^ 2 - s.radius * s.radius < eps * eps → d < s.radius + eps := by
    intro eps he hd
    by_contra hn
    push Not at hn
    nlinarith
  refine ⟨k1, k2, ?_, fun h eps he => k1 eps he h⟩
  intro h
  by_contra hn
  push Not at hn
  have := k2 (d - s.radius) (by linarith) (h _ (by linarith))
  linarith

/-- The tolerance used if none is given is positive, so the points of a ball are contained. -/
theorem C69_sphere_default (s : Sphere) (p : V3) (hr : 0 < s.radius)
    (hp : Spec.InBall s.center s.radius p) : s.containsDefault p :=
  (C69_sphere s p hr.le).1 _ (mul_pos hr confusion_pos) hp

/-- Points further away from the centre than the radius, by more than the default tolerance (a
ten-millionth of the radius), are not contained. -/
theorem C69_sphere_default_excludes (s : Sphere) (p : V3) (hr : 0 < s.radius)
    (hp : s.radius * (1 + 1 / 10 ^ 7) ≤ Spec.dist s.center p) : ¬ s.containsDefault p := by
  intro h
  have := (C69_sphere s p hr.le).2.1 _ (mul_pos hr confusion_pos) h
  unfold confusion at this
  nlinarith

example : (⟨⟨1, 2, 3⟩, 2⟩ : Sphere).containsDefault ⟨1, 2, 5⟩ := by
  apply C69_sphere_default _ _ (by norm_num)
  unfold Spec.InBall Spec.dist
  norm_num
  rw [show (4 : ℝ) = 2 ^ 2 by norm_num, Real.sqrt_sq (by norm_num)]

/-- A cylinder surface as produced by the constructors. -/
structure SurfaceOf (c : CylinderSurface) (center axis : V3) (r h : ℝ) : Prop where
  axis_unit : Spec.IsUnit axis
  frame : Spec.RightHandedOrthonormal c.bottom.major c.bottom.minor axis
  bottom_center : c.bottom.center = center
  bottom_normal : c.bottom.normal = axis
  bottom_minLen : c.bottom.minLen = r
  radius : c.radius = r
  top_center : c.top.center = center + h • axis
  top_normal : c.top.normal = axis
  top_frame : Spec.RightHandedOrthonormal c.top.major c.top.minor axis
  top_radius : c.top.majLen = r ∧ c.top.minLen = r
  height : c.height = h

theorem surface_ofCircle {k : Elliptical} {axis : V3} {r : ℝ} (ha : Spec.IsUnit axis)
    (hf : Spec.RightHandedOrthonormal k.major k.minor axis) (hn : k.normal = axis)
    (h1 : k.majLen = r) (h2 : k.minLen = r) (h : ℝ) :
    ∃ c, CylinderSurface.ofCircle k h = .val c ∧ SurfaceOf c k.center axis r h ∧ c.bottom = k := by
  obtain ⟨u, v, hm, hb, hf'⟩ := circle_frame (k.center + h • axis) axis r ha
  refine ⟨⟨h, ⟨k.center + h • axis, u, v, axis, r, r⟩, k⟩, ?_,
    ⟨ha, hf, rfl, hn, h2, h1, rfl, rfl, hf', ⟨rfl, rfl⟩, rfl⟩, rfl⟩
  unfold CylinderSurface.ofCircle
  rw [hn, h1, hb]; rfl

/-- Both constructors give a surface with the requested radius and height; the axis is the one of the
circle or the z-axis. -/
theorem C69_surface_construction (center axis : V3) (r h : ℝ) (ha : Spec.IsUnit axis) :
    (∃ k c, Circle.make center axis r = .val k ∧ CylinderSurface.ofCircle k h = .val c ∧
      SurfaceOf c center axis r h) ∧
    (∃ c, CylinderSurface.axisAligned r h = .val c ∧
      SurfaceOf c ⟨0, 0, 0⟩ ⟨0, 0, 1⟩ r h) := by
  constructor
  · obtain ⟨u, v, hm, hb, hf⟩ := circle_frame center axis r ha
    obtain ⟨c, hc, hv, _⟩ := surface_ofCircle (k := ⟨center, u, v, axis, r, r⟩) ha hf rfl rfl rfl h
    exact ⟨_, c, hb, hc, hv⟩
  · have hu : Spec.IsUnit ⟨0, 0, 1⟩ := by norm_num [Spec.IsUnit]
    obtain ⟨u, v, hm, hb, hf⟩ := circle_frame ⟨0, 0, 0⟩ ⟨0, 0, 1⟩ r hu
    refine ⟨⟨h, ⟨⟨0, 0, h⟩, u, v, ⟨0, 0, 1⟩, r, r⟩, ⟨⟨0, 0, 0⟩, u, v, ⟨0, 0, 1⟩, r, r⟩⟩, ?_,
      ⟨hu, hf, rfl, rfl, rfl, rfl, ?_, rfl, hf, ⟨rfl, rfl⟩, rfl⟩⟩
    · unfold CylinderSurface.axisAligned
      rw [mkDirection_of_unit hu]
      simp [hm]
    · ext <;> simp

/-- `contains(p, eps)` is true exactly if the foot of the point on the axis is on the axis segment up
to the tolerance and the distance to the axis is the radius up to the tolerance. -/
theorem C69_surface_iff (c : CylinderSurface) (center axis p : V3) (r h eps : ℝ)
    (hv : SurfaceOf c center axis r h) (hh : 0 < h) (he : 0 < eps) :
    c.contains p eps ↔
      -eps < Spec.axial center axis p ∧ Spec.axial center axis p < h + eps ∧
      r - eps < Spec.radial center axis p ∧ Spec.radial center axis p < r + eps := by
  unfold CylinderSurface.contains CylinderSurface.centerSegment
  rw [hv.top_center, hv.bottom_center, (center_line _ _ _ hv.axis_unit hh).1]
  simp only [holdsIfVal, Line.projection]
  rw [foot_contained _ _ _ _ _ hv.axis_unit hh he, radial_eq, hv.radius, and_assoc, abs_lt]
  constructor
  · rintro ⟨h1, h2, h3, h4⟩; exact ⟨h1, h2, by linarith, by linarith⟩
  · rintro ⟨h1, h2, h3, h4⟩; exact ⟨h1, h2, by linarith, by linarith⟩

/-- The points contained for every positive tolerance are exactly the points of the lateral surface;
those are also contained if no tolerance is given. -/
theorem C69_surface (c : CylinderSurface) (center axis p : V3) (r h : ℝ)
    (hv : SurfaceOf c center axis r h) (hh : 0 < h) :
    ((∀ eps, 0 < eps → c.contains p eps) ↔ Spec.OnLateral center axis r h p) ∧
    (0 ≤ r → Spec.OnLateral center axis r h p → c.containsDefault p) := by
  have hall : Spec.OnLateral center axis r h p → ∀ eps, 0 < eps → c.contains p eps := by
    rintro ⟨h1, h2, h3⟩ eps he
    rw [C69_surface_iff c center axis p r h eps hv hh he]
    exact ⟨by linarith, by linarith, by linarith, by linarith⟩
  refine ⟨⟨?_, hall⟩, ?_⟩
  · intro hp
    have key := fun eps (he : 0 < eps) =>
      (C69_surface_iff c center axis p r h eps hv hh he).1 (hp eps he)
    refine ⟨?_, ?_, ?_⟩
    · refine le_of_forall_pos_lt_add fun e he => ?_
      have := (key e he).1; linarith
    · exact le_of_forall_pos_lt_add fun e he => (key e he).2.1
    · apply le_antisymm
      · exact le_of_forall_pos_lt_add fun e he => (key e he).2.2.2
      · refine le_of_forall_pos_lt_add fun e he => ?_
        have := (key e he).2.2.1; linarith
  · intro hr hp
    apply hall hp
    rw [hv.radius, hv.height]
    have := confusion_pos
    positivity

example : ∃ c, CylinderSurface.axisAligned 1 2 = .val c ∧ c.containsDefault ⟨1, 0, 1⟩ := by
  obtain ⟨c, hc, hv⟩ := (C69_surface_construction ⟨0, 0, 0⟩ ⟨0, 0, 1⟩ 1 2
    (by norm_num [Spec.IsUnit])).2
  refine ⟨c, hc, (C69_surface c _ _ _ 1 2 hv (by norm_num)).2 (by norm_num) ⟨?_, ?_, ?_⟩⟩ <;>
    norm_num [Spec.axial, Spec.radial, Spec.dist]

/-! ## C70 Faces of cylinders and hollow cylinders -/

/-- The lateral face of a cylinder has the axis, radius and height of the cylinder; it contains (for
every tolerance) exactly the points of the cylinder at distance `radius` from the axis, and the
cylinder of the lateral face is the cylinder again. -/
theorem C70_cylinder (c : Cylinder) (hv : ValidCylinder c) :
    ∃ s c', c.lateralFace = .val s ∧
      SurfaceOf s c.bottom.center c.bottom.normal c.radius c.height ∧
      (∀ p, (∀ eps, 0 < eps → s.contains p eps) ↔
        Spec.InCylinder c.bottom.center c.bottom.normal c.radius c.height p ∧
          Spec.radial c.bottom.center c.bottom.normal p = c.radius) ∧
      s.cylinder = .val c' ∧ ValidCylinder c' ∧ c'.bottom.center = c.bottom.center ∧
      c'.bottom.normal = c.bottom.normal ∧ c'.radius = c.radius ∧ c'.height = c.height := by
  obtain ⟨k, hk, hkv, hkc, hkn, hk1, hk2⟩ :=
    C09_circle_valid c.bottom.center c.bottom.normal c.bottom.majLen hv.axis hv.bottom.maj_pos
  obtain ⟨s, hs, hsv, hsb⟩ := surface_ofCircle hv.axis (by rw [← hkn]; exact hkv.frame) hkn hk1 hk2
    c.height
  rw [hkc] at hsv
  obtain ⟨c', hc', hcv', g1, g2, g3, g4⟩ := (C14_construction k c.height hkv hv.height_pos).2.2
  refine ⟨s, c', ?_, hsv, ?_, ?_, hcv', by rw [g1, hkc], by rw [g2, hkn], by rw [g3, hk1]; rfl, g4⟩
  · unfold Cylinder.lateralFace
    rw [hk]; exact hs
  · intro p
    rw [(C69_surface s _ _ p _ _ hsv hv.height_pos).1]
    constructor
    · rintro ⟨h1, h2, h3⟩; exact ⟨⟨h1, h2, h3.le⟩, h3⟩
    · rintro ⟨⟨h1, h2, _⟩, h3⟩; exact ⟨h1, h2, h3⟩
  · unfold CylinderSurface.cylinder
    rw [hsb, hsv.height]; exact hc'

/-- The cylinder enclosed by a surface has the axis, radius and height of the surface. -/
theorem C70_surface_cylinder (s : CylinderSurface) (center axis : V3) (r h : ℝ)
    (hv : SurfaceOf s center axis r h) (hr : 0 < r) (hh : 0 < h) :
    ∃ c, s.cylinder = .val c ∧ ValidCylinder c ∧ c.bottom.center = center ∧
      c.bottom.normal = axis ∧ c.radius = r ∧ c.height = h := by
  have hb : ValidElliptical s.bottom := ⟨by rw [hv.bottom_normal]; exact hv.frame,
    by have := hv.radius; unfold CylinderSurface.radius at this; rw [this]; exact hr,
    by rw [hv.bottom_minLen]; exact hr⟩
  obtain ⟨c', hc', hcv', g1, g2, g3, g4⟩ := (C14_construction s.bottom h hb hh).2.2
  refine ⟨c', ?_, hcv', by rw [g1, hv.bottom_center], by rw [g2, hv.bottom_normal], ?_, g4⟩
  · unfold CylinderSurface.cylinder
    rw [hv.height]; exact hc'
  · rw [g3]; exact hv.radius

/-- The lateral faces of a hollow cylinder contain exactly the points of the shell at the inner and
outer radius. -/
theorem C70_hollow_faces (c : HollowCylinder) (center axis : V3) (r1 r2 h : ℝ)
    (hv : ValidHollow c center axis r1 r2 h) (hh : 0 < h) (hr : r1 ≤ r2) :
    ∃ inner outer, c.innerLateralFace = .val inner ∧ c.outerLateralFace = .val outer ∧
      SurfaceOf inner center axis r1 h ∧ SurfaceOf outer center axis r2 h ∧
      (∀ p, (∀ eps, 0 < eps → inner.contains p eps) ↔
        Spec.InShell center axis r1 r2 h p ∧ Spec.radial center axis p = r1) ∧
      (∀ p, (∀ eps, 0 < eps → outer.contains p eps) ↔
        Spec.InShell center axis r1 r2 h p ∧ Spec.radial center axis p = r2) := by
  obtain ⟨u, v, hm, hb, hf⟩ := circle_frame center axis r1 hv.axis_unit
  have hbi : c.bottomInner = ⟨center, u, v, axis, r1, r1⟩ := by
    have := hv.bottom
    rw [hb] at this
    exact (Outcome.val.inj this).symm
  obtain ⟨i, hi, hiv, _⟩ := surface_ofCircle (k := ⟨center, u, v, axis, r1, r1⟩) hv.axis_unit hf rfl
    rfl rfl h
  obtain ⟨o, ho, hov, _⟩ := surface_ofCircle (k := ⟨center, u, v, axis, r2, r2⟩) hv.axis_unit hf rfl
    rfl rfl h
  refine ⟨i, o, ?_, ?_, hiv, hov, ?_, ?_⟩
  · unfold HollowCylinder.innerLateralFace
    rw [hbi, hv.height]; exact hi
  · unfold HollowCylinder.outerLateralFace HollowCylinder.bottomOuterCircle
    rw [hv.bottom_center, hv.bottom_normal, hv.outer, hv.height, hm]; exact ho
  · intro p
    rw [(C69_surface i _ _ p _ _ hiv hh).1]
    constructor
    · rintro ⟨h1, h2, h3⟩; exact ⟨⟨h1, h2, h3.ge, by rw [h3]; exact hr⟩, h3⟩
    · rintro ⟨⟨h1, h2, _⟩, h3⟩; exact ⟨h1, h2, h3⟩
  · intro p
    rw [(C69_surface o _ _ p _ _ hov hh).1]
    constructor
    · rintro ⟨h1, h2, h3⟩; exact ⟨⟨h1, h2, by rw [h3]; exact hr, h3.le⟩, h3⟩
    · rintro ⟨⟨h1, h2, _⟩, h3⟩; exact ⟨h1, h2, h3⟩

theorem circle_points (center axis u v : V3) (r z t : ℝ)
    (hf : Spec.RightHandedOrthonormal u v axis) (hr : 0 ≤ r) :
    Spec.OnCircle center axis r z
      (Circle.getPoint ⟨center + z • axis, u, v, axis, r, r⟩ t) := by
  have h := sample_coords (d := ⟨center, u, v, axis, r, r⟩) hf (2 * Real.pi * t) z (r ^ 2)
    (sq_nonneg r)
  rw [Real.sqrt_sq hr] at h
  have e : Circle.getPoint ⟨center + z • axis, u, v, axis, r, r⟩ t =
      center + (r * Real.cos (2 * Real.pi * t)) • u + (r * Real.sin (2 * Real.pi * t)) • v
        + z • axis := by
    unfold Circle.getPoint Circle.getPointFromAngle
    simp only
    rw [mul_comm r, mul_comm r]
    module
  rw [e]
  exact h

/-- The outer circles of a hollow cylinder are centred at the end points of the axis and have the outer
radius: all their points are points of the shell at the outer radius, at the bottom and at the top. -/
theorem C70_hollow_circles (c : HollowCylinder) (center axis : V3) (r1 r2 h : ℝ)
    (hv : ValidHollow c center axis r1 r2 h) (hh : 0 < h) (hr : r1 ≤ r2) (hr2 : 0 < r2) :
    ∃ b t, c.bottomOuterCircle = .val b ∧ c.topOuterCircle = .val t ∧
      ValidElliptical b ∧ ValidElliptical t ∧ b.center = center ∧ t.center = center + h • axis ∧
      b.normal = axis ∧ t.normal = axis ∧ b.majLen = r2 ∧ t.majLen = r2 ∧
      (∀ x, Spec.OnCircle center axis r2 0 (Circle.getPoint b x) ∧
        Spec.InShell center axis r1 r2 h (Circle.getPoint b x)) ∧
      (∀ x, Spec.OnCircle center axis r2 h (Circle.getPoint t x) ∧
        Spec.InShell center axis r1 r2 h (Circle.getPoint t x)) := by
  obtain ⟨u, v, hm, hb, hf⟩ := circle_frame center axis r2 hv.axis_unit
  refine ⟨⟨center, u, v, axis, r2, r2⟩, ⟨center + h • axis, u, v, axis, r2, r2⟩, ?_, ?_,
    ⟨hf, hr2, hr2⟩, ⟨hf, hr2, hr2⟩, rfl, rfl, rfl, rfl, rfl, rfl, ?_, ?_⟩
  · unfold HollowCylinder.bottomOuterCircle
    rw [hv.bottom_center, hv.bottom_normal, hv.outer, hm]
  · unfold HollowCylinder.topOuterCircle
    rw [hv.top_center, hv.bottom_normal, hv.outer, hm]
  · intro x
    have k := circle_points center axis u v r2 0 x hf hr2.le
    rw [zero_smul, add_zero] at k
    exact ⟨k, by rw [k.1], by rw [k.1]; exact hh.le, by rw [k.2]; exact hr, k.2.le⟩
  · intro x
    have k := circle_points center axis u v r2 h x hf hr2.le
    exact ⟨k, by rw [k.1]; exact hh.le, k.1.le, by rw [k.2]; exact hr, k.2.le⟩

example : ∃ c, HollowCylinder.axisAligned 1 2 3 = .val c ∧
    ∃ o, c.outerLateralFace = .val o ∧ SurfaceOf o ⟨0, 0, 0⟩ ⟨0, 0, 1⟩ 2 3 := by
  obtain ⟨c, hc, hv⟩ := C15_axis_aligned 1 2 3 (by norm_num)
  obtain ⟨_, o, _, ho, _, hov, _⟩ := C70_hollow_faces c _ _ 1 2 3 hv (by norm_num) (by norm_num)
  exact ⟨c, hc, o, ho, hov⟩

end Props
