import Verif.Model.Intersection.Angle
import Verif.Spec.Angle
import Verif.Props.Cylinder
import Verif.Props.SegmentSegment

/-!
# C53 Intersection angles
-/

namespace Props
open Verif Frackit

theorem unit_norm {d : V3} (h : Spec.IsUnit d) : Spec.norm d = 1 := by
  rw [Spec.norm_eq_len, unit_len h]

theorem unit_abs_dot_le {m n : V3} (hm : Spec.IsUnit m) (hn : Spec.IsUnit n) : |m.dot n| ≤ 1 := by
  have := V3.abs_dot_le m n
  rwa [unit_len hm, unit_len hn, one_mul] at this

theorem arccos_abs (x : ℝ) : Real.arccos |x| = min (Real.arccos x) (Real.pi - Real.arccos x) := by
  rcases le_total 0 x with h | h
  · rw [abs_of_nonneg h, min_eq_left]
    have := Real.arccos_le_pi_div_two.2 h
    linarith
  · rw [abs_of_nonpos h, Real.arccos_neg, min_eq_right]
    have := Real.arccos_le_pi_div_two.2 (neg_nonneg.2 h)
    rw [Real.arccos_neg] at this
    linarith

theorem planeAngle_isPlaneAngle {p1 p2 : Plane} (h1 : Spec.IsUnit p1.normal)
    (h2 : Spec.IsUnit p2.normal) : Spec.IsPlaneAngle p1.normal p2.normal (planeAngle p1 p2) := by
  unfold Spec.IsPlaneAngle planeAngle Spec.vecAngle
  rw [unit_norm h1, unit_norm h2, mul_one, div_one, Spec.inner_eq_dot, arccos_abs]

theorem isPlaneAngle_smul {m n : V3} {θ s : ℝ} (hs : s ≠ 0) :
    Spec.IsPlaneAngle m (s • n) θ ↔ Spec.IsPlaneAngle m n θ := by
  unfold Spec.IsPlaneAngle Spec.vecAngle
  simp only [Spec.inner_eq_dot, Spec.norm_eq_len, V3.dot_smul, V3.len_smul]
  rcases lt_or_gt_of_ne hs with h | h
  · rw [abs_of_neg h, show s * m.dot n / (m.len * (-s * n.len)) = -(m.dot n / (m.len * n.len)) by
      rw [show m.len * (-s * n.len) = -(s * (m.len * n.len)) by ring, div_neg,
        mul_div_mul_left _ _ h.ne], Real.arccos_neg, min_comm]
    rw [show Real.pi - (Real.pi - Real.arccos (m.dot n / (m.len * n.len)))
      = Real.arccos (m.dot n / (m.len * n.len)) by ring]
  · rw [abs_of_pos h, show m.len * (s * n.len) = s * (m.len * n.len) by ring,
      mul_div_mul_left _ _ h.ne']

/-- The angle between two planes is the smaller angle between their normals; it lies between zero and
a right angle, is symmetric, does not depend on the sense of the normals, vanishes exactly if the
normals are parallel and is a right angle exactly if they are orthogonal. -/
theorem C53_plane_angle (p1 p2 : Plane) (h1 : Spec.IsUnit p1.normal) (h2 : Spec.IsUnit p2.normal) :
    Spec.IsPlaneAngle p1.normal p2.normal (planeAngle p1 p2) ∧
    0 ≤ planeAngle p1 p2 ∧ planeAngle p1 p2 ≤ Real.pi / 2 ∧
    planeAngle p2 p1 = planeAngle p1 p2 ∧
    (∀ q : Plane, q.normal = -p2.normal → planeAngle p1 q = planeAngle p1 p2) ∧
    (planeAngle p1 p2 = 0 ↔ p1.normal = p2.normal ∨ p1.normal = -p2.normal) ∧
    (planeAngle p1 p2 = Real.pi / 2 ↔ Spec.Orthogonal p1.normal p2.normal) := by
  have hle := unit_abs_dot_le h1 h2
  refine ⟨planeAngle_isPlaneAngle h1 h2, Real.arccos_nonneg _,
    Real.arccos_le_pi_div_two.2 (abs_nonneg _), ?_, ?_, ?_, ?_⟩
  · unfold planeAngle; rw [V3.dot_comm]
  · intro q hq; unfold planeAngle; rw [hq, V3.dot_neg, abs_neg]
  · unfold planeAngle
    rw [Real.arccos_eq_zero]
    have e1 : ∀ s : ℝ, (p1.normal - s • p2.normal).sqLen = 1 - 2 * (s * p1.normal.dot p2.normal) + s ^ 2 := by
      intro s
      rw [V3.sqLen_sub, V3.sqLen_smul, V3.dot_smul, (Spec.isUnit_iff _).1 h1, (Spec.isUnit_iff _).1 h2]
      ring
    constructor
    · intro h
      have h' : |p1.normal.dot p2.normal| = 1 := le_antisymm hle h
      rcases (abs_eq (by norm_num : (0 : ℝ) ≤ 1)).1 h' with h' | h'
      · left
        have := e1 1
        rw [h', one_smul] at this
        exact sub_eq_zero.1 (V3.sqLen_eq_zero.1 (by rw [this]; ring))
      · right
        have := e1 (-1)
        rw [h', neg_one_smul] at this
        exact sub_eq_zero.1 (V3.sqLen_eq_zero.1 (by rw [this]; ring))
    · have hd : p2.normal.dot p2.normal = 1 := (Spec.isUnit_iff _).1 h2
      rintro (h | h)
      · rw [h, hd]; norm_num
      · rw [h, V3.neg_dot, hd]; norm_num
  · unfold planeAngle Spec.Orthogonal
    rw [Real.arccos_eq_pi_div_two, abs_eq_zero, Spec.inner_eq_dot]

theorem doubleMax_large : 2 ≤ doubleMax := by
  unfold doubleMax
  have h1 : (1 / 2 ^ 52 : ℝ) ≤ 1 := by norm_num
  have h2 : (2 : ℝ) ≤ 2 ^ 1023 := by
    calc (2 : ℝ) = 2 ^ 1 := by norm_num
      _ ≤ 2 ^ 1023 := pow_le_pow_right₀ (by norm_num) (by norm_num)
  revert h1 h2
  generalize (1 / 2 ^ 52 : ℝ) = x
  generalize (2 : ℝ) ^ 1023 = y
  intro h1 h2
  nlinarith

/-- Value of the minimum loops: the smallest of the values that are numbers. -/
theorem minFold_val {α : Type} (f : α → Outcome ℝ) (g : α → ℝ) (xs : List α)
    (h : ∀ x ∈ xs, f x = .val (g x)) (r : ℝ) :
    ∃ m, xs.foldl (fun r x => do let r ← r; minStep r (f x)) (.val r) = .val m ∧
      m ≤ r ∧ (∀ x ∈ xs, m ≤ g x) ∧ (m = r ∨ ∃ x ∈ xs, m = g x) := by
  induction xs generalizing r with
  | nil => exact ⟨r, rfl, le_rfl, by simp, .inl rfl⟩
  | cons a as ih =>
    obtain ⟨m, hm, h1, h2, h3⟩ := ih (fun x hx => h x (List.mem_cons_of_mem _ hx))
      (if g a < r then g a else r)
    refine ⟨m, ?_, ?_, ?_, ?_⟩
    · rw [List.foldl_cons, Outcome.val_bind, h a List.mem_cons_self]
      exact hm
    · split_ifs at h1 with hc <;> linarith
    · intro x hx
      rcases List.mem_cons.1 hx with rfl | hx
      · split_ifs at h1 with hc <;> linarith
      · exact h2 x hx
    · rcases h3 with h3 | ⟨x, hx, h3⟩
      · split_ifs at h3 with hc
        · exact .inr ⟨a, List.mem_cons_self, h3⟩
        · exact .inl h3
      · exact .inr ⟨x, List.mem_cons_of_mem _ hx, h3⟩

/-- The angle reported for a list of intersections is the smallest of the individual angles. -/
theorem C53_list_minimum (curves : ℕ → CurveGeom) (geo1 geo2 : AngleGeo) (gs : List IsGeom)
    (angles : IsGeom → ℝ) (hne : gs ≠ [])
    (h : ∀ g ∈ gs, intersectionAngle curves geo1 geo2 (.single g) = .val (angles g) ∧
      angles g ≤ Real.pi / 2) :
    ∃ m, intersectionAngle curves geo1 geo2 (.list gs) = .val m ∧
      (∀ g ∈ gs, m ≤ angles g) ∧ ∃ g ∈ gs, m = angles g := by
  obtain ⟨m, hm, h1, h2, h3⟩ := minFold_val (angleGeom curves geo1 geo2) angles gs
    (fun g hg => (h g hg).1) doubleMax
  refine ⟨m, hm, h2, ?_⟩
  rcases h3 with h3 | h3
  · obtain ⟨g, hg⟩ := List.exists_mem_of_ne_nil gs hne
    have := (h g hg).2
    have := h2 g hg
    have := doubleMax_large
    have hpi := Real.pi_le_four
    refine ⟨g, hg, ?_⟩
    linarith
  · exact h3

/-! ## Cylinder surfaces -/

/-- A valid lateral cylinder surface. -/
structure ValidSurface (c : CylinderSurface) : Prop where
  bottom : ValidElliptical c.bottom
  top_center : c.top.center = c.bottom.center + c.height • c.bottom.normal
  height_pos : 0 < c.height

theorem ValidSurface.axis {c : CylinderSurface} (h : ValidSurface c) : Spec.IsUnit c.bottom.normal :=
  h.bottom.frame.2.2.1

theorem validSurface_ofCircle (circle : Elliptical) (h : ℝ) (hc : ValidElliptical circle) (hh : 0 < h) :
    ∃ c, CylinderSurface.ofCircle circle h = .val c ∧ ValidSurface c ∧ c.bottom = circle ∧
      c.height = h := by
  obtain ⟨t, ht, _, h1, _⟩ := C09_circle_valid (circle.center + h • circle.normal) circle.normal
    circle.majLen hc.frame.2.2.1 hc.maj_pos
  refine ⟨⟨h, t, circle⟩, ?_, ⟨hc, h1, hh⟩, rfl, rfl⟩
  simp [CylinderSurface.ofCircle, ht]

theorem radialVec_eq (c d p : V3) : Spec.radialVec c d p = p - (c + d.dot (p - c) • d) := by
  unfold Spec.radialVec
  rw [axial_eq]
  rfl

theorem radialVec_len (c d p : V3) : (Spec.radialVec c d p).len = Spec.radial c d p := by
  rw [radialVec_eq, radial_eq]

/-- The angle with a cylinder surface in a point off its axis. -/
theorem cylinderAngleAt_val {pl : Plane} {c : CylinderSurface} {p : V3}
    (hn : Spec.IsUnit pl.normal) (hc : ValidSurface c)
    (hr : 0 < Spec.radial c.bottom.center c.bottom.normal p) :
    ∃ θ, cylinderAngleAt pl c p = .val θ ∧
      Spec.IsPlaneAngle pl.normal (Spec.radialVec c.bottom.center c.bottom.normal p) θ ∧
      θ = Real.arccos (|pl.normal.dot (Spec.radialVec c.bottom.center c.bottom.normal p)| /
        Spec.radial c.bottom.center c.bottom.normal p) := by
  have hl := (center_line c.bottom.center c.bottom.normal c.height hc.axis hc.height_pos).1
  set rv := Spec.radialVec c.bottom.center c.bottom.normal p with hrv
  have hne : rv ≠ 0 := by
    rw [← V3.len_pos, hrv, radialVec_len]; exact hr
  obtain ⟨b, s, hb, hu, hs, he⟩ := exists_direction hne
  obtain ⟨t, ht, _, htn, _⟩ := C03_plane_from_normal p b hu
  have hval : cylinderAngleAt pl c p = .val (planeAngle pl t) := by
    unfold cylinderAngleAt CylinderSurface.getTangentPlane CylinderSurface.centerSegment
    rw [hc.top_center, hl]
    simp only [Outcome.val_bind, Line.projection]
    rw [← radialVec_eq, ← hrv, hb, Outcome.val_bind, ht]
    rfl
  have htu : Spec.IsUnit t.normal := by rw [htn]; exact hu
  refine ⟨_, hval, ?_, ?_⟩
  · rw [he, isPlaneAngle_smul hs.ne', ← htn]
    exact planeAngle_isPlaneAngle hn htu
  · unfold planeAngle
    rw [← radialVec_len, ← hrv, he, V3.dot_smul, V3.len_smul, unit_len hu, mul_one, abs_mul,
      mul_div_cancel_left₀ _ (abs_pos.2 hs.ne').ne', htn]

/-- Every vector is the sum of its components along the axes. -/
theorem frame_components {e : Elliptical} (h : ValidElliptical e) (z : V3) :
    z = z.dot e.major • e.major + z.dot e.minor • e.minor + z.dot e.normal • e.normal := by
  obtain ⟨d1, d2, d3, d4, d5, d6⟩ := h.dots
  have e0 : e.center + (z - z.dot e.normal • e.normal) - e.center = z - z.dot e.normal • e.normal := by
    module
  have hx := expand_frame h (e.center + (z - z.dot e.normal • e.normal)) (by
    rw [e0, V3.sub_dot, V3.smul_dot, d3]; ring)
  rw [e0, V3.sub_dot, V3.smul_dot, V3.sub_dot, V3.smul_dot, V3.dot_comm e.normal e.major,
    V3.dot_comm e.normal e.minor, d5, d6, mul_zero, sub_zero, sub_zero] at hx
  have e1 : Spec.localPoint e.center e.major e.minor (z.dot e.major) (z.dot e.minor)
      = e.center + (z.dot e.major • e.major + z.dot e.minor • e.minor) := by
    ext <;> simp [Spec.localPoint] <;> ring
  rw [e1] at hx
  have := add_left_cancel hx
  rw [← this]; module

/-- An ellipse on a cylinder: its centre is on the axis, one of its axes is orthogonal to that of the
cylinder. -/
theorem ellipse_on_cylinder {e : Elliptical} (he : ValidElliptical e) {q d : V3} {r : ℝ}
    (hd : Spec.IsUnit d)
    (hon : ∀ p, Spec.OnEllipse e.center e.major e.minor e.majLen e.minLen p → Spec.radial q d p = r) :
    (∀ x y, Spec.radialVec q d (Spec.localPoint e.center e.major e.minor x y)
      = x • (e.major - e.major.dot d • d) + y • (e.minor - e.minor.dot d • d)) ∧
    e.major.dot d * e.minor.dot d = 0 := by
  obtain ⟨d1, d2, d3, d4, d5, d6⟩ := he.dots
  have hdd : d.dot d = 1 := (Spec.isUnit_iff _).1 hd
  set u := e.major with hu
  set v := e.minor with hv
  set a := e.majLen with ha
  set b := e.minLen with hb
  have ha0 : 0 < a := he.maj_pos
  have hb0 : 0 < b := he.min_pos
  set w := e.center - q - d.dot (e.center - q) • d with hw
  set U := u - u.dot d • d with hU
  set V := v - v.dot d • d with hV
  have exp : ∀ x y, Spec.radialVec q d (Spec.localPoint e.center u v x y) = w + x • U + y • V := by
    intro x y
    rw [radialVec_eq]
    have e1 : Spec.localPoint e.center u v x y = e.center + x • u + y • v := by
      ext <;> simp [Spec.localPoint]
    rw [e1, show e.center + x • u + y • v - q = (e.center - q) + x • u + y • v by module,
      V3.dot_add, V3.dot_add, V3.dot_smul, V3.dot_smul, hw, hU, hV, V3.dot_comm d u, V3.dot_comm d v]
    module
  -- squared lengths
  have hwd : w.dot d = 0 := by
    rw [hw, V3.sub_dot, V3.smul_dot, hdd, V3.dot_comm _ d]; ring
  have hUU : U.dot U = 1 - u.dot d ^ 2 := by
    rw [hU, V3.sub_dot, V3.dot_sub, V3.dot_sub, V3.smul_dot, V3.smul_dot, V3.dot_smul, V3.dot_smul,
      hdd, d1, V3.dot_comm d u]; ring
  have hVV : V.dot V = 1 - v.dot d ^ 2 := by
    rw [hV, V3.sub_dot, V3.dot_sub, V3.dot_sub, V3.smul_dot, V3.smul_dot, V3.dot_smul, V3.dot_smul,
      hdd, d2, V3.dot_comm d v]; ring
  have hUV : U.dot V = - (u.dot d * v.dot d) := by
    rw [hU, hV, V3.sub_dot, V3.dot_sub, V3.dot_sub, V3.smul_dot, V3.smul_dot, V3.dot_smul, V3.dot_smul,
      hdd, d4, V3.dot_comm d v]; ring
  have hwU : w.dot U = w.dot u := by rw [hU, V3.dot_sub, V3.dot_smul, hwd]; ring
  have hwV : w.dot V = w.dot v := by rw [hV, V3.dot_sub, V3.dot_smul, hwd]; ring
  have key : ∀ X Y : ℝ, X ^ 2 + Y ^ 2 = 1 →
      w.dot w + (X * a) ^ 2 * U.dot U + (Y * b) ^ 2 * V.dot V + 2 * (X * a) * w.dot U
        + 2 * (Y * b) * w.dot V + 2 * (X * a) * (Y * b) * U.dot V = r ^ 2 := by
    intro X Y hXY
    have := hon _ ⟨X * a, Y * b, by
      rw [mul_div_cancel_right₀ _ ha0.ne', mul_div_cancel_right₀ _ hb0.ne']; exact hXY, rfl⟩
    rw [← this, ← radialVec_len, exp, V3.len_sq, V3.sqLen_add, V3.sqLen_add, V3.sqLen_smul,
      V3.sqLen_smul, V3.add_dot, V3.smul_dot, V3.dot_smul, V3.dot_smul, V3.dot_smul]
    simp only [V3.sqLen_eq_dot]
    ring
  have k1 := key 1 0 (by norm_num)
  have k2 := key (-1) 0 (by norm_num)
  have k3 := key 0 1 (by norm_num)
  have k4 := key 0 (-1) (by norm_num)
  have k5 := key (3 / 5) (4 / 5) (by norm_num)
  have k6 := key (3 / 5) (-(4 / 5)) (by norm_num)
  have hwU0 : w.dot U = 0 := by
    have : a * w.dot U = 0 := by linarith
    rcases mul_eq_zero.1 this with h | h
    · exact absurd h ha0.ne'
    · exact h
  have hwV0 : w.dot V = 0 := by
    have : b * w.dot V = 0 := by linarith
    rcases mul_eq_zero.1 this with h | h
    · exact absurd h hb0.ne'
    · exact h
  rw [hwU0, hwV0] at k5 k6
  have hUV0 : U.dot V = 0 := by
    have : a * b * U.dot V = 0 := by linarith
    rcases mul_eq_zero.1 this with h | h
    · exact absurd h (mul_pos ha0 hb0).ne'
    · exact h
  rw [hUV] at hUV0
  have hprod : u.dot d * v.dot d = 0 := by linarith
  refine ⟨?_, hprod⟩
  have hw0 : w = 0 := by
    have hu0 : w.dot u = 0 := by rw [← hwU]; exact hwU0
    have hv0 : w.dot v = 0 := by rw [← hwV]; exact hwV0
    have hwn := frame_components he w
    rw [hu0, hv0, zero_smul, zero_smul, zero_add, zero_add] at hwn
    have hk : w.dot e.normal * e.normal.dot d = 0 := by
      rw [← V3.smul_dot, ← hwn]; exact hwd
    rcases mul_eq_zero.1 hk with hk | hk
    · rw [hwn, hk, zero_smul]
    · exfalso
      have hsum : u.dot d ^ 2 + v.dot d ^ 2 = 1 := by
        have h1 := frame_components he d
        rw [V3.dot_comm d e.normal, hk, zero_smul, add_zero] at h1
        have h2 : d.dot d = d.dot u * u.dot d + d.dot v * v.dot d := by
          rw [← V3.smul_dot, ← V3.smul_dot, ← V3.add_dot, ← h1]
        rw [hdd, V3.dot_comm d u, V3.dot_comm d v] at h2
        linarith
      rw [hwU0] at k1
      rw [hwV0] at k3
      rw [hUU, hVV] at k1 k3
      rcases mul_eq_zero.1 hprod with h | h
      · rw [h] at k1 hsum
        have h1 : v.dot d ^ 2 = 1 := by linarith
        rw [h1] at k3
        have h2 : a * a = 0 := by linarith
        exact absurd h2 (mul_pos ha0 ha0).ne'
      · rw [h] at k3 hsum
        have h1 : u.dot d ^ 2 = 1 := by linarith
        rw [h1] at k1
        have h2 : b * b = 0 := by linarith
        exact absurd h2 (mul_pos hb0 hb0).ne'
  intro x y
  rw [exp, hw0, zero_add]

/-- Between a plane and a cylinder surface which intersect in a full ellipse, the reported angle is
the smallest angle between the plane and the tangent planes along the ellipse, in either order of the
arguments. -/
theorem C53_ellipse_minimum (curves : ℕ → CurveGeom) (pl : Plane) (c : CylinderSurface) (e : Elliptical)
    (hn : Spec.IsUnit pl.normal) (hc : ValidSurface c) (he : ValidElliptical e)
    (hon : ∀ p, Spec.OnEllipse e.center e.major e.minor e.majLen e.minLen p →
      Spec.OnPlane pl.supp pl.normal p ∧
      Spec.OnInfCylinder c.bottom.center c.bottom.normal c.radius p) :
    ∃ θ, intersectionAngle curves (.planar pl) (.cylSurface c) (.single (.ellipse e)) = .val θ ∧
      intersectionAngle curves (.cylSurface c) (.planar pl) (.single (.ellipse e)) = .val θ ∧
      (∃ p, Spec.OnEllipse e.center e.major e.minor e.majLen e.minLen p ∧
        Spec.IsPlaneAngle pl.normal (Spec.radialVec c.bottom.center c.bottom.normal p) θ) ∧
      (∀ p φ, Spec.OnEllipse e.center e.major e.minor e.majLen e.minLen p →
        Spec.IsPlaneAngle pl.normal (Spec.radialVec c.bottom.center c.bottom.normal p) φ → θ ≤ φ) := by
  have hr : 0 < c.radius := hc.bottom.maj_pos
  set q := c.bottom.center with hq
  set d := c.bottom.normal with hd
  set n := pl.normal with hnn
  have hrad : ∀ p, Spec.OnEllipse e.center e.major e.minor e.majLen e.minLen p →
      Spec.radial q d p = c.radius := fun p hp => (hon p hp).2
  obtain ⟨hrv, hprod⟩ := ellipse_on_cylinder he hc.axis hrad
  -- angle at a point of the ellipse
  have hval : ∀ p, Spec.OnEllipse e.center e.major e.minor e.majLen e.minLen p →
      cylinderAngleAt pl c p = .val (Real.arccos (|n.dot (Spec.radialVec q d p)| / c.radius)) ∧
      Spec.IsPlaneAngle n (Spec.radialVec q d p)
        (Real.arccos (|n.dot (Spec.radialVec q d p)| / c.radius)) := by
    intro p hp
    obtain ⟨θ, h1, h2, h3⟩ := cylinderAngleAt_val hn hc (p := p) (by rw [hrad p hp]; exact hr)
    rw [hrad p hp] at h3
    rw [← h3]
    exact ⟨h1, h2⟩
  obtain ⟨m, hm, h1, h2, h3⟩ := minFold_val
    (fun t => cylinderAngleAt pl c (Ellipse.getPoint e t))
    (fun t => Real.arccos (|n.dot (Spec.radialVec q d (Ellipse.getPoint e t))| / c.radius))
    nineParams (fun t _ => (hval _ (C09_ellipse_points_on_curve e he t).2).1) doubleMax
  have hsmall : ∀ x : ℝ, Real.arccos (|x| / c.radius) ≤ 2 := by
    intro x
    have := Real.arccos_le_pi_div_two.2 (div_nonneg (abs_nonneg x) hr.le)
    have := Real.pi_le_four
    linarith
  have hat : ∃ t ∈ nineParams,
      m = Real.arccos (|n.dot (Spec.radialVec q d (Ellipse.getPoint e t))| / c.radius) := by
    rcases h3 with h3 | h3
    · refine ⟨0, by simp [nineParams], ?_⟩
      have := h2 0 (by simp [nineParams])
      have := hsmall (n.dot (Spec.radialVec q d (Ellipse.getPoint e 0)))
      have := doubleMax_large
      linarith
    · exact h3
  refine ⟨m, hm, hm, ?_, ?_⟩
  · obtain ⟨t, _, ht⟩ := hat
    refine ⟨_, (C09_ellipse_points_on_curve e he t).2, ?_⟩
    rw [ht]
    exact (hval _ (C09_ellipse_points_on_curve e he t).2).2
  -- the normal is orthogonal to the axes of the ellipse
  have hpl : ∀ X Y : ℝ, X ^ 2 + Y ^ 2 = 1 →
      n.dot (e.center - pl.supp) + X * e.majLen * n.dot e.major + Y * e.minLen * n.dot e.minor = 0 := by
    intro X Y hXY
    have := (hon _ ⟨X * e.majLen, Y * e.minLen, by
      rw [mul_div_cancel_right₀ _ he.maj_pos.ne', mul_div_cancel_right₀ _ he.min_pos.ne']; exact hXY,
      rfl⟩).1
    rw [Spec.onPlane_iff] at this
    rw [← this, show Spec.localPoint e.center e.major e.minor (X * e.majLen) (Y * e.minLen) - pl.supp
        = (e.center - pl.supp) + (X * e.majLen) • e.major + (Y * e.minLen) • e.minor by
          ext <;> simp [Spec.localPoint] <;> ring,
      V3.dot_add, V3.dot_add, V3.dot_smul, V3.dot_smul]
  have hnu : n.dot e.major = 0 := by
    have k1 := hpl 1 0 (by norm_num)
    have k2 := hpl (-1) 0 (by norm_num)
    have : e.majLen * n.dot e.major = 0 := by linarith
    rcases mul_eq_zero.1 this with h | h
    · exact absurd h he.maj_pos.ne'
    · exact h
  have hnv : n.dot e.minor = 0 := by
    have k1 := hpl 0 1 (by norm_num)
    have k2 := hpl 0 (-1) (by norm_num)
    have : e.minLen * n.dot e.minor = 0 := by linarith
    rcases mul_eq_zero.1 this with h | h
    · exact absurd h he.min_pos.ne'
    · exact h
  have hnr : ∀ x y, n.dot (Spec.radialVec q d (Spec.localPoint e.center e.major e.minor x y))
      = -(x * e.major.dot d + y * e.minor.dot d) * n.dot d := by
    intro x y
    rw [hrv, V3.dot_add, V3.dot_smul, V3.dot_smul, V3.dot_sub, V3.dot_sub, V3.dot_smul, V3.dot_smul,
      hnu, hnv]
    ring
  rintro p φ hp hφ
  have hφ' : φ = Real.arccos (|n.dot (Spec.radialVec q d p)| / c.radius) := by
    have := (hval p hp).2
    unfold Spec.IsPlaneAngle at this hφ
    rw [this, hφ]
  obtain ⟨x, y, hxy, rfl⟩ := hp
  have hx : |x| ≤ e.majLen := by
    have : (x / e.majLen) ^ 2 ≤ 1 := by nlinarith [sq_nonneg (y / e.minLen)]
    have := (sq_le_one_iff_abs_le_one _).1 this
    rw [abs_div, abs_of_pos he.maj_pos, div_le_one he.maj_pos] at this
    exact this
  have hy : |y| ≤ e.minLen := by
    have : (y / e.minLen) ^ 2 ≤ 1 := by nlinarith [sq_nonneg (x / e.majLen)]
    have := (sq_le_one_iff_abs_le_one _).1 this
    rw [abs_div, abs_of_pos he.min_pos, div_le_one he.min_pos] at this
    exact this
  have hdiv : ∀ z w : ℝ, |z| ≤ |w| → Real.arccos (|w| / c.radius) ≤ Real.arccos (|z| / c.radius) := by
    intro z w hzw
    exact Real.arccos_le_arccos (div_le_div_of_nonneg_right hzw hr.le)
  rw [hφ']
  rcases mul_eq_zero.1 hprod with h0 | h0
  · -- the minor axis carries the extremum
    have hp0 : Ellipse.getPoint e 0.25 = Spec.localPoint e.center e.major e.minor 0 e.minLen := by
      unfold Ellipse.getPoint
      rw [show 2 * Real.pi * 0.25 = Real.pi / 2 by ring, point_eq_local, Real.cos_pi_div_two,
        Real.sin_pi_div_two, zero_mul, one_mul]
    refine le_trans (h2 0.25 (by simp [nineParams])) ?_
    simp only [hp0]
    apply hdiv
    rw [hnr, hnr, h0]
    rw [mul_zero, mul_zero, zero_add, zero_add, abs_mul, abs_mul, abs_neg, abs_neg, abs_mul, abs_mul,
      abs_of_pos he.min_pos]
    exact mul_le_mul_of_nonneg_right (mul_le_mul_of_nonneg_right hy (abs_nonneg _)) (abs_nonneg _)
  · have hp0 : Ellipse.getPoint e 0 = Spec.localPoint e.center e.major e.minor e.majLen 0 := by
      unfold Ellipse.getPoint
      rw [mul_zero, point_eq_local, Real.cos_zero, Real.sin_zero, zero_mul, one_mul]
    refine le_trans (h2 0 (by simp [nineParams])) ?_
    simp only [hp0]
    apply hdiv
    rw [hnr, hnr, h0]
    rw [mul_zero, mul_zero, add_zero, add_zero, abs_mul, abs_mul, abs_neg, abs_neg, abs_mul, abs_mul,
      abs_of_pos he.maj_pos]
    exact mul_le_mul_of_nonneg_right (mul_le_mul_of_nonneg_right hx (abs_nonneg _)) (abs_nonneg _)

/-- A plane inclined by 45 degrees and the cylinder of radius one around the third axis. -/
noncomputable def inclinedPlane : Plane :=
  ⟨⟨0, 0, 0⟩, ⟨Real.sqrt 2 / 2, 0, Real.sqrt 2 / 2⟩, ⟨0, 1, 0⟩,
    ⟨-(Real.sqrt 2 / 2), 0, Real.sqrt 2 / 2⟩⟩

noncomputable def inclinedEllipse : Elliptical :=
  ⟨⟨0, 0, 0⟩, ⟨Real.sqrt 2 / 2, 0, Real.sqrt 2 / 2⟩, ⟨0, 1, 0⟩,
    ⟨-(Real.sqrt 2 / 2), 0, Real.sqrt 2 / 2⟩, Real.sqrt 2, 1⟩

theorem inclined_frame : Spec.RightHandedOrthonormal ⟨Real.sqrt 2 / 2, 0, Real.sqrt 2 / 2⟩ ⟨0, 1, 0⟩
    ⟨-(Real.sqrt 2 / 2), 0, Real.sqrt 2 / 2⟩ := by
  have h2 : Real.sqrt 2 * Real.sqrt 2 = 2 := Real.mul_self_sqrt (by norm_num)
  refine ⟨?_, ?_, ?_, ?_, ?_, ?_, ?_⟩ <;>
    simp only [Spec.IsUnit, Spec.Orthogonal, Spec.inner, Spec.det] <;> nlinarith

example : ∃ θ, intersectionAngle (fun _ => ⟨0, 1, fun _ => 0⟩) (.planar inclinedPlane)
    (.cylSurface ⟨1, ⟨⟨0, 0, 1⟩, ⟨1, 0, 0⟩, ⟨0, 1, 0⟩, ⟨0, 0, 1⟩, 1, 1⟩, unitCircle⟩)
    (.single (.ellipse inclinedEllipse)) = .val θ := by
  have h2 : Real.sqrt 2 * Real.sqrt 2 = 2 := Real.mul_self_sqrt (by norm_num)
  have h0 : Real.sqrt 2 ≠ 0 := by positivity
  obtain ⟨θ, h, _⟩ := C53_ellipse_minimum (fun _ => ⟨0, 1, fun _ => 0⟩) inclinedPlane
    ⟨1, ⟨⟨0, 0, 1⟩, ⟨1, 0, 0⟩, ⟨0, 1, 0⟩, ⟨0, 0, 1⟩, 1, 1⟩, unitCircle⟩ inclinedEllipse
    inclined_frame.2.2.1
    ⟨unitCircle_valid, by ext <;> norm_num [unitCircle], one_pos⟩
    ⟨inclined_frame, by simp [inclinedEllipse], by simp [inclinedEllipse]⟩ (by
      rintro p ⟨x, y, hxy, rfl⟩
      simp only [inclinedEllipse] at hxy
      rw [div_pow, div_pow, Real.sq_sqrt (by norm_num : (0 : ℝ) ≤ 2)] at hxy
      refine ⟨?_, ?_⟩
      · simp only [Spec.OnPlane, Spec.localPoint, inclinedPlane, inclinedEllipse]
        ring
      · unfold Spec.OnInfCylinder
        have : Spec.radial unitCircle.center unitCircle.normal
            (Spec.localPoint inclinedEllipse.center inclinedEllipse.major inclinedEllipse.minor x y) ^ 2
            = 1 := by
          rw [radial_sq]
          simp only [V3.sqLen, V3.dot, Spec.localPoint, inclinedEllipse, unitCircle, V3.sub_x, V3.sub_y,
            V3.sub_z, V3.add_x, V3.add_y, V3.add_z, V3.smul_x, V3.smul_y, V3.smul_z]
          nlinarith
        have h1 := radial_nonneg unitCircle.center unitCircle.normal
            (Spec.localPoint inclinedEllipse.center inclinedEllipse.major inclinedEllipse.minor x y)
        show _ = (1 : ℝ)
        nlinarith)
  exact ⟨θ, h⟩

/-- Two touching segments in a list of intersections: all angles are the one between the planes. -/
example (p1 p2 : Plane) (h1 : Spec.IsUnit p1.normal) (h2 : Spec.IsUnit p2.normal) (s t : Segment) :
    ∃ m, intersectionAngle (fun _ => ⟨0, 1, fun _ => 0⟩) (.planar p1) (.planar p2)
      (.list [.segment s, .segment t]) = .val m ∧ m = planeAngle p1 p2 := by
  obtain ⟨m, hm, _, g, _, hg⟩ := C53_list_minimum (fun _ => ⟨0, 1, fun _ => 0⟩) (.planar p1) (.planar p2)
    [.segment s, .segment t] (fun _ => planeAngle p1 p2) (by simp) (by
      intro g hg
      simp only [List.mem_cons, List.not_mem_nil, or_false] at hg
      rcases hg with rfl | rfl <;> exact ⟨rfl, (C53_plane_angle p1 p2 h1 h2).2.2.1⟩)
  exact ⟨m, hm, hg⟩

/-- Planar geometries meeting in a point or a segment: the angle between their planes, whatever the
order of the arguments. -/
theorem C53_planar_geometries (curves : ℕ → CurveGeom) (p1 p2 : Plane) (g : IsGeom)
    (h1 : Spec.IsUnit p1.normal) (h2 : Spec.IsUnit p2.normal)
    (hg : (∃ p, g = .point p) ∨ ∃ s, g = .segment s) :
    ∃ θ, intersectionAngle curves (.planar p1) (.planar p2) (.single g) = .val θ ∧
      intersectionAngle curves (.planar p2) (.planar p1) (.single g) = .val θ ∧
      Spec.IsPlaneAngle p1.normal p2.normal θ := by
  have hs : planeAngle p2 p1 = planeAngle p1 p2 := (C53_plane_angle p1 p2 h1 h2).2.2.2.1
  rcases hg with ⟨p, rfl⟩ | ⟨s, rfl⟩
  · exact ⟨_, rfl, congrArg Outcome.val hs, planeAngle_isPlaneAngle h1 h2⟩
  · exact ⟨_, rfl, congrArg Outcome.val hs, planeAngle_isPlaneAngle h1 h2⟩

/-- Plane and cylinder surface in a point of the surface: the angle between the plane and the tangent
plane of the surface in the point. -/
theorem C53_cylinder_point (curves : ℕ → CurveGeom) (pl : Plane) (c : CylinderSurface) (p : V3)
    (hn : Spec.IsUnit pl.normal) (hc : ValidSurface c)
    (hp : Spec.OnInfCylinder c.bottom.center c.bottom.normal c.radius p) :
    ∃ θ, intersectionAngle curves (.planar pl) (.cylSurface c) (.single (.point p)) = .val θ ∧
      intersectionAngle curves (.cylSurface c) (.planar pl) (.single (.point p)) = .val θ ∧
      Spec.IsPlaneAngle pl.normal (Spec.radialVec c.bottom.center c.bottom.normal p) θ := by
  obtain ⟨θ, h1, h2, _⟩ := cylinderAngleAt_val hn hc (p := p) (by
    rw [hp]; exact hc.bottom.maj_pos)
  exact ⟨θ, h1, h1, h2⟩

theorem radialVec_along_axis {d : V3} (hd : Spec.IsUnit d) (c p : V3) (t : ℝ) :
    Spec.radialVec c d (p + t • d) = Spec.radialVec c d p := by
  have hdd : d.dot d = 1 := (Spec.isUnit_iff _).1 hd
  rw [radialVec_eq, radialVec_eq, show p + t • d - c = (p - c) + t • d by module, V3.dot_add,
    V3.dot_smul, hdd]
  module

/-- A segment on the cylinder surface along its axis: the angle is the same in all of its points and
is the one reported. -/
theorem C53_cylinder_segment (curves : ℕ → CurveGeom) (pl : Plane) (c : CylinderSurface) (s : Segment)
    (hn : Spec.IsUnit pl.normal) (hc : ValidSurface c)
    (hp : Spec.OnInfCylinder c.bottom.center c.bottom.normal c.radius s.source)
    (hdir : Spec.OnLine s.source c.bottom.normal s.target) :
    ∃ θ, intersectionAngle curves (.planar pl) (.cylSurface c) (.single (.segment s)) = .val θ ∧
      intersectionAngle curves (.cylSurface c) (.planar pl) (.single (.segment s)) = .val θ ∧
      ∀ p, Spec.OnSegment s.source s.target p →
        Spec.IsPlaneAngle pl.normal (Spec.radialVec c.bottom.center c.bottom.normal p) θ := by
  obtain ⟨θ, h1, h2, _⟩ := cylinderAngleAt_val hn hc (p := s.source) (by
    rw [hp]; exact hc.bottom.maj_pos)
  refine ⟨θ, h1, h1, ?_⟩
  intro p hps
  obtain ⟨t, _, _, rfl⟩ := (Spec.onSegment_iff _ _ _).1 hps
  obtain ⟨k, hk⟩ := (Spec.onLine_iff _ _ _).1 hdir
  rw [hk, show s.source + t • (s.source + k • c.bottom.normal - s.source)
    = s.source + (t * k) • c.bottom.normal by module, radialVec_along_axis hc.axis]
  exact h2

/-- An arc on the cylinder surface: the reported angle occurs in a point of the arc (its end points
and three points between them are examined), so that it is not smaller than the smallest one. -/
theorem C53_cylinder_arc (curves : ℕ → CurveGeom) (pl : Plane) (c : CylinderSurface) (a : EllipseArc)
    (hn : Spec.IsUnit pl.normal) (hc : ValidSurface c)
    (hon : ∀ t, Spec.OnInfCylinder c.bottom.center c.bottom.normal c.radius (a.getPoint t)) :
    ∃ θ, intersectionAngle curves (.planar pl) (.cylSurface c) (.single (.arc a)) = .val θ ∧
      intersectionAngle curves (.cylSurface c) (.planar pl) (.single (.arc a)) = .val θ ∧
      (∃ t, 0 ≤ t ∧ t ≤ 1 ∧
        Spec.IsPlaneAngle pl.normal (Spec.radialVec c.bottom.center c.bottom.normal (a.getPoint t)) θ) ∧
      (∀ t φ, t = 0 ∨ t = 1 / 4 ∨ t = 1 / 2 ∨ t = 3 / 4 ∨ t = 1 →
        Spec.IsPlaneAngle pl.normal (Spec.radialVec c.bottom.center c.bottom.normal (a.getPoint t)) φ →
        θ ≤ φ) := by
  have hr : 0 < c.radius := hc.bottom.maj_pos
  have hval := fun t => cylinderAngleAt_val hn hc (p := a.getPoint t) (by rw [hon t]; exact hr)
  choose g hg1 hg2 hg3 using hval
  have hg : ∀ t, g t ≤ 2 := by
    intro t
    rw [hg3]
    have := Real.arccos_le_pi_div_two.2 (div_nonneg (abs_nonneg
      (pl.normal.dot (Spec.radialVec c.bottom.center c.bottom.normal (a.getPoint t))))
      (radial_nonneg c.bottom.center c.bottom.normal (a.getPoint t)))
    have := Real.pi_le_four
    linarith
  obtain ⟨m, hm, h1, h2, h3⟩ := minFold_val (fun t => cylinderAngleAt pl c (a.getPoint t)) g
    fiveParams (fun t _ => hg1 t) doubleMax
  have hat : ∃ t ∈ fiveParams, m = g t := by
    rcases h3 with h3 | h3
    · refine ⟨0, by simp [fiveParams], ?_⟩
      have := h2 0 (by simp [fiveParams])
      have := hg 0
      have := doubleMax_large
      linarith
    · exact h3
  refine ⟨m, hm, hm, ?_, ?_⟩
  · obtain ⟨t, ht, rfl⟩ := hat
    refine ⟨t, ?_, ?_, hg2 t⟩ <;>
      simp only [fiveParams, List.mem_cons, List.not_mem_nil, or_false] at ht <;>
      rcases ht with rfl | rfl | rfl | rfl | rfl <;> norm_num
  · intro t φ ht hφ
    have e : φ = g t := by
      have := hg2 t
      unfold Spec.IsPlaneAngle at this hφ
      rw [hφ, this]
    rw [e]
    apply h2
    simp only [fiveParams, List.mem_cons, List.not_mem_nil, or_false]
    rcases ht with rfl | rfl | rfl | rfl | rfl <;> norm_num

/-- Unsupported combinations throw: empty intersections, and polygons between planar geometries. -/
theorem C53_unsupported (curves : ℕ → CurveGeom) (geo1 geo2 : AngleGeo) :
    (intersectionAngle curves geo1 geo2 (.single .empty)).isThrown ∧
    (∀ p1 p2 pg, (intersectionAngle curves (.planar p1) (.planar p2) (.single (.polygon pg))).isThrown) := by
  constructor
  · cases geo1 <;> cases geo2 <;>
      simp [intersectionAngle, angleGeom, planarCylinderAngle, planarFaceAngle]
  · intro p1 p2 pg
    simp [intersectionAngle, angleGeom]

/-- Geometries that overlap in a face enclose the angle zero, whatever the order of the arguments. -/
theorem C53_overlap (curves : ℕ → CurveGeom) (s : SurfaceGeom) (geo : AngleGeo) (k : ℕ) :
    intersectionAngle curves (.face s) geo (.single (.face k)) = .val 0 ∧
    intersectionAngle curves geo (.face s) (.single (.face k)) = .val 0 := by
  cases geo <;> exact ⟨rfl, rfl⟩

example (pl : Plane) (s : SurfaceGeom) :
    intersectionAngle (fun _ => ⟨0, 1, fun _ => 0⟩) (.planar pl) (.face s) (.single (.face 0)) = .val 0 :=
  (C53_overlap _ s _ 0).2

/-! ## C58 Tangent planes of faces -/

/-- A parametrised surface for which the orthogonal projection of a point of the surface has that
point's parameters and distance zero; `S` is the parametrisation, used for
parameters in `D`, and `d1` gives its partial derivatives. -/
structure ExactSurface (s : SurfaceGeom) (D : Set (ℝ × ℝ)) (S normal : ℝ → ℝ → V3) : Prop where
  params : ∀ u v, (u, v) ∈ D → s.params (S u v) = (u, v)
  distance : ∀ u v, (u, v) ∈ D → s.lowerDistance (S u v) = 0
  deriv_u : ∀ u v, HasDerivAt (fun t => (S t v).x) (s.d1 u v).1.x u ∧
    HasDerivAt (fun t => (S t v).y) (s.d1 u v).1.y u ∧ HasDerivAt (fun t => (S t v).z) (s.d1 u v).1.z u
  deriv_v : ∀ u v, HasDerivAt (fun t => (S u t).x) (s.d1 u v).2.x v ∧
    HasDerivAt (fun t => (S u t).y) (s.d1 u v).2.y v ∧ HasDerivAt (fun t => (S u t).z) (s.d1 u v).2.z v
  normal_eq : ∀ u v, normal u v = (s.d1 u v).1.cross (s.d1 u v).2
  regular : ∀ u v, normal u v ≠ 0

theorem surfacePlaneAt_val {s : SurfaceGeom} {D : Set (ℝ × ℝ)} {S normal : ℝ → ℝ → V3}
    (h : ExactSurface s D S normal)
    (p : V3) (u v : ℝ) : ∃ (t : Plane) (k : ℝ), surfacePlaneAt s p u v = .val t ∧
      Spec.IsUnit t.normal ∧ 0 < k ∧
      normal u v = k • t.normal := by
  obtain ⟨b, k, hb, hu, hk, he⟩ := exists_direction (h.regular u v)
  obtain ⟨t, ht, _, htn, _⟩ := C03_plane_from_normal p b hu
  refine ⟨t, k, ?_, ?_, hk, ?_⟩
  · unfold surfacePlaneAt
    simp only
    rw [← h.normal_eq, hb, Outcome.val_bind, ht]
  · rw [htn]; exact hu
  · rw [htn]; exact he

/-- The claim for planar geometries and faces: the angle in a common point is the angle with the
tangent plane in that point. -/
def C58_full : Prop := ∀ (curves : ℕ → CurveGeom) (pl : Plane) (s : SurfaceGeom)
  (D : Set (ℝ × ℝ)) (S normal : ℝ → ℝ → V3) (u v : ℝ), Spec.IsUnit pl.normal →
  ExactSurface s D S normal → (u, v) ∈ D →
  ∃ θ, intersectionAngle curves (.planar pl) (.face s) (.single (.point (S u v))) = .val θ ∧
    Spec.IsPlaneAngle pl.normal (normal u v) θ

/-- What the code computes: the first parameter is replaced by the distance of the point to the
surface, that is by zero for points of the surface. -/
theorem C58_wrong_parameter_partial (curves : ℕ → CurveGeom) (pl : Plane) (s : SurfaceGeom)
    (D : Set (ℝ × ℝ)) (S normal : ℝ → ℝ → V3) (u v : ℝ) (hn : Spec.IsUnit pl.normal)
    (hs : ExactSurface s D S normal) (huv : (u, v) ∈ D) :
    ∃ θ, intersectionAngle curves (.planar pl) (.face s) (.single (.point (S u v))) = .val θ ∧
      intersectionAngle curves (.face s) (.planar pl) (.single (.point (S u v))) = .val θ ∧
      Spec.IsPlaneAngle pl.normal (normal 0 v) θ := by
  obtain ⟨t, k, ht, htu, hk, he⟩ := surfacePlaneAt_val hs (S u v) 0 v
  have hv : planarFaceAngleAt pl s (S u v) = .val (planeAngle pl t) := by
    unfold planarFaceAngleAt
    rw [hs.distance _ _ huv, hs.params _ _ huv]
    simp only
    rw [ht]; rfl
  refine ⟨_, hv, hv, ?_⟩
  rw [he, isPlaneAngle_smul hk.ne']
  exact planeAngle_isPlaneAngle hn htu

/-- Right for surfaces whose normal direction does not depend on the first parameter, in particular for
flat faces. -/
theorem C58_flat_partial (curves : ℕ → CurveGeom) (pl : Plane) (s : SurfaceGeom)
    (D : Set (ℝ × ℝ)) (S normal : ℝ → ℝ → V3) (u v : ℝ) (hn : Spec.IsUnit pl.normal)
    (hs : ExactSurface s D S normal) (huv : (u, v) ∈ D)
    (hflat : ∃ k : ℝ, normal 0 v = k • normal u v) :
    ∃ θ, intersectionAngle curves (.planar pl) (.face s) (.single (.point (S u v))) = .val θ ∧
      Spec.IsPlaneAngle pl.normal (normal u v) θ := by
  obtain ⟨θ, h1, _, h2⟩ := C58_wrong_parameter_partial curves pl s D S normal u v hn hs huv
  refine ⟨θ, h1, ?_⟩
  obtain ⟨k, hk⟩ := hflat
  have hk0 : k ≠ 0 := by
    rintro rfl
    rw [zero_smul] at hk
    exact hs.regular _ _ hk
  rwa [hk, isPlaneAngle_smul hk0] at h2

theorem isPlaneAngle_comm {m n : V3} {θ : ℝ} : Spec.IsPlaneAngle m n θ ↔ Spec.IsPlaneAngle n m θ := by
  unfold Spec.IsPlaneAngle Spec.vecAngle
  rw [Spec.inner_eq_dot, Spec.inner_eq_dot, V3.dot_comm, mul_comm]

/-- Two faces: the angle between their tangent planes in the common point. -/
theorem C58_two_faces_partial (curves : ℕ → CurveGeom) (s1 s2 : SurfaceGeom)
    (D1 D2 : Set (ℝ × ℝ)) (S1 S2 normal1 normal2 : ℝ → ℝ → V3) (u1 v1 u2 v2 : ℝ)
    (h1 : ExactSurface s1 D1 S1 normal1) (h2 : ExactSurface s2 D2 S2 normal2)
    (hd1 : (u1, v1) ∈ D1) (hd2 : (u2, v2) ∈ D2) (hp : S1 u1 v1 = S2 u2 v2) :
    ∃ θ, intersectionAngle curves (.face s1) (.face s2) (.single (.point (S1 u1 v1))) = .val θ ∧
      Spec.IsPlaneAngle (normal1 u1 v1) (normal2 u2 v2) θ := by
  obtain ⟨t1, k1, ht1, hu1, hk1, he1⟩ := surfacePlaneAt_val h1 (S1 u1 v1) u1 v1
  obtain ⟨t2, k2, ht2, hu2, hk2, he2⟩ := surfacePlaneAt_val h2 (S1 u1 v1) u2 v2
  have e2 : s2.params (S1 u1 v1) = (u2, v2) := by rw [hp, h2.params _ _ hd2]
  refine ⟨planeAngle t1 t2, ?_, ?_⟩
  · show faceFaceAngleAt s1 s2 (S1 u1 v1) = _
    unfold faceFaceAngleAt
    rw [h1.params _ _ hd1, e2]
    simp only
    rw [ht1, ht2]; rfl
  · rw [he1, he2, isPlaneAngle_smul hk2.ne', isPlaneAngle_comm, isPlaneAngle_smul hk1.ne',
      isPlaneAngle_comm]
    exact planeAngle_isPlaneAngle hu1 hu2

/-- Two faces, or a planar geometry and a face, that intersect in an edge: the angle is that in one of the
points of the edge, and not larger than those at both ends, in the middle and in the quarter points. -/
theorem C53_edge_samples (curves : ℕ → CurveGeom) (geo1 geo2 : AngleGeo) (k : ℕ) (a b : V3) (φ : ℝ → ℝ)
    (hgeo : (∃ s1 s2, geo1 = .face s1 ∧ geo2 = .face s2) ∨ (∃ pl s, geo1 = .planar pl ∧ geo2 = .face s) ∨
      ∃ pl s, geo1 = .face s ∧ geo2 = .planar pl)
    (hl : (curves k).first ≤ (curves k).last)
    (h : ∀ t, (curves k).first ≤ t → t ≤ (curves k).last →
      intersectionAngle curves geo1 geo2 (.single (.point ((curves k).value t))) = .val (φ t)) :
    ∃ θ, intersectionAngle curves geo1 geo2 (.single (.edge k a b)) = .val θ ∧
      (∃ t, (curves k).first ≤ t ∧ t ≤ (curves k).last ∧ θ = φ t) ∧
      θ ≤ φ (curves k).first ∧ θ ≤ φ (curves k).last ∧
      θ ≤ φ (((curves k).first + (curves k).last) / 2) ∧
      θ ≤ φ ((3 * (curves k).first + (curves k).last) / 4) ∧
      θ ≤ φ (((curves k).first + 3 * (curves k).last) / 4) := by
  obtain ⟨angleAt, hp, he⟩ : ∃ angleAt : V3 → Outcome ℝ,
      (∀ p, intersectionAngle curves geo1 geo2 (.single (.point p)) = angleAt p ∧
        ∀ x, angleAt p = .val x → x ≤ Real.pi / 2) ∧
      intersectionAngle curves geo1 geo2 (.single (.edge k a b)) = kernelEdgeAngle angleAt (curves k) := by
    have hle : ∀ p q, planeAngle p q ≤ Real.pi / 2 :=
      fun p q => Real.arccos_le_pi_div_two.2 (abs_nonneg _)
    have hpf : ∀ pl s p x, planarFaceAngleAt pl s p = .val x → x ≤ Real.pi / 2 := by
      intro pl s p x hx
      unfold planarFaceAngleAt at hx
      obtain ⟨t, -, ht⟩ := Outcome.bind_eq_val.1 hx
      rw [← Outcome.val.inj ht]; exact hle _ _
    rcases hgeo with ⟨s1, s2, rfl, rfl⟩ | ⟨pl, s, rfl, rfl⟩ | ⟨pl, s, rfl, rfl⟩
    · refine ⟨faceFaceAngleAt s1 s2, fun p => ⟨rfl, fun x hx => ?_⟩, rfl⟩
      unfold faceFaceAngleAt at hx
      obtain ⟨t1, -, h1⟩ := Outcome.bind_eq_val.1 hx
      obtain ⟨t2, -, h2⟩ := Outcome.bind_eq_val.1 h1
      rw [← Outcome.val.inj h2]; exact hle _ _
    · exact ⟨planarFaceAngleAt pl s, fun p => ⟨rfl, hpf pl s p⟩, rfl⟩
    · exact ⟨planarFaceAngleAt pl s, fun p => ⟨rfl, hpf pl s p⟩, rfl⟩
  set c := curves k with hc
  have hin : ∀ f ∈ fiveParams, c.first ≤ c.first + f * (c.last - c.first) ∧
      c.first + f * (c.last - c.first) ≤ c.last := by
    intro f hf
    have h01 : 0 ≤ f ∧ f ≤ 1 := by
      simp only [fiveParams, List.mem_cons, List.not_mem_nil, or_false] at hf
      rcases hf with rfl | rfl | rfl | rfl | rfl <;> norm_num
    constructor <;> nlinarith [h01.1, h01.2]
  have hval : ∀ f ∈ fiveParams, angleAt (c.value (c.first + f * (c.last - c.first))) =
      .val (φ (c.first + f * (c.last - c.first))) := by
    intro f hf
    rw [← (hp _).1]; exact h _ (hin f hf).1 (hin f hf).2
  obtain ⟨m, hm, h1, h2, h3⟩ := minFold_val (fun f => angleAt (c.value (c.first + f * (c.last - c.first))))
    (fun f => φ (c.first + f * (c.last - c.first))) fiveParams hval doubleMax
  have hmem : ∀ f : ℝ, f = 0 ∨ f = 0.25 ∨ f = 0.5 ∨ f = 0.75 ∨ f = 1 → f ∈ fiveParams := by
    intro f hf; simpa [fiveParams] using hf
  refine ⟨m, by rw [he]; exact hm, ?_, ?_, ?_, ?_, ?_, ?_⟩
  · rcases h3 with h3 | ⟨f, hf, h3⟩
    · have h0 := h2 0 (hmem 0 (by norm_num))
      have hb := (hp _).2 _ (hval 0 (hmem 0 (by norm_num)))
      have := doubleMax_large
      have hpi := Real.pi_le_four
      exact ⟨c.first + 0 * (c.last - c.first), (hin 0 (hmem 0 (by norm_num))).1,
        (hin 0 (hmem 0 (by norm_num))).2, by linarith⟩
    · exact ⟨_, (hin f hf).1, (hin f hf).2, h3⟩
  · have := h2 0 (hmem 0 (by norm_num))
    rwa [show c.first + 0 * (c.last - c.first) = c.first by ring] at this
  · have := h2 1 (hmem 1 (by norm_num))
    rwa [show c.first + 1 * (c.last - c.first) = c.last by ring] at this
  · have := h2 0.5 (hmem 0.5 (by norm_num))
    rwa [show c.first + 0.5 * (c.last - c.first) = (c.first + c.last) / 2 by ring] at this
  · have := h2 0.25 (hmem 0.25 (by norm_num))
    rwa [show c.first + 0.25 * (c.last - c.first) = (3 * c.first + c.last) / 4 by ring] at this
  · have := h2 0.75 (hmem 0.75 (by norm_num))
    rwa [show c.first + 0.75 * (c.last - c.first) = (c.first + 3 * c.last) / 4 by ring] at this

/-- The parabolic sheet `z = x²`. -/
noncomputable def sheet : SurfaceGeom :=
  ⟨fun p => (p.x, p.y), fun _ => 0, fun u _ => (⟨1, 0, 2 * u⟩, ⟨0, 1, 0⟩)⟩

theorem sheet_exact : ExactSurface sheet Set.univ (fun u v => ⟨u, v, u ^ 2⟩)
    (fun u _ => ⟨-(2 * u), 0, 1⟩) where
  params u v _ := rfl
  distance u v _ := rfl
  deriv_u u v := ⟨hasDerivAt_id u, hasDerivAt_const u v, by
    have := hasDerivAt_pow 2 u
    simpa [sheet] using this⟩
  deriv_v u v := ⟨hasDerivAt_const v u, hasDerivAt_id v, hasDerivAt_const v (u ^ 2)⟩
  normal_eq u v := by ext <;> simp [sheet, V3.cross]
  regular u v := by
    intro h
    have := congrArg V3.z h
    simp at this

/-- Non-trivial instance: the parabolic sheet with itself along the parabola. -/
example : ∃ θ, intersectionAngle (fun _ => ⟨1, 2, fun t => ⟨t, 0, t ^ 2⟩⟩) (.face sheet) (.face sheet)
    (.single (.edge 0 ⟨1, 0, 1⟩ ⟨2, 0, 4⟩)) = .val θ ∧ θ ≤ Real.pi / 2 := by
  have h : ∀ t : ℝ, ∃ θ, intersectionAngle (fun _ => ⟨1, 2, fun t => ⟨t, 0, t ^ 2⟩⟩) (.face sheet) (.face sheet)
      (.single (.point ⟨t, 0, t ^ 2⟩)) = .val θ := by
    intro t
    obtain ⟨θ, h, -⟩ := C58_two_faces_partial (fun _ => ⟨1, 2, fun t => ⟨t, 0, t ^ 2⟩⟩) sheet sheet _ _ _ _ _ _
      t 0 t 0 sheet_exact sheet_exact (Set.mem_univ _) (Set.mem_univ _) rfl
    exact ⟨θ, h⟩
  choose φ hφ using h
  obtain ⟨θ, h1, ⟨t, -, -, h2⟩, -⟩ := C53_edge_samples (fun _ => ⟨1, 2, fun t => ⟨t, 0, t ^ 2⟩⟩) (.face sheet)
    (.face sheet) 0 ⟨1, 0, 1⟩ ⟨2, 0, 4⟩ φ (Or.inl ⟨_, _, rfl, rfl⟩) (by norm_num) (fun t _ _ => hφ t)
  refine ⟨θ, h1, ?_⟩
  obtain ⟨θ', h, hp⟩ := C58_two_faces_partial (fun _ => ⟨1, 2, fun t => ⟨t, 0, t ^ 2⟩⟩) sheet sheet _ _ _ _ _ _
    t 0 t 0 sheet_exact sheet_exact (Set.mem_univ _) (Set.mem_univ _) rfl
  have e : φ t = θ' := Outcome.val.inj ((hφ t).symm.trans h)
  rw [h2, e, hp]
  rcases le_total (Spec.vecAngle ⟨-(2 * t), 0, 1⟩ ⟨-(2 * t), 0, 1⟩) (Real.pi / 2) with h | h
  · exact (min_le_left _ _).trans h
  · exact (min_le_right _ _).trans (by linarith)

/-- Between the parabolic sheet and the horizontal plane the angle zero is reported in all points. -/
theorem C58_disproof : ¬ C58_full := by
  intro h
  let pl : Plane := ⟨⟨0, 0, 1⟩, ⟨1, 0, 0⟩, ⟨0, 1, 0⟩, ⟨0, 0, 1⟩⟩
  have hu : Spec.IsUnit pl.normal := by norm_num [pl, Spec.IsUnit]
  let curves : ℕ → CurveGeom := fun _ => ⟨0, 1, fun _ => 0⟩
  obtain ⟨θ, h1, h2⟩ := h curves pl sheet _ _ _ 1 0 hu sheet_exact (Set.mem_univ _)
  obtain ⟨φ, h3, _, h4⟩ := C58_wrong_parameter_partial curves pl sheet _ _ _ 1 0 hu sheet_exact
    (Set.mem_univ _)
  have e : θ = φ := by
    rw [h3] at h1
    exact (Outcome.val.inj h1).symm
  unfold Spec.IsPlaneAngle Spec.vecAngle at h2 h4
  have e1 : φ = 0 := by
    rw [h4]
    norm_num [pl, Spec.inner, Spec.norm]
    exact Real.pi_pos.le
  have e2 : θ ≠ 0 := by
    rw [h2]
    have h5 : Real.sqrt 5 > 1 := by
      rw [gt_iff_lt, Real.lt_sqrt (by norm_num)]; norm_num
    have h6 : (Real.sqrt 5)⁻¹ < 1 := inv_lt_one_of_one_lt₀ h5
    have h7 : Real.arccos (Real.sqrt 5)⁻¹ ≤ Real.pi / 2 :=
      Real.arccos_le_pi_div_two.2 (by positivity)
    have h8 := Real.arccos_pos.2 h6
    norm_num [pl, Spec.inner, Spec.norm]
    rw [min_eq_left (by linarith)]
    exact h8.ne'
  exact e2 (by rw [e, e1])

end Props
