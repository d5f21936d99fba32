import Verif.Spec.Tolerance
import Verif.Props.Solids
import Verif.Props.HollowCylinder
import Verif.Props.Quadrilateral
import Verif.Props.Polygon
import Verif.Props.Angle
import Verif.Props.Intersect

/-!
# C139 The tolerance of containment queries is a distance
-/

namespace Props
open Verif Frackit Lemmas

/-! ## Coordinates along and around an axis -/

theorem len_sub_abs_le (a b : V3) : |a.len - b.len| ≤ (a - b).len := by
  rw [abs_le]
  have h1 := V3.len_add_le (a - b) b
  have h2 := V3.len_add_le (b - a) a
  rw [show a - b + b = a by module] at h1
  rw [show b - a + a = b by module, V3.len_sub_comm b a] at h2
  constructor <;> linarith

theorem axial_lipschitz {n : V3} (hn : Spec.IsUnit n) (c p q : V3) :
    |Spec.axial c n p - Spec.axial c n q| ≤ Spec.dist p q := by
  rw [axial_eq, axial_eq, ← V3.dot_sub n (p - c) (q - c), show p - c - (q - c) = p - q by module,
    Spec.dist_eq_len]
  have := V3.abs_dot_le n (p - q)
  rwa [unit_len hn, one_mul] at this

theorem radial_lipschitz {n : V3} (hn : Spec.IsUnit n) (c p q : V3) :
    |Spec.radial c n p - Spec.radial c n q| ≤ Spec.dist p q := by
  rw [radial_eq, radial_eq, Spec.dist_eq_len]
  refine (len_sub_abs_le _ _).trans ?_
  set d := p - q with hd
  have e : p - (c + n.dot (p - c) • n) - (q - (c + n.dot (q - c) • n)) = d - n.dot d • n := by
    rw [hd, show p - q = (p - c) - (q - c) by module, V3.dot_sub n (p - c) (q - c)]; module
  rw [e]
  unfold V3.len
  apply Real.sqrt_le_sqrt
  have h1 : n.sqLen = 1 := (Spec.isUnit_iff n).1 hn
  rw [V3.sqLen_sub, V3.dot_smul, V3.sqLen_smul, h1, V3.dot_comm d n]
  nlinarith [sq_nonneg (n.dot d)]

/-- There is a vector of given length orthogonal to `n` in the direction of `u`. -/
theorem orthogonal_of_length {n u : V3} (hn : Spec.IsUnit n) (hu : n.dot u = 0) {r : ℝ} (hr : 0 ≤ r) :
    ∃ w : V3, n.dot w = 0 ∧ w.len = r ∧ (u - w).len = |u.len - r| := by
  by_cases h0 : u = 0
  · subst h0
    obtain ⟨b, s, _, hb, hs, hv⟩ := exists_direction (makeOrthogonalVector_ne_zero n)
    have ho : n.dot b = 0 := by
      have := makeOrthogonalVector_orthogonal n
      rw [hv, V3.dot_smul] at this
      exact (mul_eq_zero.1 this).resolve_left hs.ne'
    have hl : (r • b).len = r := by rw [V3.len_smul, unit_len hb, mul_one, abs_of_nonneg hr]
    refine ⟨r • b, by rw [V3.dot_smul, ho, mul_zero], hl, ?_⟩
    rw [zero_sub, V3.len_neg, hl, V3.len_eq_zero.2 rfl, zero_sub, abs_neg, abs_of_nonneg hr]
  · have hp : 0 < u.len := V3.len_pos.2 h0
    refine ⟨(r / u.len) • u, by rw [V3.dot_smul, hu, mul_zero], ?_, ?_⟩
    · rw [V3.len_smul, abs_of_nonneg (by positivity), div_mul_cancel₀ _ hp.ne']
    · rw [show u - (r / u.len) • u = (1 - r / u.len) • u by module, V3.len_smul]
      have : u.len - r = (1 - r / u.len) * u.len := by field_simp
      rw [this, abs_mul, abs_of_pos hp]

/-- From every point one reaches a point with given coordinates along and around the axis, over a
distance of at most the sum of the changes of the coordinates. -/
theorem reach_axial_radial {n : V3} (hn : Spec.IsUnit n) (c p : V3) (a r : ℝ) (hr : 0 ≤ r) :
    ∃ q, Spec.axial c n q = a ∧ Spec.radial c n q = r ∧
      Spec.dist p q ≤ |Spec.axial c n p - a| + |Spec.radial c n p - r| := by
  have h1 : n.dot n = 1 := (Spec.isUnit_iff n).1 hn
  set u := p - (c + n.dot (p - c) • n) with hu
  have hou : n.dot u = 0 := by
    rw [hu, show p - (c + n.dot (p - c) • n) = (p - c) - n.dot (p - c) • n by module,
      V3.dot_sub n (p - c), V3.dot_smul, h1]
    ring
  obtain ⟨w, w1, w2, w3⟩ := orthogonal_of_length hn hou hr
  have hax : n.dot (c + a • n + w - c) = a := by
    rw [show c + a • n + w - c = a • n + w by module, V3.dot_add n (a • n) w, V3.dot_smul, h1, w1]
    ring
  refine ⟨c + a • n + w, by rw [axial_eq, hax], ?_, ?_⟩
  · rw [radial_eq, hax, show c + a • n + w - (c + a • n) = w by module, w2]
  · rw [Spec.dist_eq_len, axial_eq, radial_eq, ← hu, ← w3]
    have e : p - (c + a • n + w) = (n.dot (p - c) - a) • n + (u - w) := by rw [hu]; module
    rw [e]
    refine (V3.len_add_le _ _).trans ?_
    rw [V3.len_smul, unit_len hn, mul_one]

/-- A value between `-eps` and `h + eps` is closer than `eps` to the interval. -/
theorem clamp_interval {a lo hi eps : ℝ} (h : lo ≤ hi) (he : 0 < eps) (h1 : lo - eps < a) (h2 : a < hi + eps) :
    ∃ b, lo ≤ b ∧ b ≤ hi ∧ |a - b| < eps := by
  refine ⟨max lo (min a hi), le_max_left _ _, max_le h (min_le_right _ _), ?_⟩
  rw [abs_lt]
  constructor <;> grind

/-! ## Geometries for which the tolerance is a distance -/

/-- Lines. -/
theorem C139_line (l : Line) (hd : Spec.IsUnit l.dir) :
    Spec.TolIsDistance l.contains (Spec.OnLine l.supp l.dir) := by
  intro p eps he
  obtain ⟨h1, _, h3, _⟩ := C07_line_projection_nearest l p hd
  have e : l.contains p eps ↔ Spec.dist p (l.projection p) < eps := by
    unfold Line.contains
    rw [Spec.dist_comm, Spec.dist_eq_len, ← V3.len_mul_self]
    exact (mul_self_lt_mul_self_iff (V3.len_nonneg _) he.le).symm
  rw [e]
  constructor
  · rintro ⟨q, hq, hd⟩
    exact ((h3 q hq).1).trans_lt hd
  · intro h
    exact ⟨_, h1, by linarith⟩

/-- Planes. -/
theorem C139_plane (pl : Plane) (hn : Spec.IsUnit pl.normal) :
    Spec.TolIsDistance pl.contains (Spec.OnPlane pl.supp pl.normal) := by
  intro p eps he
  obtain ⟨h1, _, h3, _⟩ := C07_plane_projection_nearest pl p hn
  have e : pl.contains p eps ↔ Spec.dist p (pl.projection p) < eps := by
    unfold Plane.contains
    rw [Spec.dist_eq_len]
    have : p - pl.projection p = pl.normal.dot (p - pl.supp) • pl.normal := by
      unfold Plane.projection; module
    rw [this, V3.len_smul, unit_len hn, mul_one, V3.dot_comm]
  rw [e]
  constructor
  · rintro ⟨q, hq, hd⟩
    exact ((h3 q hq).1).trans_lt hd
  · intro h
    exact ⟨_, h1, by linarith⟩

/-- Segments. -/
theorem C139_segment (s : Segment) (hs : s.source ≠ s.target) :
    Spec.TolIsDistance s.contains (Spec.OnSegment s.source s.target) := by
  intro p eps he
  beta_reduce
  rw [C08_contains_iff_within_eps s p eps hs he]
  refine ⟨fun h => h, ?_⟩
  rintro ⟨q, hq, hd⟩
  exact ⟨q, hq, by linarith⟩

theorem dist_le_coords (p q : V3) : Spec.dist p q ≤ |p.x - q.x| + |p.y - q.y| + |p.z - q.z| := by
  unfold Spec.dist
  apply Real.sqrt_le_iff.2
  refine ⟨by positivity, ?_⟩
  rw [← sq_abs (p.x - q.x), ← sq_abs (p.y - q.y), ← sq_abs (p.z - q.z)]
  have a1 := abs_nonneg (p.x - q.x)
  have a2 := abs_nonneg (p.y - q.y)
  have a3 := abs_nonneg (p.z - q.z)
  nlinarith [mul_nonneg a1 a2, mul_nonneg a1 a3, mul_nonneg a2 a3]

/-- Boxes. -/
theorem C139_box (b : Box) (hx : b.xMin ≤ b.xMax) (hy : b.yMin ≤ b.yMax) (hz : b.zMin ≤ b.zMax) :
    Spec.TolIsDistance b.contains (Spec.InBox (Box.lo b) (Box.hi b)) := by
  intro p eps he
  constructor
  · rintro ⟨q, hq, hd⟩
    obtain ⟨c1, c2, c3⟩ := coord_dist p q
    simp only [Spec.InBox, Box.lo, Box.hi] at hq
    obtain ⟨q1, q2, q3, q4, q5, q6⟩ := hq
    have d1 := abs_lt.1 (c1.trans_lt hd)
    have d2 := abs_lt.1 (c2.trans_lt hd)
    have d3 := abs_lt.1 (c3.trans_lt hd)
    unfold Box.contains
    refine ⟨?_, ?_, ?_, ?_, ?_, ?_⟩ <;> linarith [d1.1, d1.2, d2.1, d2.2, d3.1, d3.2]
  · rintro ⟨h1, h2, h3, h4, h5, h6⟩
    obtain ⟨x, x1, x2, x3⟩ := clamp_interval hx he h1 h2
    obtain ⟨y, y1, y2, y3⟩ := clamp_interval hy he h3 h4
    obtain ⟨z, z1, z2, z3⟩ := clamp_interval hz he h5 h6
    refine ⟨⟨x, y, z⟩, ?_, ?_⟩
    · simp only [Spec.InBox, Box.lo, Box.hi]
      exact ⟨x1, x2, y1, y2, z1, z2⟩
    · have := dist_le_coords p ⟨x, y, z⟩
      simp only at this
      linarith

/-- Circles. -/
theorem C139_circle (c n : V3) (r : ℝ) (k : Elliptical) (hn : Spec.IsUnit n) (hr : 0 < r)
    (hk : Circle.make c n r = .val k) :
    Spec.TolIsDistance (Circle.contains k) (Spec.OnCircle c n r 0) := by
  intro p eps he
  obtain ⟨k', hk', _, hc, hnn, hmaj, _⟩ := C09_circle_valid c n r hn hr
  obtain rfl : k' = k := by rw [hk] at hk'; exact (Outcome.val.inj hk').symm
  have e : Circle.contains k' p eps ↔ |Spec.axial c n p| < eps ∧ |Spec.dist c p - r| < eps := by
    unfold Circle.contains Plane.contains Elliptical.supportingPlane
    rw [hc, hnn, hmaj, axial_eq, V3.dot_comm, Spec.dist_eq_len]
    rfl
  rw [e]
  constructor
  · rintro ⟨q, ⟨q1, q2⟩, hd⟩
    have h1 := axial_lipschitz hn c p q
    rw [q1, sub_zero] at h1
    have hcq : Spec.dist c q = r := by
      rw [← q2]
      unfold Spec.radial
      rw [q1, Spec.dist_comm]
      simp
    have h2 : |Spec.dist c p - r| ≤ Spec.dist p q := by
      rw [← hcq, Spec.dist_eq_len, Spec.dist_eq_len, Spec.dist_eq_len]
      have := len_sub_abs_le (c - p) (c - q)
      rwa [show c - p - (c - q) = q - p by module, V3.len_sub_comm q p] at this
    exact ⟨by linarith, by linarith⟩
  · rintro ⟨h1, h2⟩
    obtain ⟨q, q1, q2, q3⟩ := reach_axial_radial hn c p 0 r hr.le
    refine ⟨q, ⟨q1, q2⟩, ?_⟩
    rw [sub_zero] at q3
    have h3 : |Spec.radial c n p - Spec.dist c p| ≤ |Spec.axial c n p| := by
      rw [radial_eq, axial_eq, Spec.dist_comm, Spec.dist_eq_len]
      have := len_sub_abs_le (p - (c + n.dot (p - c) • n)) (p - c)
      rw [show p - (c + n.dot (p - c) • n) - (p - c) = (-(n.dot (p - c))) • n by module,
        V3.len_smul, unit_len hn, mul_one, abs_neg] at this
      exact this
    have h4 : |Spec.radial c n p - r| < 2 * eps := by
      have := abs_add_le (Spec.radial c n p - Spec.dist c p) (Spec.dist c p - r)
      rw [sub_add_sub_cancel] at this
      linarith
    linarith

/-- Cylinder surfaces. -/
theorem C139_cylinder_surface (c : CylinderSurface) (center axis : V3) (r h : ℝ)
    (hv : SurfaceOf c center axis r h) (hr : 0 ≤ r) (hh : 0 < h) :
    Spec.TolIsDistance c.contains (Spec.OnLateral center axis r h) := by
  intro p eps he
  rw [C69_surface_iff c center axis p r h eps hv hh he]
  constructor
  · rintro ⟨q, ⟨q1, q2, q3⟩, hd⟩
    have h1 := abs_lt.1 ((axial_lipschitz hv.axis_unit center p q).trans_lt hd)
    have h2 := abs_lt.1 ((radial_lipschitz hv.axis_unit center p q).trans_lt hd)
    rw [q3] at h2
    exact ⟨by linarith [h1.1], by linarith [h1.2], by linarith [h2.1], by linarith [h2.2]⟩
  · rintro ⟨h1, h2, h3, h4⟩
    obtain ⟨a, a1, a2, a3⟩ := clamp_interval hh.le he (by linarith) h2
    obtain ⟨q, q1, q2, q3⟩ := reach_axial_radial hv.axis_unit center p a r hr
    have h5 : |Spec.radial center axis p - r| < eps := abs_lt.2 ⟨by linarith, by linarith⟩
    exact ⟨q, ⟨by rw [q1]; exact a1, by rw [q1]; exact a2, q2⟩, by linarith⟩

/-! ## Solids: the tolerance is compared with differences of squared distances -/

theorem le_add_of_sq_le {x r eps : ℝ} (hr : 0 ≤ r) (he : 0 ≤ eps) (h : x ^ 2 ≤ r ^ 2 + eps ^ 2) : x ≤ r + eps := by
  by_contra hc
  push Not at hc
  nlinarith [mul_nonneg hr he]

/-- Spheres: contained points are close to the ball, but only points within `δ` with
`2 r δ + δ² ≤ eps²` are certain to be contained (missing: all points within `eps`, see
`C139_solids_miss`). -/
theorem C139_sphere_partial (s : Sphere) (hr : 0 ≤ s.radius) (p : V3) (eps : ℝ) (he : 0 < eps) :
    (∀ δ, 2 * s.radius * δ + δ ^ 2 ≤ eps ^ 2 → Spec.Within (Spec.InBall s.center s.radius) δ p →
      s.contains p eps) ∧
    (s.contains p eps → Spec.Within (Spec.InBall s.center s.radius) (3 * eps) p) := by
  have e : s.contains p eps ↔ Spec.dist s.center p ^ 2 < s.radius ^ 2 + eps ^ 2 := by
    unfold Sphere.contains
    rw [Spec.dist_comm, Spec.dist_eq_len, V3.len_sq, sub_lt_iff_lt_add', pow_two, pow_two]
  rw [e]
  constructor
  · rintro δ hδ ⟨q, hq, hd⟩
    have h1 := Props.dist_triangle s.center q p
    rw [Spec.dist_comm q p] at h1
    unfold Spec.InBall at hq
    have h2 : Spec.dist s.center p < s.radius + δ := by linarith
    have h3 : 0 ≤ Spec.dist s.center p := Real.sqrt_nonneg _
    nlinarith
  · intro h
    have h1 := le_add_of_sq_le hr he.le h.le
    rcases le_or_gt (Spec.dist s.center p) s.radius with h2 | h2
    · exact ⟨p, h2, by rw [Spec.dist_eq_len, sub_self, V3.len_eq_zero.2 rfl]; linarith⟩
    · have hpos : 0 < Spec.dist s.center p := lt_of_le_of_lt hr h2
      set L := Spec.dist s.center p with hL
      have hl : (p - s.center).len = L := by rw [hL, Spec.dist_comm, Spec.dist_eq_len]
      refine ⟨s.center + (s.radius / L) • (p - s.center), ?_, ?_⟩
      · unfold Spec.InBall
        rw [Spec.dist_comm, Spec.dist_eq_len,
          show s.center + (s.radius / L) • (p - s.center) - s.center = (s.radius / L) • (p - s.center) by module,
          V3.len_smul, hl, abs_of_nonneg (by positivity), div_mul_cancel₀ _ hpos.ne']
      · rw [Spec.dist_eq_len, show p - (s.center + (s.radius / L) • (p - s.center))
          = (1 - s.radius / L) • (p - s.center) by module, V3.len_smul, hl]
        have h4 : 0 ≤ 1 - s.radius / L := by
          rw [sub_nonneg, div_le_one hpos]; exact h2.le
        rw [abs_of_nonneg h4, sub_mul, div_mul_cancel₀ _ hpos.ne', one_mul]
        linarith

/-- Cylinders (missing: all points within `eps` are contained). -/
theorem C139_cylinder_partial (c : Cylinder) (hv : ValidCylinder c) (p : V3) (eps : ℝ) (he : 0 < eps) :
    (∀ δ, 2 * c.radius * δ + δ ^ 2 ≤ eps ^ 2 →
      Spec.Within (Spec.InCylinder c.bottom.center c.bottom.normal c.radius c.height) δ p →
      c.contains p eps) ∧
    (c.contains p eps →
      Spec.Within (Spec.InCylinder c.bottom.center c.bottom.normal c.radius c.height) (3 * eps) p) := by
  have hr : 0 < c.radius := hv.bottom.maj_pos
  rw [C14_contains_iff c p eps hv he]
  constructor
  · rintro δ hδ ⟨q, ⟨q1, q2, q3⟩, hd⟩
    have hδ0 : 0 < δ := lt_of_le_of_lt (Real.sqrt_nonneg _) hd
    have hδe : δ ≤ eps := by
      by_contra hc
      push Not at hc
      nlinarith [mul_pos hr hδ0]
    have h1 := abs_lt.1 ((axial_lipschitz hv.axis c.bottom.center p q).trans_lt hd)
    have h2 := abs_lt.1 ((radial_lipschitz hv.axis c.bottom.center p q).trans_lt hd)
    refine ⟨by linarith [h1.1], by linarith [h1.2], ?_⟩
    have h3 := radial_nonneg c.bottom.center c.bottom.normal p
    nlinarith [h2.2]
  · rintro ⟨h1, h2, h3⟩
    have h4 := le_add_of_sq_le hr.le he.le h3
    obtain ⟨a, a1, a2, a3⟩ := clamp_interval hv.height_pos.le he (by linarith) h2
    have h0 := radial_nonneg c.bottom.center c.bottom.normal p
    obtain ⟨q, q1, q2, q3⟩ := reach_axial_radial hv.axis c.bottom.center p a
      (min (Spec.radial c.bottom.center c.bottom.normal p) c.radius) (le_min h0 hr.le)
    refine ⟨q, ⟨by rw [q1]; exact a1, by rw [q1]; exact a2, by rw [q2]; exact min_le_right _ _⟩, ?_⟩
    have h5 : |Spec.radial c.bottom.center c.bottom.normal p
        - min (Spec.radial c.bottom.center c.bottom.normal p) c.radius| ≤ eps := by
      rw [abs_le]; constructor <;> grind
    linarith

/-- Hollow cylinders (missing: all points within `eps` are contained). -/
theorem C139_hollow_partial (c : HollowCylinder) (center axis : V3) (r1 r2 h : ℝ)
    (hv : ValidHollow c center axis r1 r2 h) (hr1 : 0 ≤ r1) (hr2 : r1 ≤ r2) (hh : 0 < h) (p : V3) (eps : ℝ)
    (he : 0 < eps) :
    (∀ δ, 2 * r2 * δ + δ ^ 2 ≤ eps ^ 2 → Spec.Within (Spec.InShell center axis r1 r2 h) δ p →
      c.contains p eps) ∧
    (c.contains p eps → Spec.Within (Spec.InShell center axis r1 r2 h) (3 * eps) p) := by
  have hr : 0 ≤ r2 := hr1.trans hr2
  rw [C15_contains_iff c center axis p r1 r2 h eps hv hh he]
  have h0 := radial_nonneg center axis p
  constructor
  · rintro δ hδ ⟨q, ⟨q1, q2, q3, q4⟩, hd⟩
    have hδ0 : 0 < δ := lt_of_le_of_lt (Real.sqrt_nonneg _) hd
    have hδe : δ ≤ eps := by
      by_contra hc
      push Not at hc
      nlinarith [mul_nonneg hr hδ0.le]
    have h1 := abs_lt.1 ((axial_lipschitz hv.axis_unit center p q).trans_lt hd)
    have h2 := abs_lt.1 ((radial_lipschitz hv.axis_unit center p q).trans_lt hd)
    refine ⟨by linarith [h1.1], by linarith [h1.2], ?_, by nlinarith [h2.2]⟩
    rcases le_or_gt r1 (Spec.radial center axis p) with h5 | h5
    · nlinarith [sq_nonneg eps]
    · have h6 : r1 - Spec.radial center axis p < δ := by linarith [h2.1]
      nlinarith
  · rintro ⟨h1, h2, h3, h4⟩
    have h5 := le_add_of_sq_le hr he.le h4
    have h6 : r1 ≤ Spec.radial center axis p + eps := le_add_of_sq_le h0 he.le (by linarith)
    obtain ⟨a, a1, a2, a3⟩ := clamp_interval hh.le he (by linarith) h2
    obtain ⟨q, q1, q2, q3⟩ := reach_axial_radial hv.axis_unit center p a
      (max r1 (min (Spec.radial center axis p) r2)) (hr1.trans (le_max_left _ _))
    refine ⟨q, ⟨by rw [q1]; exact a1, by rw [q1]; exact a2, by rw [q2]; exact le_max_left _ _,
      by rw [q2]; exact max_le hr2 (min_le_right _ _)⟩, ?_⟩
    have h7 : |Spec.radial center axis p - max r1 (min (Spec.radial center axis p) r2)| ≤ eps := by
      rw [abs_le]; constructor <;> grind
    linarith

/-! ## Disks and ellipses: the tolerance is relative to the axes -/

/-- Distance of a point to a point of the plane of an ellipse, in the local coordinates. -/
theorem local_dist_sq {e : Elliptical} (h : ValidElliptical e) (p : V3) (x y : ℝ) :
    Spec.dist p (Spec.localPoint e.center e.major e.minor x y) ^ 2
      = ((p - e.center).dot e.major - x) ^ 2 + ((p - e.center).dot e.minor - y) ^ 2
        + ((p - e.center).dot e.normal) ^ 2 := by
  obtain ⟨d1, d2, d3, d4, d5, d6⟩ := h.dots
  set z := (p - e.center).dot e.normal with hz
  have h0 : (p - z • e.normal - e.center).dot e.normal = 0 := by
    rw [show p - z • e.normal - e.center = (p - e.center) - z • e.normal by module, V3.sub_dot, V3.smul_dot,
      d3, ← hz]
    ring
  have hexp := expand_frame h (p - z • e.normal) h0
  have hx : (p - z • e.normal - e.center).dot e.major = (p - e.center).dot e.major := by
    rw [show p - z • e.normal - e.center = (p - e.center) - z • e.normal by module, V3.sub_dot, V3.smul_dot,
      V3.dot_comm e.normal e.major, d6]
    ring
  have hy : (p - z • e.normal - e.center).dot e.minor = (p - e.center).dot e.minor := by
    rw [show p - z • e.normal - e.center = (p - e.center) - z • e.normal by module, V3.sub_dot, V3.smul_dot,
      V3.dot_comm e.normal e.minor, d5]
    ring
  rw [hx, hy] at hexp
  set X := (p - e.center).dot e.major
  set Y := (p - e.center).dot e.minor
  have hp : p - Spec.localPoint e.center e.major e.minor x y
      = (X - x) • e.major + (Y - y) • e.minor + z • e.normal := by
    have : p = Spec.localPoint e.center e.major e.minor X Y + z • e.normal := by
      rw [← hexp]; module
    rw [this]
    ext <;> simp [Spec.localPoint] <;> ring
  rw [Spec.dist_eq_len, V3.len_sq, hp, V3.sqLen_eq_dot]
  simp only [V3.add_dot, V3.dot_add, V3.smul_dot, V3.dot_smul]
  rw [d1, d2, d3, d4, d5, d6, V3.dot_comm e.minor e.major, V3.dot_comm e.normal e.major,
    V3.dot_comm e.normal e.minor, d4, d5, d6]
  ring

/-- The radius of a point relative to the ellipse: one on the ellipse, less than one inside. -/
noncomputable def relRadius (a b x y : ℝ) : ℝ := (⟨x / a, y / b, 0⟩ : V3).len

theorem relRadius_sq (a b x y : ℝ) : relRadius a b x y ^ 2 = (x / a) ^ 2 + (y / b) ^ 2 := by
  unfold relRadius
  rw [V3.len_sq]
  simp [V3.sqLen]; ring

theorem relRadius_lipschitz {a b m : ℝ} (ha : m ≤ a) (hb : m ≤ b) (hm : 0 < m) (x y x' y' d : ℝ) (hd : 0 ≤ d)
    (h : (x - x') ^ 2 + (y - y') ^ 2 ≤ d ^ 2) :
    |relRadius a b x y - relRadius a b x' y'| ≤ d / m := by
  unfold relRadius
  refine (len_sub_abs_le _ _).trans ?_
  apply Real.sqrt_le_iff.2
  refine ⟨by positivity, ?_⟩
  have e : ∀ u v : ℝ, m ≤ v → (u / v) ^ 2 ≤ u ^ 2 / m ^ 2 := by
    intro u v hv
    rw [div_pow]
    apply div_le_div_of_nonneg_left (sq_nonneg _) (by positivity)
    exact pow_le_pow_left₀ hm.le hv 2
  have h1 := e (x - x') a ha
  have h2 := e (y - y') b hb
  have h3 : (x - x') ^ 2 / m ^ 2 + (y - y') ^ 2 / m ^ 2 ≤ (d / m) ^ 2 := by
    rw [← add_div, div_pow]
    exact div_le_div_of_nonneg_right h (by positivity)
  have : (⟨x / a, y / b, 0⟩ - ⟨x' / a, y' / b, 0⟩ : V3).sqLen
      = ((x - x') / a) ^ 2 + ((y - y') / b) ^ 2 := by
    simp [V3.sqLen]; ring
  rw [this]
  linarith

/-- Scaling the local coordinates moves a point by at most the larger axis times the change of its
relative radius. -/
theorem scaled_dist {e : Elliptical} (h : ValidElliptical e) (p : V3) (k : ℝ) :
    let X := (p - e.center).dot e.major
    let Y := (p - e.center).dot e.minor
    Spec.dist p (Spec.localPoint e.center e.major e.minor (k * X) (k * Y))
      ≤ |(p - e.center).dot e.normal|
        + max e.majLen e.minLen * (|1 - k| * relRadius e.majLen e.minLen X Y) := by
  intro X Y
  have ha := h.maj_pos
  have hb := h.min_pos
  set M := max e.majLen e.minLen with hM
  have hM0 : 0 < M := lt_of_lt_of_le ha (le_max_left _ _)
  have hN0 : 0 ≤ relRadius e.majLen e.minLen X Y := V3.len_nonneg _
  have hsq := relRadius_sq e.majLen e.minLen X Y
  set N := relRadius e.majLen e.minLen X Y
  set z := (p - e.center).dot e.normal
  have hXY : X ^ 2 + Y ^ 2 ≤ (M * N) ^ 2 := by
    rw [mul_pow, hsq, mul_add]
    have k1 : ∀ u v : ℝ, 0 < v → v ≤ M → u ^ 2 ≤ M ^ 2 * (u / v) ^ 2 := by
      intro u v hv hvM
      rw [div_pow, mul_div_assoc', le_div_iff₀ (by positivity), mul_comm]
      exact mul_le_mul_of_nonneg_right (pow_le_pow_left₀ hv.le hvM 2) (sq_nonneg _)
    exact add_le_add (k1 X _ ha (le_max_left _ _)) (k1 Y _ hb (le_max_right _ _))
  have hd := local_dist_sq h p (k * X) (k * Y)
  have hd' : Spec.dist p (Spec.localPoint e.center e.major e.minor (k * X) (k * Y)) ^ 2
      = (1 - k) ^ 2 * (X ^ 2 + Y ^ 2) + z ^ 2 := by
    rw [hd]; ring
  refine le_of_not_gt fun hlt => absurd (pow_lt_pow_left₀ hlt (by positivity) two_ne_zero) (not_lt.2 ?_)
  rw [hd']
  have h1 : (1 - k) ^ 2 * (X ^ 2 + Y ^ 2) ≤ (M * (|1 - k| * N)) ^ 2 := by
    rw [show (M * (|1 - k| * N)) ^ 2 = |1 - k| ^ 2 * (M * N) ^ 2 by ring, sq_abs]
    exact mul_le_mul_of_nonneg_left hXY (sq_nonneg _)
  rw [← sq_abs z]
  have : 0 ≤ |z| * (M * (|1 - k| * N)) := by positivity
  nlinarith

/-- Disks: the points within `δ` are contained if `δ ≤ eps` and `(1 + δ/b)² ≤ 1 + eps²` for the
smaller axis `b`; a contained point is within `eps + a eps²/2` of the disk, `a` being the larger axis
(missing: bounds independent of the axes, see `C139_relative_tolerance`). -/
theorem C139_disk_partial (d : Elliptical) (h : ValidElliptical d) (p : V3) (eps : ℝ) (he : 0 < eps) :
    (∀ δ, δ ≤ eps → (1 + δ / min d.majLen d.minLen) ^ 2 ≤ 1 + eps ^ 2 →
      Spec.Within (Spec.InDisk d.center d.major d.minor d.majLen d.minLen) δ p →
      Disk.contains d p eps) ∧
    (Disk.contains d p eps →
      Spec.Within (Spec.InDisk d.center d.major d.minor d.majLen d.minLen)
        (eps + max d.majLen d.minLen * eps ^ 2 / 2) p) := by
  have ha := h.maj_pos
  have hb := h.min_pos
  have hm : 0 < min d.majLen d.minLen := lt_min ha hb
  have e : Disk.contains d p eps ↔ |(p - d.center).dot d.normal| < eps ∧
      relRadius d.majLen d.minLen ((p - d.center).dot d.major) ((p - d.center).dot d.minor) ^ 2
        ≤ 1 + eps ^ 2 := by
    rw [relRadius_sq, div_pow, div_pow]
    unfold Disk.contains
    constructor
    · rintro ⟨h1, _, _, h2⟩
      refine ⟨h1 rfl, ?_⟩
      simpa only [pow_two] using h2
    · rintro ⟨h1, h2⟩
      refine ⟨fun _ => h1, by positivity, by positivity, ?_⟩
      simpa only [pow_two] using h2
  rw [e]
  constructor
  · rintro δ hδ hc ⟨q, ⟨x, y, hxy, rfl⟩, hd⟩
    have hD0 : 0 ≤ Spec.dist p (Spec.localPoint d.center d.major d.minor x y) := Real.sqrt_nonneg _
    have hsq := local_dist_sq h p x y
    set D := Spec.dist p (Spec.localPoint d.center d.major d.minor x y)
    have h1 : |(p - d.center).dot d.normal| ≤ D := by
      apply abs_le_of_sq_le_sq _ hD0
      nlinarith [sq_nonneg ((p - d.center).dot d.major - x), sq_nonneg ((p - d.center).dot d.minor - y)]
    refine ⟨by linarith, ?_⟩
    have h2 := relRadius_lipschitz (min_le_left d.majLen d.minLen) (min_le_right d.majLen d.minLen) hm
      ((p - d.center).dot d.major) ((p - d.center).dot d.minor) x y D hD0
      (by nlinarith [sq_nonneg ((p - d.center).dot d.normal)])
    have h3 : relRadius d.majLen d.minLen x y ≤ 1 := by
      have := relRadius_sq d.majLen d.minLen x y
      have h0 : 0 ≤ relRadius d.majLen d.minLen x y := V3.len_nonneg _
      nlinarith
    have h4 : D / min d.majLen d.minLen ≤ δ / min d.majLen d.minLen :=
      div_le_div_of_nonneg_right hd.le hm.le
    refine le_trans (pow_le_pow_left₀ (V3.len_nonneg _) ?_ 2) hc
    have := (abs_le.1 h2).2
    unfold relRadius at *
    linarith
  · rintro ⟨h1, h2⟩
    set X := (p - d.center).dot d.major with hX
    set Y := (p - d.center).dot d.minor with hY
    have hN0 : 0 ≤ relRadius d.majLen d.minLen X Y := V3.len_nonneg _
    have hM0 : 0 < max d.majLen d.minLen := lt_of_lt_of_le ha (le_max_left _ _)
    have hNsq := relRadius_sq d.majLen d.minLen X Y
    set N := relRadius d.majLen d.minLen X Y with hN
    have hs1 : 0 < max 1 N := lt_of_lt_of_le one_pos (le_max_left _ _)
    have hq := scaled_dist h p (1 / max 1 N)
    simp only [← hX, ← hY, ← hN] at hq
    refine ⟨_, ⟨1 / max 1 N * X, 1 / max 1 N * Y, ?_, rfl⟩, lt_of_le_of_lt hq ?_⟩
    · have : (1 / max 1 N * X / d.majLen) ^ 2 + (1 / max 1 N * Y / d.minLen) ^ 2
          = (N / max 1 N) ^ 2 := by
        rw [div_pow N, hNsq]; field_simp
      rw [this]
      apply pow_le_one₀ (by positivity)
      rw [div_le_one hs1]; exact le_max_right _ _
    · have h3 : |1 - 1 / max 1 N| * N ≤ eps ^ 2 / 2 := by
        rcases le_or_gt N 1 with h4 | h4
        · rw [max_eq_left h4]; norm_num; positivity
        · rw [max_eq_right h4.le]
          have h5 : |1 - 1 / N| * N = N - 1 := by
            have hp : 0 < N := by linarith
            rw [abs_of_nonneg (by rw [sub_nonneg, div_le_one hp]; exact h4.le)]
            field_simp
          rw [h5]; nlinarith [sq_nonneg (N - 1)]
      have := mul_le_mul_of_nonneg_left h3 hM0.le
      rw [mul_div_assoc]
      linarith

/-- Ellipses: the points within `δ` are contained if `δ ≤ eps` and `δ/b (2 + δ/b) ≤ eps` for the
smaller axis `b`; a contained point is within `eps (1 + a)`, `a` being the larger axis (missing: bounds
independent of the axes, see `C139_relative_tolerance`). -/
theorem C139_ellipse_partial (d : Elliptical) (h : ValidElliptical d) (p : V3) (eps : ℝ) (he : 0 < eps) :
    (∀ δ, δ ≤ eps → δ / min d.majLen d.minLen * (2 + δ / min d.majLen d.minLen) ≤ eps →
      Spec.Within (Spec.OnEllipse d.center d.major d.minor d.majLen d.minLen) δ p →
      Ellipse.contains d p eps) ∧
    (Ellipse.contains d p eps →
      Spec.Within (Spec.OnEllipse d.center d.major d.minor d.majLen d.minLen)
        (eps * (1 + max d.majLen d.minLen)) p) := by
  have ha := h.maj_pos
  have hb := h.min_pos
  have hm : 0 < min d.majLen d.minLen := lt_min ha hb
  have e : Ellipse.contains d p eps ↔ |(p - d.center).dot d.normal| < eps ∧
      |relRadius d.majLen d.minLen ((p - d.center).dot d.major) ((p - d.center).dot d.minor) ^ 2 - 1|
        < eps := by
    rw [relRadius_sq, div_pow, div_pow]
    unfold Ellipse.contains
    constructor
    · rintro ⟨h1, _, _, h2⟩
      refine ⟨h1 rfl, ?_⟩
      simpa only [pow_two] using h2
    · rintro ⟨h1, h2⟩
      refine ⟨fun _ => h1, by positivity, by positivity, ?_⟩
      simpa only [pow_two] using h2
  rw [e]
  constructor
  · rintro δ hδ hc ⟨q, ⟨x, y, hxy, rfl⟩, hd⟩
    have hD0 : 0 ≤ Spec.dist p (Spec.localPoint d.center d.major d.minor x y) := Real.sqrt_nonneg _
    have hsq := local_dist_sq h p x y
    set D := Spec.dist p (Spec.localPoint d.center d.major d.minor x y)
    have h1 : |(p - d.center).dot d.normal| ≤ D := by
      apply abs_le_of_sq_le_sq _ hD0
      nlinarith [sq_nonneg ((p - d.center).dot d.major - x), sq_nonneg ((p - d.center).dot d.minor - y)]
    refine ⟨by linarith, ?_⟩
    have h2 := relRadius_lipschitz (min_le_left d.majLen d.minLen) (min_le_right d.majLen d.minLen) hm
      ((p - d.center).dot d.major) ((p - d.center).dot d.minor) x y D hD0
      (by nlinarith [sq_nonneg ((p - d.center).dot d.normal)])
    have h3 : relRadius d.majLen d.minLen x y = 1 := by
      have := relRadius_sq d.majLen d.minLen x y
      have h0 : 0 ≤ relRadius d.majLen d.minLen x y := V3.len_nonneg _
      rw [hxy] at this
      nlinarith
    have h4 : D / min d.majLen d.minLen < δ / min d.majLen d.minLen := div_lt_div_of_pos_right hd hm
    rw [h3] at h2
    have h0 : 0 ≤ relRadius d.majLen d.minLen ((p - d.center).dot d.major) ((p - d.center).dot d.minor) :=
      V3.len_nonneg _
    set N := relRadius d.majLen d.minLen ((p - d.center).dot d.major) ((p - d.center).dot d.minor)
    set t := δ / min d.majLen d.minLen
    have h5 := abs_le.1 h2
    have h6 : |N ^ 2 - 1| = |N - 1| * (N + 1) := by
      rw [show N ^ 2 - 1 = (N - 1) * (N + 1) by ring, abs_mul, abs_of_nonneg (by linarith : 0 ≤ N + 1)]
    rw [h6]
    have h7 : |N - 1| < t := by linarith
    have h8 : N + 1 < 2 + t := by linarith [h5.2]
    have := abs_nonneg (N - 1)
    nlinarith
  · rintro ⟨h1, h2⟩
    set X := (p - d.center).dot d.major with hX
    set Y := (p - d.center).dot d.minor with hY
    have hN0 : 0 ≤ relRadius d.majLen d.minLen X Y := V3.len_nonneg _
    have hM0 : 0 < max d.majLen d.minLen := lt_of_lt_of_le ha (le_max_left _ _)
    have hNsq := relRadius_sq d.majLen d.minLen X Y
    set N := relRadius d.majLen d.minLen X Y with hN
    rcases hN0.eq_or_lt with h3 | h3
    · -- the centre: every point of the ellipse is within the larger axis
      rw [← h3] at hNsq h2
      have hx0 : X = 0 := by
        have : (X / d.majLen) ^ 2 = 0 := by nlinarith [sq_nonneg (X / d.majLen), sq_nonneg (Y / d.minLen)]
        have := pow_eq_zero_iff (two_ne_zero) |>.1 this
        rcases div_eq_zero_iff.1 this with h4 | h4
        · exact h4
        · exact absurd h4 ha.ne'
      have hy0 : Y = 0 := by
        have : (Y / d.minLen) ^ 2 = 0 := by nlinarith [sq_nonneg (X / d.majLen), sq_nonneg (Y / d.minLen)]
        have := pow_eq_zero_iff (two_ne_zero) |>.1 this
        rcases div_eq_zero_iff.1 this with h4 | h4
        · exact h4
        · exact absurd h4 hb.ne'
      refine ⟨_, ⟨d.majLen, 0, by rw [div_self ha.ne']; norm_num, rfl⟩, ?_⟩
      norm_num at h2
      apply lt_of_pow_lt_pow_left₀ 2 (by positivity)
      rw [local_dist_sq h p d.majLen 0, ← hX, ← hY, hx0, hy0, ← sq_abs ((p - d.center).dot d.normal)]
      have h4 : d.majLen ≤ max d.majLen d.minLen := le_max_left _ _
      have h5 := abs_nonneg ((p - d.center).dot d.normal)
      have h6 : |(p - d.center).dot d.normal| ^ 2 < eps ^ 2 := by nlinarith
      have h7 : d.majLen ^ 2 ≤ (eps * max d.majLen d.minLen) ^ 2 := by
        apply pow_le_pow_left₀ ha.le
        nlinarith
      have h8 : 0 ≤ eps * (eps * max d.majLen d.minLen) := by positivity
      nlinarith
    · have hq := scaled_dist h p (1 / N)
      simp only [← hX, ← hY, ← hN] at hq
      refine ⟨_, ⟨1 / N * X, 1 / N * Y, ?_, rfl⟩, lt_of_le_of_lt hq ?_⟩
      · rw [show (1 / N * X / d.majLen) ^ 2 + (1 / N * Y / d.minLen) ^ 2
            = ((X / d.majLen) ^ 2 + (Y / d.minLen) ^ 2) / N ^ 2 by field_simp, ← hNsq,
          div_self (by positivity)]
      · have h5 : |1 - 1 / N| * N = |N - 1| := by
          have : N - 1 = (1 - 1 / N) * N := by field_simp
          rw [this, abs_mul, abs_of_pos h3]
        rw [h5]
        have h6 : |N ^ 2 - 1| = |N - 1| * (N + 1) := by
          rw [show N ^ 2 - 1 = (N - 1) * (N + 1) by ring, abs_mul, abs_of_nonneg (by linarith : 0 ≤ N + 1)]
        have h7 : |N - 1| ≤ eps := by
          rw [h6] at h2
          nlinarith [abs_nonneg (N - 1)]
        have := mul_le_mul_of_nonneg_left h7 hM0.le
        nlinarith

/-! ## Planar figures with corners: the tolerance is compared with areas -/

theorem area_lipschitz (a b p q : V3) :
    |(Triangle.make a b p).area - (Triangle.make a b q).area| ≤ 1 / 2 * (Spec.dist a b * Spec.dist p q) := by
  have e : ∀ r : V3, (Triangle.make a b r).area = 1 / 2 * ((b - a).cross (r - a)).len := by
    intro r
    simp only [Triangle.make]
    norm_num
  rw [e, e, ← mul_sub, abs_mul, abs_of_pos (by norm_num : (0 : ℝ) < 1 / 2)]
  apply mul_le_mul_of_nonneg_left _ (by norm_num)
  refine (len_sub_abs_le _ _).trans ?_
  have h : (b - a).cross (p - a) - (b - a).cross (q - a) = (b - a).cross (p - q) := by
    ext <;> simp [V3.cross] <;> ring
  rw [h, Spec.dist_comm a b, Spec.dist_eq_len, Spec.dist_eq_len]
  apply Real.sqrt_le_iff.2
  refine ⟨mul_nonneg (V3.len_nonneg _) (V3.len_nonneg _), ?_⟩
  rw [V3.sqLen_cross, mul_pow, V3.len_sq, V3.len_sq]
  nlinarith [sq_nonneg ((b - a).dot (p - q))]

/-- A query on the plane of the figure: a point within `eps` of a point of the plane is accepted. -/
theorem planeContains_of_within {pl : Plane} {p q : V3} {eps : ℝ} (hn : Spec.IsUnit pl.normal)
    (hq : Spec.OnPlane pl.supp pl.normal q) (hd : Spec.dist p q < eps) : planeContains (.val pl) p eps := by
  have h0 : 0 < eps := lt_of_le_of_lt (Real.sqrt_nonneg _) hd
  exact ((C139_plane pl hn) p eps h0).1 ⟨q, hq, hd⟩

/-- Triangles: the points within `δ` are contained if `δ ≤ eps` and the perimeter times `δ/2` is at
most `eps²` (missing: all points within `eps`; contained points need not be within a multiple of
`eps`, see `C139_area_tolerance`). -/
theorem C139_triangle_partial (a b c p : V3) (eps δ : ℝ) (check : Bool) (h : ¬ Spec.Collinear a b c)
    (hδ : δ ≤ eps) (hc : (Spec.dist a b + Spec.dist b c + Spec.dist c a) * (δ / 2) ≤ eps ^ 2)
    (hp : Spec.Within (Spec.InTriangle a b c) δ p) : (Triangle.make a b c).contains p eps check := by
  obtain ⟨q, hq, hd⟩ := hp
  have hq' := fun e he => C18_triangle_points_contained a b c q e true h he hq
  obtain ⟨n, pl, hu, hn, hpl, hs, hnn, hT, pa, pb, pc⟩ := triangle_frame h
  have hqpl := onPlane_of_planeContains (pl := pl) (p := q)
    (fun e he => by have := (hq' e he).1 rfl; rwa [hpl] at this)
  refine ⟨fun _ => ?_, ?_⟩
  · rw [hpl]
    exact planeContains_of_within (by rw [hnn]; exact hu) hqpl (hd.trans_le hδ)
  · have hA := eq_of_abs_lt_sq (fun e he => (hq' e he).2)
    rw [hA]
    have l1 := abs_le.1 (area_lipschitz a b p q)
    have l2 := abs_le.1 (area_lipschitz b c p q)
    have l3 := abs_le.1 (area_lipschitz c a p q)
    change |(Triangle.make a b q).area + (Triangle.make b c q).area + (Triangle.make c a q).area
      - ((Triangle.make a b p).area + (Triangle.make b c p).area + (Triangle.make c a p).area)| < eps * eps
    have hab : 0 < Spec.dist a b := by
      rw [Spec.dist_comm, Spec.dist_eq_len, V3.len_pos]
      intro e
      exact h ((collinear_iff_cross _ _ _).2 (by rw [e]; ext <;> simp [V3.cross]))
    have hbc : 0 ≤ Spec.dist b c := Real.sqrt_nonneg _
    have hca : 0 ≤ Spec.dist c a := Real.sqrt_nonneg _
    have hP : (Spec.dist a b + Spec.dist b c + Spec.dist c a) * Spec.dist p q
        < (Spec.dist a b + Spec.dist b c + Spec.dist c a) * δ :=
      mul_lt_mul_of_pos_left hd (by linarith)
    rw [abs_lt]
    constructor <;> nlinarith [l1.1, l1.2, l2.1, l2.2, l3.1, l3.2]

/-- Convex quadrilaterals: the same with the perimeter of the quadrilateral. -/
theorem C139_quadrilateral_partial (n o p0 p1 p2 p3 p : V3) (eps δ : ℝ) (check : Bool)
    (hn : Spec.IsUnit n) (hpl : Spec.PlanarPolygon n o [p0, p1, p3, p2])
    (hcv : Spec.ConvexPolygon n [p0, p1, p3, p2]) (h0 : Spec.turn n p2 p0 p1 ≠ 0) (hδ : δ ≤ eps)
    (hc : (Spec.dist p0 p1 + Spec.dist p1 p3 + Spec.dist p3 p2 + Spec.dist p2 p0) * (δ / 2) ≤ eps ^ 2)
    (hp : Spec.Within (Spec.InPolygon n o [p0, p1, p3, p2]) δ p) :
    (Quadrilateral.make p0 p1 p2 p3).contains p eps check := by
  obtain ⟨q, hq, hd⟩ := hp
  have hq' := fun e he => C18_quadrilateral_points_contained n o p0 p1 p2 p3 q e true hn hpl hcv h0 he hq
  have h0' := h0
  rw [turn_rotate] at h0'
  obtain ⟨pl, hv, hon⟩ := plane_of_corners hn (hpl p0 (by simp)) (hpl p1 (by simp)) (hpl p2 (by simp)) h0'
  have hcol : ¬ Spec.Collinear p0 p1 p2 := by
    intro h
    apply h0'
    rw [turn_eq, (collinear_iff_cross _ _ _).1 h]; simp [V3.dot]
  obtain ⟨pl', hpl', hf, _⟩ := C03_plane_from_points p0 p1 p2 hcol
  obtain rfl : pl' = pl := by rw [hpl'] at hv; exact Outcome.val.inj hv
  have hu : Spec.IsUnit pl'.normal := hf.2.2.1
  refine ⟨fun _ => ?_, ?_⟩
  · show planeContains (Plane.ofPoints p0 p1 p2) p eps
    rw [hv]
    exact planeContains_of_within hu ((hon q).2 hq.1) (hd.trans_le hδ)
  · have hA := eq_of_abs_lt_sq (fun e he => (hq' e he).2)
    rw [hA]
    have l1 := abs_le.1 (area_lipschitz p0 p1 p q)
    have l2 := abs_le.1 (area_lipschitz p1 p3 p q)
    have l3 := abs_le.1 (area_lipschitz p3 p2 p q)
    have l4 := abs_le.1 (area_lipschitz p2 p0 p q)
    change |(Triangle.make p0 p1 q).area + (Triangle.make p1 p3 q).area + (Triangle.make p3 p2 q).area
        + (Triangle.make p2 p0 q).area
      - ((Triangle.make p0 p1 p).area + (Triangle.make p1 p3 p).area + (Triangle.make p3 p2 p).area
        + (Triangle.make p2 p0 p).area)| < eps * eps
    have hab : 0 < Spec.dist p0 p1 := by
      rw [Spec.dist_comm, Spec.dist_eq_len, V3.len_pos]
      intro e
      exact hcol ((collinear_iff_cross _ _ _).2 (by rw [e]; ext <;> simp [V3.cross]))
    have hbc : 0 ≤ Spec.dist p1 p3 := Real.sqrt_nonneg _
    have hca : 0 ≤ Spec.dist p3 p2 := Real.sqrt_nonneg _
    have hcb : 0 ≤ Spec.dist p2 p0 := Real.sqrt_nonneg _
    have hP : (Spec.dist p0 p1 + Spec.dist p1 p3 + Spec.dist p3 p2 + Spec.dist p2 p0) * Spec.dist p q
        < (Spec.dist p0 p1 + Spec.dist p1 p3 + Spec.dist p3 p2 + Spec.dist p2 p0) * δ :=
      mul_lt_mul_of_pos_left hd (by linarith)
    rw [abs_lt]
    constructor <;> nlinarith [l1.1, l1.2, l2.1, l2.2, l3.1, l3.2, l4.1, l4.2]

theorem cyc_sub_le (N : ℕ) (c : ℕ → V3) (f g k : V3 → V3 → ℝ) (h : ∀ a b, |f a b - g a b| ≤ k a b) :
    |cyc N c f - cyc N c g| ≤ cyc N c k := by
  unfold cyc
  rw [show (∑ i ∈ Finset.range (N - 1), f (c i) (c (i + 1))) + f (c (N - 1)) (c 0)
      - ((∑ i ∈ Finset.range (N - 1), g (c i) (c (i + 1))) + g (c (N - 1)) (c 0))
      = (∑ i ∈ Finset.range (N - 1), (f (c i) (c (i + 1)) - g (c i) (c (i + 1))))
        + (f (c (N - 1)) (c 0) - g (c (N - 1)) (c 0)) by rw [Finset.sum_sub_distrib]; ring]
  refine (abs_add_le _ _).trans (add_le_add ?_ (h _ _))
  exact (Finset.abs_sum_le_sum_abs _ _).trans (Finset.sum_le_sum fun i _ => h _ _)

theorem cyc_mul (N : ℕ) (c : ℕ → V3) (f : V3 → V3 → ℝ) (t : ℝ) :
    cyc N c (fun a b => t * f a b) = t * cyc N c f := by
  unfold cyc
  rw [mul_add, Finset.mul_sum]

/-- Convex polygons: the same with the perimeter of the polygon. -/
theorem C139_polygon_partial (n o : V3) (cs : List V3) (pg : Polygon) (p : V3) (eps δ : ℝ) (check : Bool)
    (hn : Spec.IsUnit n) (hpl : Spec.PlanarPolygon n o cs) (hcv : Spec.ConvexPolygon n cs)
    (hm : Polygon.make cs = .val pg) (h012 : Spec.cornerTurn n cs 1 ≠ 0) (hδ : δ ≤ eps)
    (hc : Spec.perimeter cs * (δ / 2) ≤ eps ^ 2)
    (hp : Spec.Within (Spec.InPolygon n o cs) δ p) :
    ∃ r : Prop, pg.contains p eps check = .val r ∧ r := by
  obtain ⟨q, hq, hd⟩ := hp
  have hδ0 : 0 < δ := lt_of_le_of_lt (Real.sqrt_nonneg _) hd
  obtain ⟨h3, hpr⟩ := polygon_make_val hm
  have hne : cs ≠ [] := by rintro rfl; simp at h3
  obtain ⟨pg', hm', hcs, hplane, _⟩ := polygon_make h3 hpr
  rw [hm] at hm'
  obtain rfl := Outcome.val.inj hm'
  have hflag := C20_convex_is_flagged n o cs pg hn hpl hm hcv
  have hval : ∀ r e, pg.contains r e check = .val (pg.convexContains r e check) := by
    intro r e
    unfold Polygon.contains
    rw [if_pos hflag]
  have hq' : ∀ e, 0 < e → pg.convexContains q e check := by
    intro e he
    obtain ⟨r, hr, hr2⟩ := C22_points_contained_partial n o cs pg q e check hn hpl hcv hm h012 he hq
    rw [hval q e] at hr
    rw [Outcome.val.inj hr]; exact hr2
  refine ⟨_, hval p eps, fun _ => ?_, ?_⟩
  · have ht : Spec.turn n (cs.getD 0 0) (cs.getD 1 0) (cs.getD 2 0) ≠ 0 := by
      have e : Spec.cornerTurn n cs 1 = Spec.turn n (cs.getD 0 0) (cs.getD 1 0) (cs.getD 2 0) := by
        unfold Spec.cornerTurn
        rw [show 1 + cs.length - 1 = cs.length by omega, Nat.mod_self, Nat.mod_eq_of_lt (by omega)]
      rwa [e] at h012
    have hcol : ¬ Spec.Collinear (cs.getD 0 0) (cs.getD 1 0) (cs.getD 2 0) := by
      intro h
      apply ht
      rw [turn_eq, (collinear_iff_cross _ _ _).1 h]; simp [V3.dot]
    obtain ⟨pl, hv, hon⟩ := plane_of_corners hn (hpl _ (getD_mem (by omega)))
      (hpl _ (getD_mem (by omega))) (hpl _ (getD_mem (by omega))) ht
    obtain ⟨pl', hpl', hf, _⟩ := C03_plane_from_points _ _ _ hcol
    obtain rfl : pl' = pl := by rw [hpl'] at hv; exact Outcome.val.inj hv
    rw [hplane, hv]
    exact planeContains_of_within hf.2.2.1 ((hon q).2 hq.1) (hd.trans_le hδ)
  · have hA := eq_of_abs_lt_sq (fun e he => (hq' e he).2)
    rw [hA, hcs]
    have hl := cyc_sub_le cs.length (fun i => cs.getD i 0) (fun a b => (Triangle.make a b q).area)
      (fun a b => (Triangle.make a b p).area) (fun a b => (1 / 2 * Spec.dist q p) * Spec.dist a b)
      (fun a b => (area_lipschitz a b q p).trans (le_of_eq (by ring)))
    rw [cyc_mul, ← sum_polyEdges cs hne Spec.dist] at hl
    refine lt_of_le_of_lt hl ?_
    change 1 / 2 * Spec.dist q p * Spec.perimeter cs < eps * eps
    have hP : 0 ≤ Spec.perimeter cs := by
      unfold Spec.perimeter
      apply List.sum_nonneg
      intro x hx
      obtain ⟨e, _, rfl⟩ := List.mem_map.1 hx
      exact Real.sqrt_nonneg _
    have heps : 0 < eps := hδ0.trans_le hδ
    rw [Spec.dist_comm q p]
    rcases hP.eq_or_lt with h0 | h0
    · rw [← h0, mul_zero]; positivity
    · have := mul_lt_mul_of_pos_left hd h0
      nlinarith

/-! ## The violations -/

theorem dist_of_x (p q : V3) {a : ℝ} (hq : q.x ≤ a) : p.x - a ≤ Spec.dist p q := by
  have h1 := (coord_dist p q).1
  have h2 := le_abs_self (p.x - q.x)
  linarith

theorem sqrt_lt_of {x e : ℝ} (he : 0 < e) (h : x < e ^ 2) : Real.sqrt x < e := (Real.sqrt_lt' he).2 h

theorem within_of {S : V3 → Prop} {eps : ℝ} {p : V3} (q : V3) (hq : S q) (he : 0 < eps)
    (h : (p.x - q.x) ^ 2 + (p.y - q.y) ^ 2 + (p.z - q.z) ^ 2 < eps ^ 2) : Spec.Within S eps p :=
  ⟨q, hq, (Real.sqrt_lt' he).2 h⟩

/-- Area of a triangle in the plane `z = 0`. -/
theorem area_z0 (a b c : V3) (ha : a.z = 0) (hb : b.z = 0) (hc : c.z = 0) :
    (Triangle.make a b c).area
      = 1 / 2 * |(b.x - a.x) * (c.y - a.y) - (b.y - a.y) * (c.x - a.x)| := by
  rw [area_inplane (n := ⟨0, 0, 1⟩) (q := ⟨0, 0, 0⟩) unit_z (by simp [Spec.OnPlane, ha])
    (by simp [Spec.OnPlane, hb]) (by simp [Spec.OnPlane, hc])]
  congr 2
  simp [Spec.turn, Spec.det]

/-- A circle of radius 100. -/
noncomputable def wideCircle : Elliptical := ⟨⟨0, 0, 0⟩, ⟨1, 0, 0⟩, ⟨0, 1, 0⟩, ⟨0, 0, 1⟩, 100, 100⟩

theorem wideCircle_valid : ValidElliptical wideCircle := by
  refine ⟨⟨?_, ?_, ?_, ?_, ?_, ?_, ?_⟩, ?_, ?_⟩ <;>
    norm_num [wideCircle, Spec.IsUnit, Spec.Orthogonal, Spec.inner, Spec.det]

/-- Points closer than the tolerance that are not contained: spheres, cylinders, hollow cylinders. -/
theorem C139_solids_miss :
    Spec.Misses (Sphere.contains ⟨⟨0, 0, 0⟩, 1⟩) (Spec.InBall ⟨0, 0, 0⟩ 1) ∧
    (∃ c, ValidCylinder c ∧ Spec.Misses c.contains
      (Spec.InCylinder c.bottom.center c.bottom.normal c.radius c.height)) ∧
    (∃ c center axis, ValidHollow c center axis (1 / 2) 1 1 ∧
      Spec.Misses c.contains (Spec.InShell center axis (1 / 2) 1 1)) := by
  have ax : ∀ p : V3, Spec.axial ⟨0, 0, 0⟩ ⟨0, 0, 1⟩ p = p.z := by intro p; simp [Spec.axial]
  have rad : ∀ x z : ℝ, 0 ≤ x → Spec.radial ⟨0, 0, 0⟩ ⟨0, 0, 1⟩ ⟨x, 0, z⟩ = x := by
    intro x z hx
    unfold Spec.radial
    rw [ax]
    simp [Spec.dist, Real.sqrt_sq hx]
  refine ⟨⟨⟨21 / 20, 0, 0⟩, 1 / 10, by norm_num, ?_, ?_⟩, ?_, ?_⟩
  · exact within_of ⟨1, 0, 0⟩ (by simp [Spec.InBall, Spec.dist]) (by norm_num) (by norm_num)
  · norm_num [Sphere.contains, V3.sqLen]
  · obtain ⟨c, _, hv, hc, hn, hr, hh⟩ := C14_axis_aligned 1 1 0 one_pos one_pos
    refine ⟨c, hv, ⟨21 / 20, 0, 1 / 2⟩, 1 / 10, by norm_num, ?_, ?_⟩
    · refine within_of ⟨1, 0, 1 / 2⟩ ?_ (by norm_num) (by norm_num)
      rw [hc, hn, hr, hh]
      unfold Spec.InCylinder
      rw [ax, rad _ _ (by norm_num)]
      norm_num
    · rw [C14_contains_iff c _ _ hv (by norm_num), hc, hn, hr, hh, ax, rad _ _ (by norm_num)]
      norm_num
  · obtain ⟨c, _, hv⟩ := (C15_construction ⟨0, 0, 0⟩ ⟨0, 0, 1⟩ (1 / 2) 1 1 unit_z).2 (by norm_num)
    refine ⟨c, _, _, hv, ⟨21 / 20, 0, 1 / 2⟩, 1 / 10, by norm_num, ?_, ?_⟩
    · refine within_of ⟨1, 0, 1 / 2⟩ ?_ (by norm_num) (by norm_num)
      unfold Spec.InShell
      rw [ax, rad _ _ (by norm_num)]
      norm_num
    · rw [C15_contains_iff c _ _ _ _ _ _ _ hv (by norm_num) (by norm_num), ax, rad _ _ (by norm_num)]
      norm_num

/-- Disks and ellipses: points closer than the tolerance are not contained for small axes, and points
far away are contained for large axes. -/
theorem C139_relative_tolerance :
    Spec.Misses (fun p eps => Disk.contains unitCircle p eps) (Spec.InDisk ⟨0, 0, 0⟩ ⟨1, 0, 0⟩ ⟨0, 1, 0⟩ 1 1) ∧
    Spec.Misses (fun p eps => Ellipse.contains unitCircle p eps)
      (Spec.OnEllipse ⟨0, 0, 0⟩ ⟨1, 0, 0⟩ ⟨0, 1, 0⟩ 1 1) ∧
    Spec.Overreaches (fun p eps => Disk.contains wideCircle p eps)
      (Spec.InDisk ⟨0, 0, 0⟩ ⟨1, 0, 0⟩ ⟨0, 1, 0⟩ 100 100) ∧
    Spec.Overreaches (fun p eps => Ellipse.contains wideCircle p eps)
      (Spec.OnEllipse ⟨0, 0, 0⟩ ⟨1, 0, 0⟩ ⟨0, 1, 0⟩ 100 100) := by
  refine ⟨⟨⟨21 / 20, 0, 0⟩, 1 / 10, by norm_num, ?_, ?_⟩, ⟨⟨21 / 20, 0, 0⟩, 1 / 10, by norm_num, ?_, ?_⟩,
    ⟨⟨141, 0, 0⟩, 1, one_pos, ?_, ?_⟩, ⟨⟨141, 0, 0⟩, 1, one_pos, ?_, ?_⟩⟩
  · exact within_of ⟨1, 0, 0⟩ ⟨1, 0, by norm_num, by simp [Spec.localPoint]⟩ (by norm_num) (by norm_num)
  · rintro ⟨_, _, _, h⟩
    norm_num [unitCircle, V3.dot] at h
  · exact within_of ⟨1, 0, 0⟩ ⟨1, 0, by norm_num, by simp [Spec.localPoint]⟩ (by norm_num) (by norm_num)
  · rintro ⟨_, _, _, h⟩
    norm_num [unitCircle, V3.dot] at h
  · refine ⟨fun _ => ?_, ?_⟩
    · norm_num [Plane.contains, Elliptical.supportingPlane, Plane.ofBasis, wideCircle, V3.dot]
    · norm_num [wideCircle, V3.dot]
  · rintro ⟨q, ⟨x, y, hxy, rfl⟩, hd⟩
    have hx : x ≤ 100 := by
      by_contra hc
      push Not at hc
      have : 1 < x / 100 := by rw [lt_div_iff₀ (by norm_num)]; linarith
      nlinarith [sq_nonneg (y / 100)]
    have := dist_of_x ⟨141, 0, 0⟩ (Spec.localPoint ⟨0, 0, 0⟩ ⟨1, 0, 0⟩ ⟨0, 1, 0⟩ x y) (a := 100)
      (by simpa [Spec.localPoint] using hx)
    norm_num at this hd
    linarith
  · refine ⟨fun _ => ?_, ?_⟩
    · norm_num [Plane.contains, Elliptical.supportingPlane, Plane.ofBasis, wideCircle, V3.dot]
    · norm_num [wideCircle, V3.dot]
  · rintro ⟨q, ⟨x, y, hxy, rfl⟩, hd⟩
    have hx : x ≤ 100 := by
      by_contra hc
      push Not at hc
      have : 1 < x / 100 := by rw [lt_div_iff₀ (by norm_num)]; linarith
      nlinarith [sq_nonneg (y / 100)]
    have := dist_of_x ⟨141, 0, 0⟩ (Spec.localPoint ⟨0, 0, 0⟩ ⟨1, 0, 0⟩ ⟨0, 1, 0⟩ x y) (a := 100)
      (by simpa [Spec.localPoint] using hx)
    norm_num at this hd
    linarith

/-- Triangles and quadrilaterals: points closer than the tolerance are not contained for figures of
size one, and points far away are contained for figures that are small compared with the tolerance. -/
theorem C139_area_tolerance :
    Spec.Misses (fun p eps => (Triangle.make ⟨0, 0, 0⟩ ⟨1, 0, 0⟩ ⟨0, 1, 0⟩).contains p eps)
      (Spec.InTriangle ⟨0, 0, 0⟩ ⟨1, 0, 0⟩ ⟨0, 1, 0⟩) ∧
    Spec.Misses (fun p eps => (Quadrilateral.make ⟨0, 0, 0⟩ ⟨1, 0, 0⟩ ⟨0, 1, 0⟩ ⟨1, 1, 0⟩).contains p eps)
      (Spec.InPolygon ⟨0, 0, 1⟩ ⟨0, 0, 0⟩ [⟨0, 0, 0⟩, ⟨1, 0, 0⟩, ⟨1, 1, 0⟩, ⟨0, 1, 0⟩]) ∧
    Spec.Overreaches (fun p eps => (Triangle.make ⟨0, 0, 0⟩ ⟨1 / 100, 0, 0⟩ ⟨0, 1 / 100, 0⟩).contains p eps)
      (Spec.InTriangle ⟨0, 0, 0⟩ ⟨1 / 100, 0, 0⟩ ⟨0, 1 / 100, 0⟩) ∧
    Spec.Overreaches (fun p eps => (Quadrilateral.make ⟨0, 0, 0⟩ ⟨1 / 100, 0, 0⟩ ⟨0, 1 / 100, 0⟩
        ⟨1 / 100, 1 / 100, 0⟩).contains p eps)
      (Spec.InPolygon ⟨0, 0, 1⟩ ⟨0, 0, 0⟩
        [⟨0, 0, 0⟩, ⟨1 / 100, 0, 0⟩, ⟨1 / 100, 1 / 100, 0⟩, ⟨0, 1 / 100, 0⟩]) := by
  refine ⟨⟨⟨1 / 4, -1 / 20, 0⟩, 1 / 10, by norm_num, ?_, ?_⟩, ⟨⟨1 / 2, -1 / 20, 0⟩, 1 / 10, by norm_num, ?_, ?_⟩,
    ⟨⟨1, 0, 0⟩, 1 / 10, by norm_num, ?_, ?_⟩, ⟨⟨1 / 2, 0, 0⟩, 1 / 10, by norm_num, ?_, ?_⟩⟩
  · refine within_of ⟨1 / 4, 0, 0⟩ ⟨3 / 4, 1 / 4, 0, ?_⟩ (by norm_num) (by norm_num)
    norm_num
  · rintro ⟨_, h⟩
    revert h
    change ¬ |(Triangle.make ⟨0, 0, 0⟩ ⟨1, 0, 0⟩ ⟨0, 1, 0⟩).area
      - ((Triangle.make ⟨0, 0, 0⟩ ⟨1, 0, 0⟩ ⟨1 / 4, -1 / 20, 0⟩).area
        + (Triangle.make ⟨1, 0, 0⟩ ⟨0, 1, 0⟩ ⟨1 / 4, -1 / 20, 0⟩).area
        + (Triangle.make ⟨0, 1, 0⟩ ⟨0, 0, 0⟩ ⟨1 / 4, -1 / 20, 0⟩).area)| < _
    rw [area_z0 _ _ _ rfl rfl rfl, area_z0 _ _ _ rfl rfl rfl, area_z0 _ _ _ rfl rfl rfl,
      area_z0 _ _ _ rfl rfl rfl]
    norm_num [abs_of_pos, abs_of_neg]
  · refine within_of ⟨1 / 2, 0, 0⟩ ⟨by simp [Spec.OnPlane], ?_⟩ (by norm_num) (by norm_num)
    rw [quad_edges]
    simp only [List.forall_mem_cons, List.not_mem_nil, false_imp_iff, implies_true, and_true]
    norm_num [Spec.turn, Spec.det]
  · rintro ⟨_, h⟩
    revert h
    change ¬ |(Triangle.make ⟨0, 0, 0⟩ ⟨1, 0, 0⟩ ⟨1, 1, 0⟩).area + (Triangle.make ⟨0, 0, 0⟩ ⟨1, 1, 0⟩ ⟨0, 1, 0⟩).area
      - ((Triangle.make ⟨0, 0, 0⟩ ⟨1, 0, 0⟩ ⟨1 / 2, -1 / 20, 0⟩).area
        + (Triangle.make ⟨1, 0, 0⟩ ⟨1, 1, 0⟩ ⟨1 / 2, -1 / 20, 0⟩).area
        + (Triangle.make ⟨1, 1, 0⟩ ⟨0, 1, 0⟩ ⟨1 / 2, -1 / 20, 0⟩).area
        + (Triangle.make ⟨0, 1, 0⟩ ⟨0, 0, 0⟩ ⟨1 / 2, -1 / 20, 0⟩).area)| < _
    rw [area_z0 _ _ _ rfl rfl rfl, area_z0 _ _ _ rfl rfl rfl, area_z0 _ _ _ rfl rfl rfl,
      area_z0 _ _ _ rfl rfl rfl, area_z0 _ _ _ rfl rfl rfl, area_z0 _ _ _ rfl rfl rfl]
    norm_num [abs_of_pos, abs_of_neg]
  · have hcol : ¬ Spec.Collinear ⟨0, 0, 0⟩ ⟨1 / 100, 0, 0⟩ ⟨0, 1 / 100, 0⟩ := by
      rw [collinear_iff_cross]
      intro e
      have := congrArg V3.z e
      norm_num [V3.cross] at this
    obtain ⟨n, pl, hu, hn, hpl, hs, hnn, hT, pa, pb, pc⟩ := triangle_frame hcol
    refine ⟨fun _ => ?_, ?_⟩
    · rw [hpl]
      apply planeContains_of_onPlane (by norm_num)
      rw [hs, hnn]
      simp only [Spec.OnPlane] at pb ⊢
      linarith
    · change |(Triangle.make ⟨0, 0, 0⟩ ⟨1 / 100, 0, 0⟩ ⟨0, 1 / 100, 0⟩).area
        - ((Triangle.make ⟨0, 0, 0⟩ ⟨1 / 100, 0, 0⟩ ⟨1, 0, 0⟩).area
          + (Triangle.make ⟨1 / 100, 0, 0⟩ ⟨0, 1 / 100, 0⟩ ⟨1, 0, 0⟩).area
          + (Triangle.make ⟨0, 1 / 100, 0⟩ ⟨0, 0, 0⟩ ⟨1, 0, 0⟩).area)| < _
      rw [area_z0 _ _ _ rfl rfl rfl, area_z0 _ _ _ rfl rfl rfl, area_z0 _ _ _ rfl rfl rfl,
        area_z0 _ _ _ rfl rfl rfl]
      norm_num [abs_of_pos, abs_of_neg]
  · rintro ⟨q, ⟨r, s, t, r0, s0, t0, h1, hx, _⟩, hd⟩
    have := dist_of_x ⟨1, 0, 0⟩ q (a := 1 / 100) (by rw [hx]; norm_num; linarith)
    norm_num at this hd
    linarith
  · have ht : Spec.turn ⟨0, 0, 1⟩ ⟨0, 0, 0⟩ ⟨1 / 100, 0, 0⟩ ⟨0, 1 / 100, 0⟩ ≠ 0 := by
      norm_num [Spec.turn, Spec.det]
    obtain ⟨pl, hv, hon⟩ := plane_of_corners (n := ⟨0, 0, 1⟩) (q := ⟨0, 0, 0⟩) unit_z
      (by simp [Spec.OnPlane]) (by simp [Spec.OnPlane]) (by simp [Spec.OnPlane]) ht
    refine ⟨fun _ => ?_, ?_⟩
    · show planeContains (Plane.ofPoints _ _ _) _ _
      rw [show Plane.ofPoints _ _ _ = _ from hv]
      exact planeContains_of_onPlane (by norm_num) ((hon _).2 (by simp [Spec.OnPlane]))
    · change |(Triangle.make ⟨0, 0, 0⟩ ⟨1 / 100, 0, 0⟩ ⟨1 / 100, 1 / 100, 0⟩).area
          + (Triangle.make ⟨0, 0, 0⟩ ⟨1 / 100, 1 / 100, 0⟩ ⟨0, 1 / 100, 0⟩).area
        - ((Triangle.make ⟨0, 0, 0⟩ ⟨1 / 100, 0, 0⟩ ⟨1 / 2, 0, 0⟩).area
          + (Triangle.make ⟨1 / 100, 0, 0⟩ ⟨1 / 100, 1 / 100, 0⟩ ⟨1 / 2, 0, 0⟩).area
          + (Triangle.make ⟨1 / 100, 1 / 100, 0⟩ ⟨0, 1 / 100, 0⟩ ⟨1 / 2, 0, 0⟩).area
          + (Triangle.make ⟨0, 1 / 100, 0⟩ ⟨0, 0, 0⟩ ⟨1 / 2, 0, 0⟩).area)| < _
      rw [area_z0 _ _ _ rfl rfl rfl, area_z0 _ _ _ rfl rfl rfl, area_z0 _ _ _ rfl rfl rfl,
        area_z0 _ _ _ rfl rfl rfl, area_z0 _ _ _ rfl rfl rfl, area_z0 _ _ _ rfl rfl rfl]
      norm_num [abs_of_pos, abs_of_neg]
  · rintro ⟨q, ⟨_, hq⟩, hd⟩
    rw [quad_edges] at hq
    have hx := hq (⟨1 / 100, 0, 0⟩, ⟨1 / 100, 1 / 100, 0⟩) (by simp)
    have hx' : q.x ≤ 1 / 100 := by
      norm_num [Spec.turn, Spec.det] at hx
      linarith
    have := dist_of_x ⟨1 / 2, 0, 0⟩ q hx'
    norm_num at this hd
    linarith

/-- The claim for the remaining geometries. -/
def C139_full : Prop :=
  (∀ s : Sphere, 0 < s.radius → Spec.TolIsDistance s.contains (Spec.InBall s.center s.radius)) ∧
  (∀ c : Cylinder, ValidCylinder c → Spec.TolIsDistance c.contains
    (Spec.InCylinder c.bottom.center c.bottom.normal c.radius c.height)) ∧
  (∀ (c : HollowCylinder) (center axis : V3) (r1 r2 h : ℝ), ValidHollow c center axis r1 r2 h →
    0 < r1 → r1 < r2 → 0 < h → Spec.TolIsDistance c.contains (Spec.InShell center axis r1 r2 h)) ∧
  (∀ d : Elliptical, ValidElliptical d → Spec.TolIsDistance (fun p eps => Disk.contains d p eps)
    (Spec.InDisk d.center d.major d.minor d.majLen d.minLen)) ∧
  (∀ d : Elliptical, ValidElliptical d → Spec.TolIsDistance (fun p eps => Ellipse.contains d p eps)
    (Spec.OnEllipse d.center d.major d.minor d.majLen d.minLen)) ∧
  (∀ a b c : V3, ¬ Spec.Collinear a b c →
    Spec.TolIsDistance (fun p eps => (Triangle.make a b c).contains p eps) (Spec.InTriangle a b c)) ∧
  (∀ n o p0 p1 p2 p3 : V3, Spec.IsUnit n → Spec.PlanarPolygon n o [p0, p1, p3, p2] →
    Spec.ConvexPolygon n [p0, p1, p3, p2] → Spec.turn n p2 p0 p1 ≠ 0 →
    Spec.TolIsDistance (fun p eps => (Quadrilateral.make p0 p1 p2 p3).contains p eps)
      (Spec.InPolygon n o [p0, p1, p3, p2]))

/-- **The code violates the property**: for none of these geometries is the tolerance a distance (see
`C139_solids_miss`, `C139_relative_tolerance` and `C139_area_tolerance`). -/
theorem C139_disproof : ¬ C139_full := by
  rintro ⟨h, _⟩
  obtain ⟨p, eps, he, hw, hn⟩ := C139_solids_miss.1
  exact hn ((h ⟨⟨0, 0, 0⟩, 1⟩ one_pos p eps he).1 hw)

/-! ## Instances -/

/-- A line, a plane, a segment and a box with the hypotheses; a point at distance 1/20 of the segment. -/
example : Spec.IsUnit (⟨⟨1, 2, 3⟩, ⟨3 / 5, 0, 4 / 5⟩⟩ : Line).dir ∧
    (⟨⟨0, 0, 0⟩, ⟨1, 0, 0⟩⟩ : Segment).source ≠ (⟨⟨0, 0, 0⟩, ⟨1, 0, 0⟩⟩ : Segment).target ∧
    Spec.Within (Spec.OnSegment ⟨0, 0, 0⟩ ⟨1, 0, 0⟩) (1 / 10) ⟨1 / 2, 1 / 20, 0⟩ ∧
    (∃ b, Box.ofCorners ⟨0, 0, 0⟩ ⟨1, 2, 3⟩ = .val b ∧ b.xMin ≤ b.xMax ∧ b.yMin ≤ b.yMax ∧ b.zMin ≤ b.zMax) := by
  refine ⟨by norm_num [Spec.IsUnit, Spec.norm], ?_, ?_, ?_⟩
  · intro e
    have := congrArg V3.x e
    norm_num at this
  · exact within_of ⟨1 / 2, 0, 0⟩ ⟨1 / 2, by norm_num, by norm_num, by norm_num, by norm_num, by norm_num⟩
      (by norm_num) (by norm_num)
  · obtain ⟨b, hb, hlo, hhi⟩ := (C13_construction ⟨0, 0, 0⟩ ⟨1, 2, 3⟩).1 (by norm_num)
    have e1 := congrArg V3.x hlo
    have e2 := congrArg V3.y hlo
    have e3 := congrArg V3.z hlo
    have f1 := congrArg V3.x hhi
    have f2 := congrArg V3.y hhi
    have f3 := congrArg V3.z hhi
    simp only [Box.lo, Box.hi] at e1 e2 e3 f1 f2 f3
    exact ⟨b, hb, by linarith, by linarith, by linarith⟩

/-- A circle and a point within the tolerance. -/
example : ∃ k, Circle.make ⟨0, 0, 0⟩ ⟨0, 0, 1⟩ 2 = .val k ∧
    Circle.contains k ⟨41 / 20, 0, 1 / 20⟩ (1 / 10) := by
  obtain ⟨k, hk, _⟩ := C09_circle_valid ⟨0, 0, 0⟩ ⟨0, 0, 1⟩ 2 unit_z (by norm_num)
  refine ⟨k, hk, ((C139_circle _ _ _ k unit_z (by norm_num) hk) _ _ (by norm_num)).1 ?_⟩
  refine within_of ⟨2, 0, 0⟩ ⟨by simp [Spec.axial], ?_⟩ (by norm_num) (by norm_num)
  have h : Spec.axial ⟨0, 0, 0⟩ ⟨0, 0, 1⟩ ⟨2, 0, 0⟩ = 0 := by simp [Spec.axial]
  unfold Spec.radial
  rw [h]
  simp [Spec.dist]

/-- A sphere of radius one, tolerance 1/10: the points within 1/250 are contained. -/
example : Sphere.contains ⟨⟨0, 0, 0⟩, 1⟩ ⟨1003 / 1000, 0, 0⟩ (1 / 10) :=
  (C139_sphere_partial ⟨⟨0, 0, 0⟩, 1⟩ zero_le_one _ _ (by norm_num)).1 (1 / 250) (by norm_num)
    (within_of ⟨1, 0, 0⟩ (by simp [Spec.InBall, Spec.dist]) (by norm_num) (by norm_num))

/-- A disk of radius one, tolerance 1/10: the points within 1/250 are contained. -/
example : Disk.contains unitCircle ⟨1003 / 1000, 0, 0⟩ (1 / 10) :=
  (C139_disk_partial unitCircle unitCircle_valid _ _ (by norm_num)).1 (1 / 250) (by norm_num)
    (by norm_num [unitCircle])
    (within_of ⟨1, 0, 0⟩ ⟨1, 0, by norm_num [unitCircle], by simp [Spec.localPoint, unitCircle]⟩
      (by norm_num) (by norm_num))

/-- The same for the unit circle as an ellipse. -/
example : Ellipse.contains unitCircle ⟨1003 / 1000, 0, 0⟩ (1 / 10) :=
  (C139_ellipse_partial unitCircle unitCircle_valid _ _ (by norm_num)).1 (1 / 250) (by norm_num)
    (by norm_num [unitCircle])
    (within_of ⟨1, 0, 0⟩ ⟨1, 0, by norm_num [unitCircle], by simp [Spec.localPoint, unitCircle]⟩
      (by norm_num) (by norm_num))

/-- A triangle with perimeter 12, tolerance 1/10: the points within 1/600 are contained. -/
example : (Triangle.make ⟨0, 0, 0⟩ ⟨3, 0, 0⟩ ⟨0, 4, 0⟩).contains ⟨1, -1 / 1000, 0⟩ (1 / 10) := by
  have d1 : Spec.dist ⟨0, 0, 0⟩ ⟨3, 0, 0⟩ = 3 := by
    unfold Spec.dist; rw [Real.sqrt_eq_iff_mul_self_eq] <;> norm_num
  have d2 : Spec.dist ⟨3, 0, 0⟩ ⟨0, 4, 0⟩ = 5 := by
    unfold Spec.dist; rw [Real.sqrt_eq_iff_mul_self_eq] <;> norm_num
  have d3 : Spec.dist ⟨0, 4, 0⟩ ⟨0, 0, 0⟩ = 4 := by
    unfold Spec.dist; rw [Real.sqrt_eq_iff_mul_self_eq] <;> norm_num
  refine C139_triangle_partial _ _ _ _ _ (1 / 600) true ?_ (by norm_num) (by rw [d1, d2, d3]; norm_num)
    (within_of ⟨1, 0, 0⟩ ⟨2 / 3, 1 / 3, 0, by norm_num⟩ (by norm_num) (by norm_num))
  rw [collinear_iff_cross]
  intro e
  have := congrArg V3.z e
  norm_num [V3.cross] at this

/-- A polygon with five corners and perimeter 8, tolerance 1/10: the hypotheses hold for the points
within 1/400. -/
example : Spec.perimeter square5' = 8 ∧ Spec.perimeter square5' * ((1 / 400) / 2) ≤ (1 / 10 : ℝ) ^ 2 ∧
    Spec.Within (Spec.InPolygon ⟨0, 0, 1⟩ ⟨0, 0, 0⟩ square5') (1 / 400) ⟨1, -1 / 1000, 0⟩ := by
  have hp : Spec.perimeter square5' = 8 := by
    have d : ∀ a b : V3, ∀ r : ℝ, 0 ≤ r → (a.x - b.x) ^ 2 + (a.y - b.y) ^ 2 + (a.z - b.z) ^ 2 = r ^ 2 →
        Spec.dist a b = r := by
      intro a b r hr h
      unfold Spec.dist; rw [h, Real.sqrt_sq hr]
    have e : Spec.perimeter square5' = Spec.dist ⟨1, 0, 0⟩ ⟨2, 0, 0⟩ + (Spec.dist ⟨2, 0, 0⟩ ⟨2, 2, 0⟩
      + (Spec.dist ⟨2, 2, 0⟩ ⟨0, 2, 0⟩ + (Spec.dist ⟨0, 2, 0⟩ ⟨0, 0, 0⟩
      + (Spec.dist ⟨0, 0, 0⟩ ⟨1, 0, 0⟩ + 0)))) := rfl
    rw [e, d _ _ 1 (by norm_num) (by norm_num), d _ _ 2 (by norm_num) (by norm_num),
      d _ _ 2 (by norm_num) (by norm_num), d _ _ 2 (by norm_num) (by norm_num),
      d _ _ 1 (by norm_num) (by norm_num)]
    norm_num
  refine ⟨hp, by rw [hp]; norm_num, within_of ⟨1, 0, 0⟩ ⟨by simp [Spec.OnPlane], ?_⟩ (by norm_num) (by norm_num)⟩
  have : Spec.polyEdges square5' = [(⟨1, 0, 0⟩, ⟨2, 0, 0⟩), (⟨2, 0, 0⟩, ⟨2, 2, 0⟩),
    (⟨2, 2, 0⟩, ⟨0, 2, 0⟩), (⟨0, 2, 0⟩, ⟨0, 0, 0⟩), (⟨0, 0, 0⟩, ⟨1, 0, 0⟩)] := rfl
  rw [this]
  simp only [List.forall_mem_cons, List.not_mem_nil, false_imp_iff, implies_true, and_true]
  norm_num [Spec.turn, Spec.det]

end Props
