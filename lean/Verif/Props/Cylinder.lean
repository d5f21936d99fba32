import Verif.Model.Sampling.PointSampler
import Verif.Props.Segment
import Verif.Props.Box
import Verif.Props.Disk

/-!
# Cylinders, hollow cylinders and their point samplers (C14, C15, C16)
-/

namespace Props
open Verif Frackit

/-! ## Axis coordinates -/

theorem axial_eq (c n p : V3) : Spec.axial c n p = n.dot (p - c) := by
  simp [Spec.axial, V3.dot]

theorem radial_eq (c n p : V3) : Spec.radial c n p = (p - (c + n.dot (p - c) • n)).len := by
  unfold Spec.radial
  rw [Spec.dist_eq_len, axial_eq]
  congr 1

theorem radial_sq (c n p : V3) :
    Spec.radial c n p ^ 2 = (p - (c + n.dot (p - c) • n)).sqLen := by
  rw [radial_eq, V3.len_sq]

theorem radial_nonneg (c n p : V3) : 0 ≤ Spec.radial c n p := Real.sqrt_nonneg _

theorem center_line (c n : V3) (h : ℝ) (hn : Spec.IsUnit n) (hh : 0 < h) :
    (⟨c, c + h • n⟩ : Segment).supportingLine = .val ⟨c, n⟩ ∧ c ≠ c + h • n := by
  have hn2 := (Spec.isUnit_iff n).1 hn
  have hne : c ≠ c + h • n := by
    intro e
    have : h • n = 0 := by
      have : h • n = (c + h • n) - c := by module
      rw [this, ← e]; module
    have h2 : (h • n).sqLen = 0 := by rw [this]; simp [V3.sqLen]
    rw [V3.sqLen_smul, hn2] at h2
    nlinarith
  obtain ⟨d, L, hl, hu, hL, ht⟩ := segment_frame (s := ⟨c, c + h • n⟩) hne
  have he : L • d = h • n := by
    have : L • d = (c + L • d) - c := by module
    rw [this]
    simp only at ht
    rw [← ht]; module
  have hd2 := (Spec.isUnit_iff d).1 hu
  have hLh : L = h := by
    have : (L • d).sqLen = (h • n).sqLen := by rw [he]
    rw [V3.sqLen_smul, V3.sqLen_smul, hd2, hn2] at this
    nlinarith
  have hdn : d = n := by
    rw [hLh] at he
    have : h • (d - n) = 0 := by rw [smul_sub, he, sub_self]
    rcases smul_eq_zero.1 this with h0 | h0
    · exact absurd h0 hh.ne'
    · exact sub_eq_zero.1 h0
  rw [hl, hdn]
  exact ⟨rfl, hne⟩

/-- Foot of a point on the axis, with respect to the axis segment. -/
theorem foot_contained (c n p : V3) (h eps : ℝ) (hn : Spec.IsUnit n) (hh : 0 < h) (he : 0 < eps) :
    (⟨c, c + h • n⟩ : Segment).contains (c + n.dot (p - c) • n) eps ↔
      -eps < Spec.axial c n p ∧ Spec.axial c n p < h + eps := by
  obtain ⟨_, hne⟩ := center_line c n h hn hh
  rw [C08_contains_iff_within_eps _ _ _ hne he, axial_eq]
  have hn2 := (Spec.isUnit_iff n).1 hn
  set a := n.dot (p - c) with ha
  have hdist : ∀ t : ℝ, Spec.dist (c + a • n) (c + t • n) = |a - t| := by
    intro t
    rw [Spec.dist_eq_len, show c + a • n - (c + t • n) = (a - t) • n by module]
    unfold V3.len
    rw [V3.sqLen_smul, hn2, mul_one, Real.sqrt_sq_eq_abs]
  constructor
  · rintro ⟨q, hq, hd⟩
    obtain ⟨t, t0, t1, rfl⟩ := (Spec.onSegment_iff _ _ _).1 hq
    rw [show c + t • (c + h • n - c) = c + (t * h) • n by module, hdist, abs_lt] at hd
    constructor <;> nlinarith
  · rintro ⟨h1, h2⟩
    rcases lt_or_ge a 0 with h3 | h3
    · refine ⟨c, (Spec.onSegment_iff _ _ _).2 ⟨0, le_rfl, zero_le_one, by module⟩, ?_⟩
      have := hdist 0
      rw [zero_smul, add_zero] at this
      rw [this, abs_lt]; constructor <;> linarith
    · rcases le_or_gt a h with h4 | h4
      · refine ⟨c + a • n, (Spec.onSegment_iff _ _ _).2 ⟨a / h, by positivity,
          by rw [div_le_one hh]; exact h4, ?_⟩, ?_⟩
        · rw [show c + (a / h) • (c + h • n - c) = c + (a / h * h) • n by module,
            div_mul_cancel₀ _ hh.ne']
        · rw [hdist, sub_self, abs_zero]; exact he
      · refine ⟨c + h • n, (Spec.onSegment_iff _ _ _).2 ⟨1, zero_le_one, le_rfl, by module⟩, ?_⟩
        rw [hdist, abs_lt]; constructor <;> linarith

/-! ## C14 Points sampled within a cylinder are in the cylinder -/

/-- A cylinder as produced by the constructors. -/
structure ValidCylinder (c : Cylinder) : Prop where
  bottom : ValidElliptical c.bottom
  top_center : c.top.center = c.bottom.center + c.height • c.bottom.normal
  height_pos : 0 < c.height

/-- The axis of a cylinder as seen by the user: the centre of the bottom face and its normal. -/
def ValidCylinder.axis {c : Cylinder} (h : ValidCylinder c) : Spec.IsUnit c.bottom.normal :=
  h.bottom.frame.2.2.1

theorem elliptical_make_axes {d : Elliptical} (hf : Spec.RightHandedOrthonormal d.major d.minor d.normal)
    (c : V3) (a b : ℝ) : Elliptical.make c d.major d.minor a b
      = .val ⟨c, d.major, d.minor, d.normal, a, b⟩ := by
  have hv : ValidElliptical ⟨c, d.major, d.minor, d.normal, 1, 1⟩ :=
    ⟨hf, by norm_num, by norm_num⟩
  have := boundingEllipse_val hv
  unfold Disk.boundingEllipse Elliptical.make at this
  simp only at this
  unfold Elliptical.make
  obtain ⟨n, hn, he⟩ := Outcome.bind_eq_val.1 this
  rw [hn]
  have : n = d.normal := by
    have := congrArg (fun o : Outcome Elliptical => match o with | .val e => e.normal | _ => n) he
    simpa using this
  rw [this]; rfl

/-- Cylinders built from a circular disk or a circle and a positive height are valid; a disk that is
not circular (up to the tolerance) is rejected by an exception. -/
theorem C14_construction (d : Elliptical) (h : ℝ) (hd : ValidElliptical d) (hh : 0 < h) :
    (|d.majLen - d.minLen| ≤ d.majLen * (1 / 10 ^ 7) →
      ∃ c, Cylinder.ofDisk d h = .val c ∧ ValidCylinder c ∧ c.bottom = d ∧ c.height = h) ∧
    (d.majLen * (1 / 10 ^ 7) < |d.majLen - d.minLen| → (Cylinder.ofDisk d h).isThrown) ∧
    (∃ c, Cylinder.ofCircle d h = .val c ∧ ValidCylinder c ∧ c.bottom.center = d.center ∧
      c.bottom.normal = d.normal ∧ c.radius = d.majLen ∧ c.height = h) := by
  have htop : ∀ e : Elliptical, ValidElliptical e → makeTopDisk e h
      = .val ⟨e.center + h • e.normal, e.major, e.minor, e.normal, e.majLen, e.minLen⟩ := by
    intro e he
    unfold makeTopDisk
    exact elliptical_make_axes he.frame _ _ _
  refine ⟨?_, ?_, ?_⟩
  · intro hc
    refine ⟨⟨h, ⟨d.center + h • d.normal, d.major, d.minor, d.normal, d.majLen, d.minLen⟩, d⟩, ?_,
      ⟨hd, rfl, hh⟩, rfl, rfl⟩
    unfold Cylinder.ofDisk
    rw [htop d hd]
    simp only [Outcome.val_bind]
    rw [if_neg (by unfold confusion; exact not_lt.2 hc)]
    rfl
  · intro hc
    unfold Cylinder.ofDisk
    rw [htop d hd]
    simp only [Outcome.val_bind]
    rw [if_pos (by unfold confusion; exact hc)]
    trivial
  · have hd' : ValidElliptical ⟨d.center, d.major, d.minor, d.normal, d.majLen, d.majLen⟩ :=
      ⟨hd.frame, hd.maj_pos, hd.maj_pos⟩
    refine ⟨⟨h, ⟨d.center + h • d.normal, d.major, d.minor, d.normal, d.majLen, d.majLen⟩,
      ⟨d.center, d.major, d.minor, d.normal, d.majLen, d.majLen⟩⟩, ?_, ⟨hd', rfl, hh⟩, rfl, rfl, rfl,
      rfl⟩
    unfold Cylinder.ofCircle Cylinder.ofDisk
    rw [elliptical_make_axes hd.frame]
    simp only [Outcome.val_bind]
    rw [htop _ hd']
    simp only [Outcome.val_bind]
    rw [if_neg (by
      rw [sub_self, abs_zero]; exact not_lt.2 (mul_nonneg hd.maj_pos.le confusion_pos.le))]
    rfl

/-- The axis-aligned constructor. -/
theorem C14_axis_aligned (r h z : ℝ) (hr : 0 < r) (hh : 0 < h) :
    ∃ c, Cylinder.axisAligned r h z = .val c ∧ ValidCylinder c ∧ c.bottom.center = ⟨0, 0, z⟩ ∧
      c.bottom.normal = ⟨0, 0, 1⟩ ∧ c.radius = r ∧ c.height = h := by
  have e1 : mkDirection ⟨1, 0, 0⟩ = .val ⟨1, 0, 0⟩ :=
    mkDirection_of_unit (by norm_num [Spec.IsUnit])
  have e2 : mkDirection ⟨0, 1, 0⟩ = .val ⟨0, 1, 0⟩ :=
    mkDirection_of_unit (by norm_num [Spec.IsUnit])
  have hf := unitCircle_valid.frame
  have hm : ∀ c a b, Elliptical.make c ⟨1, 0, 0⟩ ⟨0, 1, 0⟩ a b
      = .val ⟨c, ⟨1, 0, 0⟩, ⟨0, 1, 0⟩, ⟨0, 0, 1⟩, a, b⟩ := fun c a b =>
    elliptical_make_axes (d := unitCircle) hf c a b
  refine ⟨⟨h, ⟨⟨0, 0, z + h⟩, ⟨1, 0, 0⟩, ⟨0, 1, 0⟩, ⟨0, 0, 1⟩, r, r⟩,
    ⟨⟨0, 0, z⟩, ⟨1, 0, 0⟩, ⟨0, 1, 0⟩, ⟨0, 0, 1⟩, r, r⟩⟩, ?_, ⟨⟨hf, hr, hr⟩, ?_, hh⟩, rfl, rfl, rfl,
    rfl⟩
  · unfold Cylinder.axisAligned
    rw [e1, e2]
    simp [hm]
  · ext <;> simp

/-- `contains(p, eps)` is true exactly if the foot of the point on the axis is on the axis segment up
to the tolerance and the squared distance to the axis is at most the squared radius, up to the
squared tolerance. -/
theorem C14_contains_iff (c : Cylinder) (p : V3) (eps : ℝ) (h : ValidCylinder c) (he : 0 < eps) :
    c.contains p eps ↔
      -eps < Spec.axial c.bottom.center c.bottom.normal p ∧
      Spec.axial c.bottom.center c.bottom.normal p < c.height + eps ∧
      Spec.radial c.bottom.center c.bottom.normal p ^ 2 ≤ c.radius ^ 2 + eps ^ 2 := by
  unfold Cylinder.contains Cylinder.centerSegment
  rw [h.top_center, (center_line _ _ _ h.axis h.height_pos).1]
  simp only [holdsIfVal, Line.projection]
  rw [foot_contained _ _ _ _ _ h.axis h.height_pos he, radial_sq, and_assoc, pow_two, pow_two]

/-- Every point of the solid cylinder is contained, for every positive tolerance and for the default
tolerance. -/
theorem C14_points_contained (c : Cylinder) (p : V3) (h : ValidCylinder c)
    (hp : Spec.InCylinder c.bottom.center c.bottom.normal c.radius c.height p) :
    (∀ eps, 0 < eps → c.contains p eps) ∧ c.containsDefault p := by
  have key : ∀ eps, 0 < eps → c.contains p eps := by
    intro eps he
    rw [C14_contains_iff c p eps h he]
    obtain ⟨h1, h2, h3⟩ := hp
    refine ⟨by linarith, by linarith, ?_⟩
    have := pow_le_pow_left₀ (radial_nonneg _ _ _) h3 2
    nlinarith [sq_nonneg eps]
  refine ⟨key, key _ ?_⟩
  have h1 : 0 < c.radius := h.bottom.maj_pos
  have h2 := h.height_pos
  have h3 := confusion_pos
  positivity

/-- A point that is contained for every positive tolerance is in the solid cylinder. -/
theorem C14_contained_in (c : Cylinder) (p : V3) (h : ValidCylinder c)
    (hp : ∀ eps, 0 < eps → c.contains p eps) :
    Spec.InCylinder c.bottom.center c.bottom.normal c.radius c.height p := by
  have hr : 0 < c.radius := h.bottom.maj_pos
  have key := fun eps (he : 0 < eps) => (C14_contains_iff c p eps h he).1 (hp eps he)
  set a := Spec.axial c.bottom.center c.bottom.normal p
  set r := Spec.radial c.bottom.center c.bottom.normal p
  refine ⟨?_, ?_, ?_⟩
  · by_contra hn
    push Not at hn
    have := (key (-a) (by linarith)).1
    linarith
  · by_contra hn
    push Not at hn
    have := (key (a - c.height) (by linarith)).2.1
    linarith
  · by_contra hn
    push Not at hn
    have hq : 0 < (r ^ 2 - c.radius ^ 2) / 2 := by
      have := pow_lt_pow_left₀ hn hr.le two_ne_zero
      linarith
    have := (key _ (Real.sqrt_pos.2 hq)).2.2
    rw [Real.sq_sqrt hq.le] at this
    linarith

/-- Axis coordinates of a sampled point. -/
theorem sample_coords {d : Elliptical} (h : Spec.RightHandedOrthonormal d.major d.minor d.normal)
    (phi z r2 : ℝ) (h2 : 0 ≤ r2) :
    Spec.axial d.center d.normal (d.center + (Real.sqrt r2 * Real.cos phi) • d.major
      + (Real.sqrt r2 * Real.sin phi) • d.minor + z • d.normal) = z ∧
    Spec.radial d.center d.normal (d.center + (Real.sqrt r2 * Real.cos phi) • d.major
      + (Real.sqrt r2 * Real.sin phi) • d.minor + z • d.normal) = Real.sqrt r2 := by
  have hv : ValidElliptical ⟨d.center, d.major, d.minor, d.normal, 1, 1⟩ :=
    ⟨h, by norm_num, by norm_num⟩
  obtain ⟨d1, d2, d3, d4, d5, d6⟩ := hv.dots
  simp only at d1 d2 d3 d4 d5 d6
  set x := Real.sqrt r2 * Real.cos phi with hx
  set y := Real.sqrt r2 * Real.sin phi with hy
  have hw : d.center + x • d.major + y • d.minor + z • d.normal - d.center
      = x • d.major + y • d.minor + z • d.normal := by module
  have ha : d.normal.dot (d.center + x • d.major + y • d.minor + z • d.normal - d.center) = z := by
    rw [hw, V3.dot_add, V3.dot_add, V3.dot_smul, V3.dot_smul, V3.dot_smul, d3,
      V3.dot_comm d.normal d.major, d6, V3.dot_comm d.normal d.minor, d5]; ring
  refine ⟨by rw [axial_eq, ha], ?_⟩
  rw [radial_eq, ha, show d.center + x • d.major + y • d.minor + z • d.normal
    - (d.center + z • d.normal) = x • d.major + y • d.minor by module]
  unfold V3.len
  rw [V3.sqLen_add, V3.sqLen_smul, V3.sqLen_smul, V3.smul_dot, V3.dot_smul,
      V3.sqLen_eq_dot, V3.sqLen_eq_dot, d1, d2, d4]
  congr 1
  rw [hx, hy]
  have hs := Real.sq_sqrt h2
  have hcs := Real.cos_sq_add_sin_sq phi
  calc _ = Real.sqrt r2 ^ 2 * (Real.cos phi ^ 2 + Real.sin phi ^ 2) := by ring
    _ = r2 := by rw [hs, hcs, mul_one]

/-- A value a distribution may return for the requested interval. -/
def Drawn (i : Interval) (x : ℝ) : Prop := i.lo ≤ x ∧ x ≤ i.hi

/-- Every point of the C++ point sampler created for a cylinder is in the cylinder, for all values
within the requested intervals; it is contained for every positive and for the default tolerance. -/
theorem C14_sampler_in_cylinder (c : Cylinder) (phi z r2 : ℝ) (h : ValidCylinder c)
    (hphi : Drawn (makeCylinderPointSampler c).angle phi)
    (hz : Drawn (makeCylinderPointSampler c).height z)
    (hr : Drawn (makeCylinderPointSampler c).radiusSquared r2) :
    ∃ p, (makeCylinderPointSampler c).sample phi z r2 = .val p ∧
      Spec.InCylinder c.bottom.center c.bottom.normal c.radius c.height p ∧
      (∀ eps, 0 < eps → c.contains p eps) ∧ c.containsDefault p := by
  have hr0 : 0 ≤ r2 := hr.1
  have hr1 : r2 ≤ c.radius * c.radius := hr.2
  obtain ⟨k1, k2⟩ := sample_coords h.bottom.frame phi z r2 hr0
  have hin : Spec.InCylinder c.bottom.center c.bottom.normal c.radius c.height
      (c.bottom.center + (Real.sqrt r2 * Real.cos phi) • c.bottom.major
      + (Real.sqrt r2 * Real.sin phi) • c.bottom.minor + z • c.bottom.normal) := by
    refine ⟨by rw [k1]; exact hz.1, by rw [k1]; exact hz.2, ?_⟩
    rw [k2]
    exact Real.sqrt_le_iff.2 ⟨h.bottom.maj_pos.le, by rw [pow_two]; exact hr1⟩
  obtain ⟨m1, m2⟩ := C14_points_contained c _ h hin
  refine ⟨_, ?_, hin, m1, m2⟩
  unfold CylinderPointSampler.sample
  rw [if_neg (not_lt.2 hr0)]
  rfl

/-- Conversely, every point of the solid cylinder is the result of values within the requested
intervals: the sampler covers the cylinder. -/
theorem C14_sampler_covers (c : Cylinder) (p : V3) (h : ValidCylinder c)
    (hp : Spec.InCylinder c.bottom.center c.bottom.normal c.radius c.height p) :
    ∃ phi z r2, Drawn (makeCylinderPointSampler c).angle phi ∧
      Drawn (makeCylinderPointSampler c).height z ∧
      Drawn (makeCylinderPointSampler c).radiusSquared r2 ∧
      (makeCylinderPointSampler c).sample phi z r2 = .val p := by
  obtain ⟨h1, h2, h3⟩ := hp
  set d := c.bottom with hd
  obtain ⟨d1, d2, d3, d4, d5, d6⟩ := h.bottom.dots
  set z := Spec.axial d.center d.normal p with hz
  set r := Spec.radial d.center d.normal p with hr
  have hr0 : 0 ≤ r := radial_nonneg _ _ _
  -- the point moved to the plane of the bottom face
  set q := p - z • d.normal with hq
  have hqn : (q - d.center).dot d.normal = 0 := by
    rw [hq, show p - z • d.normal - d.center = (p - d.center) - z • d.normal by module, V3.sub_dot,
      V3.smul_dot, d3, hz, axial_eq, V3.dot_comm d.normal]; ring
  have hexp := expand_frame h.bottom q hqn
  set x := (q - d.center).dot d.major
  set y := (q - d.center).dot d.minor
  have hsq : x ^ 2 + y ^ 2 = r ^ 2 := by
    rw [hr, radial_sq, ← axial_eq, ← hz, show p - (d.center + z • d.normal)
      = q - d.center by rw [hq]; module]
    have : q - d.center = x • d.major + y • d.minor := by
      rw [hexp]; ext <;> simp [Spec.localPoint] <;> ring
    rw [this, V3.sqLen_add, V3.sqLen_smul, V3.sqLen_smul, V3.smul_dot, V3.dot_smul,
      V3.sqLen_eq_dot, V3.sqLen_eq_dot, d1, d2, d4]
    ring
  have hrr : r ^ 2 ≤ c.radius * c.radius := by
    rw [← pow_two]; exact pow_le_pow_left₀ hr0 h3 2
  obtain ⟨phi, p0, p1, hc, hs⟩ : ∃ t, 0 ≤ t ∧ t < 2 * Real.pi ∧ r * Real.cos t = x ∧
      r * Real.sin t = y := by
    rcases hr0.eq_or_lt with h0 | h0
    · refine ⟨0, le_rfl, by have := Real.pi_pos; linarith, ?_, ?_⟩
      · rw [← h0, zero_mul]; rw [← h0] at hsq; nlinarith [sq_nonneg x, sq_nonneg y]
      · rw [← h0, zero_mul]; rw [← h0] at hsq; nlinarith [sq_nonneg x, sq_nonneg y]
    · obtain ⟨t, t0, t1, hc, hs⟩ := exists_angle (x / r) (y / r) (by
        rw [div_pow, div_pow, ← add_div, hsq, div_self (by positivity)])
      exact ⟨t, t0, t1, by rw [hc]; field_simp, by rw [hs]; field_simp⟩
  refine ⟨phi, z, r ^ 2, ⟨p0, p1.le⟩, ⟨h1, h2⟩, ⟨by show (0 : ℝ) ≤ r ^ 2; positivity, hrr⟩, ?_⟩
  unfold CylinderPointSampler.sample
  rw [if_neg (not_lt.2 (by positivity)), Real.sqrt_sq hr0]
  simp only
  rw [hc, hs]
  congr 1
  show d.center + x • d.major + y • d.minor + z • d.normal = p
  have h4 : d.center + x • d.major + y • d.minor = q := by
    refine Eq.trans ?_ hexp.symm
    ext <;> simp [Spec.localPoint, hd]
  rw [h4, hq]; module

/-- The box point sampler produces exactly the points of the box. -/
theorem C14_box_sampler (b : Box) :
    (∀ x y z, Drawn (makeBoxPointSampler b).x x → Drawn (makeBoxPointSampler b).y y →
      Drawn (makeBoxPointSampler b).z z →
      Spec.InBox (Box.lo b) (Box.hi b) ((makeBoxPointSampler b).sample x y z) ∧
      ∀ eps, 0 < eps → b.contains ((makeBoxPointSampler b).sample x y z) eps) ∧
    (∀ p, Spec.InBox (Box.lo b) (Box.hi b) p → ∃ x y z, Drawn (makeBoxPointSampler b).x x ∧
      Drawn (makeBoxPointSampler b).y y ∧ Drawn (makeBoxPointSampler b).z z ∧
      (makeBoxPointSampler b).sample x y z = p) := by
  constructor
  · intro x y z hx hy hz
    have hin : Spec.InBox (Box.lo b) (Box.hi b) ((makeBoxPointSampler b).sample x y z) :=
      ⟨hx.1, hx.2, hy.1, hy.2, hz.1, hz.2⟩
    exact ⟨hin, fun eps he => (C13_contains b _ eps).1 he hin⟩
  · rintro ⟨x, y, z⟩ ⟨h1, h2, h3, h4, h5, h6⟩
    exact ⟨x, y, z, ⟨h1, h2⟩, ⟨h3, h4⟩, ⟨h5, h6⟩, rfl⟩

/-- Non-trivial instance: a valid cylinder and values within the requested intervals. -/
example : ∃ c, Cylinder.axisAligned 2 5 1 = .val c ∧ ValidCylinder c ∧
    Drawn (makeCylinderPointSampler c).angle 1 ∧ Drawn (makeCylinderPointSampler c).height 5 ∧
    Drawn (makeCylinderPointSampler c).radiusSquared 4 := by
  obtain ⟨c, h1, h2, _, _, h3, h4⟩ := C14_axis_aligned 2 5 1 (by norm_num) (by norm_num)
  refine ⟨c, h1, h2, ⟨by show (0 : ℝ) ≤ 1; norm_num, ?_⟩, ⟨?_, ?_⟩, ⟨?_, ?_⟩⟩
  · show (1 : ℝ) ≤ 2 * Real.pi
    linarith [Real.two_le_pi]
  · show (0 : ℝ) ≤ 5; norm_num
  · show (5 : ℝ) ≤ c.height; rw [h4]
  · show (0 : ℝ) ≤ 4; norm_num
  · show (4 : ℝ) ≤ c.radius * c.radius; rw [h3]; norm_num

end Props
