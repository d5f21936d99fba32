import Verif.Props.Cylinder

/-!
# Hollow cylinders and the Python point samplers (C15, C16)
-/

namespace Props
open Verif Frackit

/-! ## C15 Hollow cylinder is the shell between two cylinders -/

/-- Construction of a circle for any radius. -/
theorem circle_frame (c n : V3) (r : ℝ) (hn : Spec.IsUnit n) :
    ∃ u v, (∀ c r, Circle.make c n r = .val ⟨c, u, v, n, r, r⟩) ∧
      Circle.make c n r = .val ⟨c, u, v, n, r, r⟩ ∧ Spec.RightHandedOrthonormal u v n := by
  obtain ⟨e, he, hv, hc, hnn, _, _⟩ := C09_circle_valid c n 1 hn one_pos
  have key : ∀ c' r', Circle.make c' n r' = .val ⟨c', e.major, e.minor, n, r', r'⟩ := by
    intro c' r'
    unfold Circle.make at he ⊢
    obtain ⟨b, hb, he⟩ := Outcome.bind_eq_val.1 he
    obtain ⟨s, hs, he⟩ := Outcome.bind_eq_val.1 he
    unfold Elliptical.make at he ⊢
    obtain ⟨m, hm, he⟩ := Outcome.bind_eq_val.1 he
    simp only [Outcome.pure_eq, Outcome.val.injEq] at he
    subst he
    simp only at hnn
    subst hnn
    simp [hb, hs, hm]
  refine ⟨e.major, e.minor, key, key c r, ?_⟩
  have := hv.frame
  rwa [hnn] at this

/-- A hollow cylinder as produced by the constructor. -/
structure ValidHollow (c : HollowCylinder) (center axis : V3) (r1 r2 h : ℝ) : Prop where
  axis_unit : Spec.IsUnit axis
  bottom : Circle.make center axis r1 = .val c.bottomInner
  bottom_center : c.bottomInner.center = center
  bottom_normal : c.bottomInner.normal = axis
  top_center : c.topInner.center = center + h • axis
  inner : c.innerRadius = r1
  outer : c.outerRadius = r2
  height : c.height = h

/-- Construction throws exactly if the outer radius is below the inner radius; otherwise the hollow
cylinder has the given data. -/
theorem C15_construction (center axis : V3) (r1 r2 h : ℝ) (ha : Spec.IsUnit axis) :
    (r2 < r1 → (HollowCylinder.make center axis r1 r2 h).isThrown) ∧
    (r1 ≤ r2 → ∃ c, HollowCylinder.make center axis r1 r2 h = .val c ∧
      ValidHollow c center axis r1 r2 h) := by
  obtain ⟨u, v, hm, hb, hf⟩ := circle_frame center axis r1 ha
  constructor
  · intro hlt
    unfold HollowCylinder.make
    rw [hm, hm]
    simp only [Outcome.val_bind]
    rw [if_pos hlt]; trivial
  · intro hle
    refine ⟨⟨⟨center, u, v, axis, r1, r1⟩, ⟨center + h • axis, u, v, axis, r1, r1⟩, r2, h⟩, ?_,
      ⟨ha, hb, rfl, rfl, rfl, rfl, rfl, rfl⟩⟩
    unfold HollowCylinder.make
    rw [hm, hm]
    simp only [Outcome.val_bind]
    rw [if_neg (not_lt.2 hle)]; rfl

/-- The constructor without axis uses the z-axis through the origin. -/
theorem C15_axis_aligned (r1 r2 h : ℝ) (hr : r1 ≤ r2) :
    ∃ c, HollowCylinder.axisAligned r1 r2 h = .val c ∧
      ValidHollow c ⟨0, 0, 0⟩ ⟨0, 0, 1⟩ r1 r2 h := by
  have hu : Spec.IsUnit ⟨0, 0, 1⟩ := by norm_num [Spec.IsUnit]
  obtain ⟨c, hc, hv⟩ := (C15_construction ⟨0, 0, 0⟩ ⟨0, 0, 1⟩ r1 r2 h hu).2 hr
  refine ⟨c, ?_, hv⟩
  unfold HollowCylinder.axisAligned
  rw [mkDirection_of_unit hu]
  exact hc

/-- The full cylinder has the outer radius, the height and the axis of the hollow cylinder, and the
volume of the hollow cylinder is the volume of the full cylinder minus the one of the inner
cylinder. -/
theorem C15_volume (c : HollowCylinder) (center axis : V3) (r1 r2 h : ℝ)
    (hv : ValidHollow c center axis r1 r2 h) (hr2 : 0 < r2) (hh : 0 < h) :
    ∃ full, c.fullCylinder = .val full ∧ ValidCylinder full ∧ full.bottom.center = center ∧
      full.bottom.normal = axis ∧ full.radius = r2 ∧ full.height = h ∧
      c.volume = full.volume - Real.pi * r1 ^ 2 * h := by
  obtain ⟨k, hk, hkv, hkc, hkn, hkm, _⟩ := C09_circle_valid center axis r2 hv.axis_unit hr2
  obtain ⟨full, hf, hfv, f1, f2, f3, f4⟩ := (C14_construction k h hkv hh).2.2
  refine ⟨full, ?_, hfv, by rw [f1, hkc], by rw [f2, hkn], by rw [f3, hkm], f4, ?_⟩
  · unfold HollowCylinder.fullCylinder
    rw [hv.bottom_center, hv.bottom_normal, hv.outer, hv.height, hk]
    exact hf
  · unfold HollowCylinder.volume Cylinder.volume
    rw [f3, f4, hkm, hv.inner, hv.outer, hv.height]; ring

/-- `contains(p, eps)` is true exactly if the foot of the point on the axis is on the axis segment up
to the tolerance and the squared distance to the axis is between the squared radii up to the squared
tolerance. -/
theorem C15_contains_iff (c : HollowCylinder) (center axis p : V3) (r1 r2 h eps : ℝ)
    (hv : ValidHollow c center axis r1 r2 h) (hh : 0 < h) (he : 0 < eps) :
    c.contains p eps ↔
      -eps < Spec.axial center axis p ∧ Spec.axial center axis p < h + eps ∧
      r1 ^ 2 - eps ^ 2 ≤ Spec.radial center axis p ^ 2 ∧
      Spec.radial center axis p ^ 2 ≤ r2 ^ 2 + eps ^ 2 := by
  unfold HollowCylinder.contains HollowCylinder.centerSegment
  rw [hv.top_center, hv.bottom_center, (center_line _ _ _ hv.axis_unit hh).1]
  simp only [holdsIfVal, Line.projection, ge_iff_le]
  rw [foot_contained _ _ _ _ _ hv.axis_unit hh he, radial_sq, and_assoc, hv.inner, hv.outer, pow_two,
    pow_two, pow_two, and_comm (a := (p - _).sqLen ≤ _)]

/-- The points contained for every positive tolerance are exactly the points of the shell. -/
theorem C15_contains_shell (c : HollowCylinder) (center axis p : V3) (r1 r2 h : ℝ)
    (hv : ValidHollow c center axis r1 r2 h) (hh : 0 < h) (hr1 : 0 ≤ r1) (hr : r1 ≤ r2) :
    (∀ eps, 0 < eps → c.contains p eps) ↔ Spec.InShell center axis r1 r2 h p := by
  set a := Spec.axial center axis p with ha
  set r := Spec.radial center axis p with hrr
  have r0 : 0 ≤ r := radial_nonneg _ _ _
  constructor
  · intro hp
    have key := fun eps (he : 0 < eps) =>
      (C15_contains_iff c center axis p r1 r2 h eps hv hh he).1 (hp eps he)
    rw [← ha, ← hrr] at key
    refine ⟨?_, ?_, ?_, ?_⟩
    · by_contra hn
      push Not at hn
      have := (key (-a) (by linarith)).1
      linarith
    · by_contra hn
      push Not at hn
      have := (key (a - h) (by linarith)).2.1
      linarith
    · by_contra hn
      push Not at hn
      have hq : 0 < (r1 ^ 2 - r ^ 2) / 2 := by
        have := pow_lt_pow_left₀ hn r0 two_ne_zero
        linarith
      have := (key _ (Real.sqrt_pos.2 hq)).2.2.1
      rw [Real.sq_sqrt hq.le] at this
      linarith
    · by_contra hn
      push Not at hn
      have hq : 0 < (r ^ 2 - r2 ^ 2) / 2 := by
        have := pow_lt_pow_left₀ hn (by linarith) two_ne_zero
        linarith
      have := (key _ (Real.sqrt_pos.2 hq)).2.2.2
      rw [Real.sq_sqrt hq.le] at this
      linarith
  · rintro ⟨h1, h2, h3, h4⟩ eps he
    rw [C15_contains_iff c center axis p r1 r2 h eps hv hh he]
    have k1 := pow_le_pow_left₀ hr1 h3 2
    have k2 := pow_le_pow_left₀ r0 h4 2
    refine ⟨by linarith, by linarith, ?_, ?_⟩ <;> nlinarith [sq_nonneg eps]

/-- Every point of the C++ point sampler created for a hollow cylinder is in the shell, for all values
within the requested intervals, and is contained for every positive and for the default tolerance. -/
theorem C15_sampler_in_shell (c : HollowCylinder) (center axis : V3) (r1 r2 h phi z q : ℝ)
    (hv : ValidHollow c center axis r1 r2 h) (hh : 0 < h) (hr1 : 0 ≤ r1) (hr : r1 ≤ r2)
    (hr2 : 0 < r2) :
    ∃ s, makeHollowCylinderPointSampler c = .val s ∧
      (Drawn s.angle phi → Drawn s.height z → Drawn s.radiusSquared q →
        ∃ p, s.sample phi z q = .val p ∧ Spec.InShell center axis r1 r2 h p ∧
          (∀ eps, 0 < eps → c.contains p eps) ∧ c.containsDefault p) := by
  obtain ⟨full, hf, hfv, f1, f2, f3, f4, _⟩ := C15_volume c center axis r1 r2 h hv hr2 hh
  refine ⟨⟨full.bottom, ⟨r1 * r1, r2 * r2⟩, ⟨0, 2 * Real.pi⟩, ⟨0, h⟩⟩, ?_, ?_⟩
  · unfold makeHollowCylinderPointSampler
    rw [hf, hv.inner, hv.outer]
    simp [f4]
  · intro _ hz hq
    have q1 : r1 * r1 ≤ q := hq.1
    have q2 : q ≤ r2 * r2 := hq.2
    have q0 : 0 ≤ q := le_trans (mul_self_nonneg r1) q1
    obtain ⟨k1, k2⟩ := sample_coords hfv.bottom.frame phi z q q0
    rw [f1, f2] at k1 k2
    have hin : Spec.InShell center axis r1 r2 h
      (full.bottom.center + (Real.sqrt q * Real.cos phi) • full.bottom.major
      + (Real.sqrt q * Real.sin phi) • full.bottom.minor + z • full.bottom.normal) := by
      rw [f1, f2]
      refine ⟨by rw [k1]; exact hz.1, by rw [k1]; exact hz.2, ?_, ?_⟩
      · rw [k2]; exact Real.le_sqrt_of_sq_le (by rw [pow_two]; exact q1)
      · rw [k2]; exact Real.sqrt_le_iff.2 ⟨hr2.le, by rw [pow_two]; exact q2⟩
    have hall := (C15_contains_shell c center axis _ r1 r2 h hv hh hr1 hr).2 hin
    refine ⟨_, ?_, hin, hall, hall _ ?_⟩
    · unfold CylinderPointSampler.sample
      rw [if_neg (not_lt.2 q0)]
    · rw [hv.outer, hv.height]
      have := confusion_pos
      positivity

/-- Non-trivial instance. -/
example : ∃ c, HollowCylinder.axisAligned 1 2 3 = .val c ∧ ValidHollow c ⟨0, 0, 0⟩ ⟨0, 0, 1⟩ 1 2 3 :=
  C15_axis_aligned 1 2 3 (by norm_num)

/-! ## C16 Python point samplers stay in the domain -/

/-- Full claim for cylinders: every point of the Python sampler is in the cylinder. -/
def C16_cylinder_full : Prop :=
  ∀ (c : Cylinder) (s : CylinderPointSampler) (phi z q : ℝ), ValidCylinder c →
    pyMakePointSampler (.cylinder c) = .val (.cylinder s) →
    Drawn s.angle phi → Drawn s.height z → Drawn s.radiusSquared q →
    ∃ p, s.sample phi z q = .val p ∧
      Spec.InCylinder c.bottom.center c.bottom.normal c.radius c.height p

/-- The claim fails for radii below one: radius `1/4` and a drawn value of `1/4` for the squared
radius give a point at distance `1/2` of the axis. -/
theorem C16_cylinder_disproof : ¬ C16_cylinder_full := by
  intro H
  obtain ⟨c, _, hv, _, _, hr, hh⟩ := C14_axis_aligned (1 / 4) 1 0 (by norm_num) one_pos
  have hpi := Real.pi_pos
  obtain ⟨p, hp, hin⟩ := H c _ 0 0 (1 / 4) hv rfl
    ⟨le_rfl, by show (0 : ℝ) ≤ 2 * Real.pi; positivity⟩
    ⟨le_rfl, by show (0 : ℝ) ≤ c.height; rw [hh]; norm_num⟩
    ⟨by show (0 : ℝ) ≤ 1 / 4; norm_num, by show (1 / 4 : ℝ) ≤ c.radius; rw [hr]⟩
  obtain ⟨_, k2⟩ := sample_coords hv.bottom.frame 0 0 (1 / 4) (by norm_num)
  unfold CylinderPointSampler.sample at hp
  rw [if_neg (by norm_num)] at hp
  simp only [Outcome.val.injEq] at hp
  rw [← hp] at hin
  have h3 := hin.2.2
  rw [k2, hr] at h3
  rw [show (1 / 4 : ℝ) = (1 / 2) ^ 2 by norm_num, Real.sqrt_sq (by norm_num)] at h3
  norm_num at h3

/-- Full claim for hollow cylinders. -/
def C16_hollow_full : Prop :=
  ∀ (c : HollowCylinder) (center axis : V3) (r1 r2 h : ℝ) (s : CylinderPointSampler)
    (phi z q : ℝ), ValidHollow c center axis r1 r2 h → 0 < r1 → r1 ≤ r2 → 0 < h →
    pyMakePointSampler (.hollowCylinder c) = .val (.cylinder s) →
    Drawn s.angle phi → Drawn s.height z → Drawn s.radiusSquared q →
    ∃ p, s.sample phi z q = .val p ∧ Spec.InShell center axis r1 r2 h p

/-- The Python sampler of a hollow cylinder. -/
theorem py_hollow (c : HollowCylinder) (center axis : V3) (r1 r2 h : ℝ)
    (hv : ValidHollow c center axis r1 r2 h) (hr2 : 0 < r2) (hh : 0 < h) :
    ∃ full, c.fullCylinder = .val full ∧ ValidCylinder full ∧ full.bottom.center = center ∧
      full.bottom.normal = axis ∧ pyMakePointSampler (.hollowCylinder c)
        = .val (.cylinder ⟨full.bottom, ⟨r1, r2⟩, ⟨0, 2 * Real.pi⟩, ⟨0, h⟩⟩) := by
  obtain ⟨full, hf, hfv, f1, f2, f3, f4, _⟩ := C15_volume c center axis r1 r2 h hv hr2 hh
  refine ⟨full, hf, hfv, f1, f2, ?_⟩
  simp only [pyMakePointSampler]
  rw [hf, hv.inner, hv.outer, hv.height]
  rfl

/-- The claim fails for hollow cylinders too: with the radii `4` and `5`, no value within the requested
interval gives a point of the shell, since the distances to the axis are at most `√5 < 4`. -/
theorem C16_hollow_disproof : ¬ C16_hollow_full := by
  intro H
  obtain ⟨c, _, hv⟩ := C15_axis_aligned 4 5 1 (by norm_num)
  have hpi := Real.pi_pos
  obtain ⟨full, _, hfv, f1, f2, hs⟩ := py_hollow c _ _ 4 5 1 hv (by norm_num) (by norm_num)
  obtain ⟨p, hp, hin⟩ := H c _ _ 4 5 1 _ 0 0 4 hv (by norm_num) (by norm_num) (by norm_num) hs
    ⟨le_rfl, by show (0 : ℝ) ≤ 2 * Real.pi; positivity⟩
    ⟨le_rfl, by show (0 : ℝ) ≤ 1; norm_num⟩
    ⟨le_rfl, by show (4 : ℝ) ≤ 5; norm_num⟩
  obtain ⟨_, k2⟩ := sample_coords hfv.bottom.frame 0 0 4 (by norm_num)
  unfold CylinderPointSampler.sample at hp
  rw [if_neg (by norm_num)] at hp
  simp only [Outcome.val.injEq] at hp
  rw [← hp] at hin
  have h3 := hin.2.2.1
  rw [f1, f2] at k2 h3
  rw [k2] at h3
  rw [show (4 : ℝ) = 2 ^ 2 by norm_num, Real.sqrt_sq (by norm_num)] at h3
  norm_num at h3

/-- What does hold for cylinders: the points are at distance at most `√radius` of the axis, so they
are in the cylinder for radii of at least one (missing: radii below one; see
`C16_cylinder_disproof`). -/
theorem C16_cylinder_partial (c : Cylinder) (s : CylinderPointSampler) (phi z q : ℝ)
    (h : ValidCylinder c) (hs : pyMakePointSampler (.cylinder c) = .val (.cylinder s))
    (hr : 1 ≤ c.radius) (hphi : Drawn s.angle phi) (hz : Drawn s.height z)
    (hq : Drawn s.radiusSquared q) :
    ∃ p, s.sample phi z q = .val p ∧
      Spec.InCylinder c.bottom.center c.bottom.normal c.radius c.height p ∧
      Spec.radial c.bottom.center c.bottom.normal p ≤ Real.sqrt c.radius := by
  cases hs
  have q0 : 0 ≤ q := hq.1
  have q1 : q ≤ c.radius := hq.2
  obtain ⟨k1, k2⟩ := sample_coords h.bottom.frame phi z q q0
  refine ⟨_, by unfold CylinderPointSampler.sample; rw [if_neg (not_lt.2 q0)],
    ⟨by rw [k1]; exact hz.1, by rw [k1]; exact hz.2, ?_⟩, ?_⟩
  · rw [k2]
    refine Real.sqrt_le_iff.2 ⟨by linarith, ?_⟩
    nlinarith
  · rw [k2]; exact Real.sqrt_le_sqrt q1

/-- What does hold for hollow cylinders: the points are in the shell if the inner radius is at most
and the outer radius at least one (missing: all other radii; see `C16_hollow_disproof`). -/
theorem C16_hollow_partial (c : HollowCylinder) (center axis : V3) (r1 r2 h : ℝ)
    (s : CylinderPointSampler) (phi z q : ℝ) (hv : ValidHollow c center axis r1 r2 h)
    (h0 : 0 ≤ r1) (h1 : r1 ≤ 1) (h2 : 1 ≤ r2) (hh : 0 < h)
    (hs : pyMakePointSampler (.hollowCylinder c) = .val (.cylinder s))
    (hphi : Drawn s.angle phi) (hz : Drawn s.height z) (hq : Drawn s.radiusSquared q) :
    ∃ p, s.sample phi z q = .val p ∧ Spec.InShell center axis r1 r2 h p := by
  obtain ⟨full, _, hfv, f1, f2, hs'⟩ := py_hollow c _ _ r1 r2 h hv (by linarith) hh
  rw [hs'] at hs
  cases hs
  have q1 : r1 ≤ q := hq.1
  have q2 : q ≤ r2 := hq.2
  have q0 : 0 ≤ q := h0.trans q1
  obtain ⟨k1, k2⟩ := sample_coords hfv.bottom.frame phi z q q0
  refine ⟨_, by unfold CylinderPointSampler.sample; rw [if_neg (not_lt.2 q0)], ?_⟩
  show Spec.InShell center axis r1 r2 h (full.bottom.center
    + (Real.sqrt q * Real.cos phi) • full.bottom.major
    + (Real.sqrt q * Real.sin phi) • full.bottom.minor + z • full.bottom.normal)
  rw [← f1, ← f2]
  refine ⟨by rw [k1]; exact hz.1, by rw [k1]; exact hz.2, ?_, ?_⟩
  · rw [k2]; exact Real.le_sqrt_of_sq_le (by nlinarith)
  · rw [k2]; exact Real.sqrt_le_iff.2 ⟨by linarith, by nlinarith⟩

/-- For boxes the Python sampler is correct, and geometries of other names are rejected. -/
theorem C16_box_and_other :
    (∀ b, pyMakePointSampler (.box b) = .val (.box (makeBoxPointSampler b))) ∧
    (∀ name, (pyMakePointSampler (.other name)).isThrown) :=
  ⟨fun _ => rfl, fun _ => trivial⟩

/-- Non-trivial instance of the hypotheses of the partial theorems. -/
example : ∃ c s, Cylinder.axisAligned 2 5 1 = .val c ∧ ValidCylinder c ∧ 1 ≤ c.radius ∧
    pyMakePointSampler (.cylinder c) = .val (.cylinder s) ∧ Drawn s.radiusSquared 2 := by
  obtain ⟨c, h1, h2, _, _, h3, h4⟩ := C14_axis_aligned 2 5 1 (by norm_num) (by norm_num)
  exact ⟨c, _, h1, h2, by rw [h3]; norm_num, rfl, by show (0 : ℝ) ≤ 2; norm_num,
    by show (2 : ℝ) ≤ c.radius; rw [h3]⟩

end Props
