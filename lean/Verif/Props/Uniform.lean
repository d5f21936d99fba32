import Verif.Spec.Chance
import Verif.Lemmas.Measure
import Verif.Lemmas.PolarMeasure
import Verif.Props.HollowCylinder

/-!
# C91 Points of the uniform samplers are uniformly distributed

`std::uniform_real_distribution` is taken to be the uniform distribution on the interval it is
constructed with, and successive draws to be independent.
-/

namespace Props
open Verif Frackit Lemmas MeasureTheory

/-- Probability that the sampled point is in `S`, for uniform distributions on the intervals of the
sampler. -/
noncomputable def sampleChance (s : CylinderPointSampler) (S : V3 → Prop) : ENNReal :=
  Spec.drawChance ![s.angle.lo, s.height.lo, s.radiusSquared.lo] ![s.angle.hi, s.height.hi, s.radiusSquared.hi]
    (fun phi h r2 => ∃ p, s.sample phi h r2 = .val p ∧ S p)

/-- The same for the sampler of points in boxes. -/
noncomputable def boxSampleChance (s : BoxPointSampler) (S : V3 → Prop) : ENNReal :=
  Spec.drawChance ![s.x.lo, s.y.lo, s.z.lo] ![s.x.hi, s.y.hi, s.z.hi] (fun x y z => S (s.sample x y z))

theorem measurable_frame {S : V3 → Prop} (hS : Spec.Measurable S) (c u v n : V3) :
    MeasurableSet {w : Fin 3 → ℝ | S (c + w 0 • u + w 1 • v + w 2 • n)} := by
  have hm : Measurable fun w : Fin 3 → ℝ => (![(c + w 0 • u + w 1 • v + w 2 • n).x,
      (c + w 0 • u + w 1 • v + w 2 • n).y, (c + w 0 • u + w 1 • v + w 2 • n).z] : Fin 3 → ℝ) := by
    refine measurable_pi_iff.2 fun i => ?_
    fin_cases i <;> simp <;> fun_prop
  exact hm hS

theorem measurable_cylinder (c n : V3) (r h : ℝ) : Spec.Measurable (Spec.InCylinder c n r h) := by
  have ha : Measurable fun w : Fin 3 → ℝ => Spec.axial c n ⟨w 0, w 1, w 2⟩ := by
    simp only [Spec.axial]; fun_prop
  have hr : Measurable fun w : Fin 3 → ℝ => Spec.radial c n ⟨w 0, w 1, w 2⟩ := by
    simp only [Spec.radial, Spec.dist]; fun_prop
  exact (measurableSet_le measurable_const ha).inter
    ((measurableSet_le ha measurable_const).inter (measurableSet_le hr measurable_const))

theorem draw_iff (lo hi w : Fin 3 → ℝ) : (∀ i, lo i ≤ w i ∧ w i ≤ hi i) ↔
    (lo 0 ≤ w 0 ∧ w 0 ≤ hi 0) ∧ (lo 1 ≤ w 1 ∧ w 1 ≤ hi 1) ∧ (lo 2 ≤ w 2 ∧ w 2 ≤ hi 2) := by
  constructor
  · intro h; exact ⟨h 0, h 1, h 2⟩
  · rintro ⟨h0, h1, h2⟩ i
    fin_cases i
    · exact h0
    · exact h1
    · exact h2

/-- For full circles of angles the sampled points are uniformly distributed in the set of points whose
height and squared radius are in the intervals of the sampler. -/
theorem sampler_uniform (s : CylinderPointSampler) (S D : V3 → Prop) (hS : Spec.Measurable S)
    (hf : Spec.RightHandedOrthonormal s.bottom.major s.bottom.minor s.bottom.normal)
    (hang : s.angle = ⟨0, 2 * Real.pi⟩) (hlo : s.height.lo = 0) (hr : 0 ≤ s.radiusSquared.lo)
    (hD : ∀ p, D p ↔ (0 ≤ Spec.axial s.bottom.center s.bottom.normal p ∧
      Spec.axial s.bottom.center s.bottom.normal p ≤ s.height.hi) ∧
      (s.radiusSquared.lo ≤ Spec.radial s.bottom.center s.bottom.normal p ^ 2 ∧
      Spec.radial s.bottom.center s.bottom.normal p ^ 2 ≤ s.radiusSquared.hi)) :
    sampleChance s S = Spec.uniformChance D S := by
  set c := s.bottom.center
  set u := s.bottom.major
  set v := s.bottom.minor
  set n := s.bottom.normal
  have hvol : ∀ T : V3 → Prop, Spec.Measurable T →
      MeasureTheory.volume {w : Fin 3 → ℝ | (0 ≤ w 0 ∧ w 0 ≤ 2 * Real.pi) ∧ (0 ≤ w 1 ∧ w 1 ≤ s.height.hi) ∧
        (s.radiusSquared.lo ≤ w 2 ∧ w 2 ≤ s.radiusSquared.hi) ∧
        ∃ p, s.sample (w 0) (w 1) (w 2) = .val p ∧ T p} = 2 * Spec.volume (fun p => D p ∧ T p) := by
    intro T hT
    have h := volume_polar {w : Fin 3 → ℝ | T (c + w 0 • u + w 1 • v + w 2 • n)}
      (measurable_frame hT c u v n) s.radiusSquared.lo s.radiusSquared.hi s.height.hi hr
    rw [volume_frame _ c u v n hf]
    have e1 : {w : Fin 3 → ℝ | (0 ≤ w 0 ∧ w 0 ≤ 2 * Real.pi) ∧ (0 ≤ w 1 ∧ w 1 ≤ s.height.hi) ∧
        (s.radiusSquared.lo ≤ w 2 ∧ w 2 ≤ s.radiusSquared.hi) ∧
        ∃ p, s.sample (w 0) (w 1) (w 2) = .val p ∧ T p}
        = {w : Fin 3 → ℝ | (0 ≤ w 0 ∧ w 0 ≤ 2 * Real.pi) ∧ (0 ≤ w 1 ∧ w 1 ≤ s.height.hi) ∧
        (s.radiusSquared.lo ≤ w 2 ∧ w 2 ≤ s.radiusSquared.hi) ∧
        polarMap w ∈ {w : Fin 3 → ℝ | T (c + w 0 • u + w 1 • v + w 2 • n)}} := by
      ext w
      simp only [Set.mem_ofPred_eq]
      refine and_congr_right fun _ => and_congr_right fun _ => and_congr_right fun h2 => ?_
      unfold CylinderPointSampler.sample
      rw [if_neg (not_lt.2 (hr.trans h2.1))]
      simp only [Outcome.val.injEq, exists_eq_left', polarMap, Matrix.cons_val_zero, Matrix.cons_val_one,
        Matrix.cons_val]
      rfl
    have e2 : {w : Fin 3 → ℝ | D (c + w 0 • u + w 1 • v + w 2 • n) ∧ T (c + w 0 • u + w 1 • v + w 2 • n)}
        = {v' : Fin 3 → ℝ | (0 ≤ v' 2 ∧ v' 2 ≤ s.height.hi) ∧
        (s.radiusSquared.lo ≤ v' 0 ^ 2 + v' 1 ^ 2 ∧ v' 0 ^ 2 + v' 1 ^ 2 ≤ s.radiusSquared.hi) ∧
        v' ∈ {w : Fin 3 → ℝ | T (c + w 0 • u + w 1 • v + w 2 • n)}} := by
      ext w
      obtain ⟨h1, h2⟩ := frame_coords (c := c) hf (w 0) (w 1) (w 2)
      simp only [Set.mem_ofPred_eq]
      rw [hD, h1, h2, Real.sq_sqrt (by positivity), and_assoc]
    rw [e1, e2]
    exact h
  have hT : Spec.Measurable fun _ => True := by
    unfold Spec.Measurable; simp
  have h1 := hvol S hS
  have h2 := hvol (fun _ => True) hT
  simp only [and_true] at h2
  unfold sampleChance Spec.drawChance Spec.uniformChance
  have e1 : {w : Fin 3 → ℝ | (∀ i, (![s.angle.lo, s.height.lo, s.radiusSquared.lo] : Fin 3 → ℝ) i ≤ w i ∧
      w i ≤ (![s.angle.hi, s.height.hi, s.radiusSquared.hi] : Fin 3 → ℝ) i) ∧
      ∃ p, s.sample (w 0) (w 1) (w 2) = .val p ∧ S p}
      = {w : Fin 3 → ℝ | (0 ≤ w 0 ∧ w 0 ≤ 2 * Real.pi) ∧ (0 ≤ w 1 ∧ w 1 ≤ s.height.hi) ∧
        (s.radiusSquared.lo ≤ w 2 ∧ w 2 ≤ s.radiusSquared.hi) ∧
        ∃ p, s.sample (w 0) (w 1) (w 2) = .val p ∧ S p} := by
    ext w
    simp only [Set.mem_ofPred_eq, draw_iff, Matrix.cons_val_zero, Matrix.cons_val_one, Matrix.cons_val,
      hang, hlo, and_assoc]
  have e2 : {w : Fin 3 → ℝ | ∀ i, (![s.angle.lo, s.height.lo, s.radiusSquared.lo] : Fin 3 → ℝ) i ≤ w i ∧
      w i ≤ (![s.angle.hi, s.height.hi, s.radiusSquared.hi] : Fin 3 → ℝ) i}
      = {w : Fin 3 → ℝ | (0 ≤ w 0 ∧ w 0 ≤ 2 * Real.pi) ∧ (0 ≤ w 1 ∧ w 1 ≤ s.height.hi) ∧
        (s.radiusSquared.lo ≤ w 2 ∧ w 2 ≤ s.radiusSquared.hi) ∧
        ∃ p, s.sample (w 0) (w 1) (w 2) = .val p} := by
    ext w
    simp only [Set.mem_ofPred_eq, draw_iff, Matrix.cons_val_zero, Matrix.cons_val_one, Matrix.cons_val,
      hang, hlo]
    refine and_congr_right fun _ => and_congr_right fun _ => ?_
    constructor
    · intro h
      refine ⟨h, ?_⟩
      unfold CylinderPointSampler.sample
      rw [if_neg (not_lt.2 (hr.trans h.1))]
      exact ⟨_, rfl⟩
    · exact fun h => h.1
  rw [e1, e2, h1, h2]
  exact ENNReal.mul_div_mul_left _ _ (by norm_num) (by norm_num)

/-- Cylinders of any orientation: the sampled points are uniformly distributed in the cylinder. -/
theorem C91_cylinder (c : Cylinder) (h : ValidCylinder c) (S : V3 → Prop) (hS : Spec.Measurable S) :
    sampleChance (makeCylinderPointSampler c) S
      = Spec.uniformChance (Spec.InCylinder c.bottom.center c.bottom.normal c.radius c.height) S := by
  have hr : 0 < c.radius := h.bottom.maj_pos
  refine sampler_uniform (makeCylinderPointSampler c) S _ hS h.bottom.frame rfl rfl le_rfl ?_
  intro p
  show _ ↔ (0 ≤ Spec.axial c.bottom.center c.bottom.normal p ∧
    Spec.axial c.bottom.center c.bottom.normal p ≤ c.height) ∧
    (0 ≤ Spec.radial c.bottom.center c.bottom.normal p ^ 2 ∧
      Spec.radial c.bottom.center c.bottom.normal p ^ 2 ≤ c.radius * c.radius)
  unfold Spec.InCylinder
  rw [← pow_two c.radius, pow_le_pow_iff_left₀ (radial_nonneg _ _ _) hr.le two_ne_zero, and_assoc,
    and_iff_right (sq_nonneg (Spec.radial _ _ _))]

/-- Hollow cylinders of any orientation. -/
theorem C91_hollow_cylinder (c : HollowCylinder) (center axis : V3) (r1 r2 h : ℝ)
    (hv : ValidHollow c center axis r1 r2 h) (h1 : 0 ≤ r1) (hr2 : 0 < r2) (hh : 0 < h)
    (S : V3 → Prop) (hS : Spec.Measurable S) :
    ∃ s, makeHollowCylinderPointSampler c = .val s ∧
      sampleChance s S = Spec.uniformChance (Spec.InShell center axis r1 r2 h) S := by
  obtain ⟨full, hfull, hfv, f1, f2, f3, f4, _⟩ := C15_volume c center axis r1 r2 h hv hr2 hh
  refine ⟨⟨full.bottom, ⟨r1 * r1, r2 * r2⟩, ⟨0, 2 * Real.pi⟩, ⟨0, h⟩⟩, ?_, ?_⟩
  · unfold makeHollowCylinderPointSampler
    simp only [hfull, Outcome.val_bind, hv.inner, hv.outer, f4]
    rfl
  · refine sampler_uniform _ S _ hS hfv.bottom.frame rfl rfl (mul_self_nonneg r1) ?_
    intro p
    show _ ↔ (0 ≤ Spec.axial full.bottom.center full.bottom.normal p ∧
      Spec.axial full.bottom.center full.bottom.normal p ≤ h) ∧
      (r1 * r1 ≤ Spec.radial full.bottom.center full.bottom.normal p ^ 2 ∧
        Spec.radial full.bottom.center full.bottom.normal p ^ 2 ≤ r2 * r2)
    rw [f1, f2]
    unfold Spec.InShell
    rw [← pow_two r1, ← pow_two r2, pow_le_pow_iff_left₀ (radial_nonneg _ _ _) hr2.le two_ne_zero,
      pow_le_pow_iff_left₀ h1 (radial_nonneg _ _ _) two_ne_zero, and_assoc]

/-- Boxes. -/
theorem C91_box (b : Box) (S : V3 → Prop) :
    boxSampleChance (makeBoxPointSampler b) S
      = Spec.uniformChance (Spec.InBox (Box.lo b) (Box.hi b)) S := by
  have hd : ∀ w : Fin 3 → ℝ, (∀ i, (![b.xMin, b.yMin, b.zMin] : Fin 3 → ℝ) i ≤ w i ∧
      w i ≤ (![b.xMax, b.yMax, b.zMax] : Fin 3 → ℝ) i) ↔
      Spec.InBox (Box.lo b) (Box.hi b) ⟨w 0, w 1, w 2⟩ := by
    intro w
    rw [draw_iff]
    simp only [Matrix.cons_val_zero, Matrix.cons_val_one, Matrix.cons_val, Spec.InBox, Box.lo, Box.hi,
      and_assoc]
  unfold boxSampleChance Spec.drawChance Spec.uniformChance Spec.volume
  simp only [makeBoxPointSampler, hd]
  rfl

/-- The claim for the sampler created for a cylinder in Python. -/
def C91_python_full : Prop :=
  ∀ (c : Cylinder) (s : CylinderPointSampler) (S : V3 → Prop), ValidCylinder c → Spec.Measurable S →
    pyMakePointSampler (.cylinder c) = .val (.cylinder s) →
    sampleChance s S
      = Spec.uniformChance (Spec.InCylinder c.bottom.center c.bottom.normal c.radius c.height) S

/-- What holds in Python: the sampled points are uniformly distributed in a cylinder with the square
root of the radius in place of the radius (missing: the cylinder itself, unless the radius is one). -/
theorem C91_python_partial (c : Cylinder) (s : CylinderPointSampler) (S : V3 → Prop)
    (h : ValidCylinder c) (hS : Spec.Measurable S)
    (hs : pyMakePointSampler (.cylinder c) = .val (.cylinder s)) :
    sampleChance s S = Spec.uniformChance
      (Spec.InCylinder c.bottom.center c.bottom.normal (Real.sqrt c.radius) c.height) S := by
  cases hs
  have hr : 0 < c.radius := h.bottom.maj_pos
  refine sampler_uniform ⟨c.bottom, ⟨0, c.radius⟩, ⟨0, 2 * Real.pi⟩, ⟨0, c.height⟩⟩ S _ hS h.bottom.frame
    rfl rfl le_rfl ?_
  intro p
  show _ ↔ (0 ≤ Spec.axial c.bottom.center c.bottom.normal p ∧
    Spec.axial c.bottom.center c.bottom.normal p ≤ c.height) ∧
    (0 ≤ Spec.radial c.bottom.center c.bottom.normal p ^ 2 ∧
      Spec.radial c.bottom.center c.bottom.normal p ^ 2 ≤ c.radius)
  unfold Spec.InCylinder
  rw [Real.le_sqrt (radial_nonneg _ _ _) hr.le, and_assoc,
    and_iff_right (sq_nonneg (Spec.radial _ _ _))]

/-- The claim fails in Python: half of the points of a cylinder of radius four are further than
`2 √2` from the axis, but the sampled points are at most at distance two. -/
theorem C91_python_disproof : ¬ C91_python_full := by
  intro H
  obtain ⟨c, _, hv, hc0, hn0, hr, hh⟩ := C14_axis_aligned 4 1 0 (by norm_num) one_pos
  set S : V3 → Prop := Spec.InCylinder c.bottom.center c.bottom.normal 2 1 with hSdef
  have hmeas : Spec.Measurable S := measurable_cylinder _ _ _ _
  have h1 := H c _ S hv hmeas rfl
  have h2 := C91_python_partial c _ S hv hmeas rfl
  rw [h1, hr, hh] at h2
  have hsq : Real.sqrt 4 = 2 := by
    rw [show (4 : ℝ) = 2 ^ 2 by norm_num, Real.sqrt_sq (by norm_num)]
  rw [hsq] at h2
  unfold Spec.uniformChance at h2
  have e1 : (fun p => Spec.InCylinder c.bottom.center c.bottom.normal 4 1 p ∧ S p) = S := by
    funext p
    refine propext ⟨fun h => h.2, fun h => ⟨⟨h.1, h.2.1, h.2.2.trans (by norm_num)⟩, h⟩⟩
  have e2 : (fun p => Spec.InCylinder c.bottom.center c.bottom.normal 2 1 p ∧ S p) = S := by
    funext p; exact propext ⟨fun h => h.2, fun h => ⟨h, h⟩⟩
  rw [e1, e2, hSdef, volume_cylinder hv.bottom.frame 2 1 (by norm_num),
    volume_cylinder hv.bottom.frame 4 1 (by norm_num), ← ENNReal.ofReal_div_of_pos (by positivity),
    ← ENNReal.ofReal_div_of_pos (by positivity), ENNReal.ofReal_eq_ofReal_iff (by positivity) (by positivity)]
    at h2
  have hpi := Real.pi_pos
  field_simp at h2
  norm_num at h2

/-- The hypotheses hold for a cylinder, and the probability of its lower half is one half. -/
example : ∃ c, ValidCylinder c ∧ sampleChance (makeCylinderPointSampler c)
    (Spec.InCylinder c.bottom.center c.bottom.normal 1 1) = ENNReal.ofReal (1 / 2) := by
  obtain ⟨c, _, hv, hc0, hn0, hr, hh⟩ := C14_axis_aligned 1 2 0 (by norm_num) two_pos
  refine ⟨c, hv, ?_⟩
  rw [C91_cylinder c hv]
  · unfold Spec.uniformChance
    rw [hr, hh]
    have e1 : (fun p => Spec.InCylinder c.bottom.center c.bottom.normal 1 2 p ∧
        Spec.InCylinder c.bottom.center c.bottom.normal 1 1 p)
        = Spec.InCylinder c.bottom.center c.bottom.normal 1 1 := by
      funext p
      refine propext ⟨fun h => h.2, fun h => ⟨⟨h.1, h.2.1.trans (by norm_num), h.2.2⟩, h⟩⟩
    rw [e1, volume_cylinder hv.bottom.frame 1 1 (by norm_num),
      volume_cylinder hv.bottom.frame 1 2 (by norm_num), ← ENNReal.ofReal_div_of_pos (by positivity)]
    congr 1
    have hpi := Real.pi_pos
    field_simp
  · exact measurable_cylinder _ _ _ _

/-- The hypotheses hold for a hollow cylinder, for any solid cylinder as the set. -/
example : ∃ c s, ValidHollow c ⟨0, 0, 0⟩ ⟨0, 0, 1⟩ 1 2 3 ∧ makeHollowCylinderPointSampler c = .val s ∧
    sampleChance s (Spec.InCylinder ⟨1, 0, 0⟩ ⟨1, 0, 0⟩ 1 1)
      = Spec.uniformChance (Spec.InShell ⟨0, 0, 0⟩ ⟨0, 0, 1⟩ 1 2 3)
        (Spec.InCylinder ⟨1, 0, 0⟩ ⟨1, 0, 0⟩ 1 1) := by
  obtain ⟨c, _, hv⟩ := C15_axis_aligned 1 2 3 (by norm_num)
  obtain ⟨s, hs, h⟩ := C91_hollow_cylinder c _ _ 1 2 3 hv (by norm_num) (by norm_num)
    (by norm_num) _ (measurable_cylinder ⟨1, 0, 0⟩ ⟨1, 0, 0⟩ 1 1)
  exact ⟨c, s, hv, hs, h⟩

end Props
