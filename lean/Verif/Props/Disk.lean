import Verif.Props.EllipseArc

/-!
# Disks (C12)
-/

namespace Props
open Verif Frackit

/-! ## C12 Points produced from a disk are on the disk -/

/-- Full claim: the points produced from a disk are on the disk. -/
def C12_full : Prop :=
  ∀ (d : Elliptical) (a r : ℝ) (p : V3), ValidElliptical d → 0 ≤ a → a ≤ 1 → 0 ≤ r → r ≤ 1 →
    Disk.getPoint d a r = .val p →
    Spec.InDisk d.center d.major d.minor d.majLen d.minLen p

theorem boundingEllipse_val {d : Elliptical} (h : ValidElliptical d) :
    Disk.boundingEllipse d = .val d := by
  obtain ⟨u1, u2, u3, o1, o2, o3, hdet⟩ := h.frame
  have hcr : d.major.cross d.minor = d.normal := by
    have hn := (Spec.isUnit_iff _).1 u3
    have hc := (Spec.isUnit_iff _).1 (cross_unit u1 u2 o1)
    have hd : d.normal.dot (d.major.cross d.minor) = 1 := by
      rw [← hdet]; simp [Spec.det, V3.dot, V3.cross]; ring
    have z : (d.major.cross d.minor - d.normal).sqLen = 0 := by
      have : (d.major.cross d.minor - d.normal).sqLen
          = (d.major.cross d.minor).sqLen - 2 * d.normal.dot (d.major.cross d.minor)
            + d.normal.sqLen := by
        simp only [V3.sqLen, V3.dot, V3.sub_x, V3.sub_y, V3.sub_z]; ring
      rw [this, hn, hc, hd]; ring
    exact sub_eq_zero.1 (V3.sqLen_eq_zero.1 z)
  unfold Disk.boundingEllipse Elliptical.make
  rw [hcr, mkDirection_of_unit u3]
  rfl

/-- The point for the parameters `a` and `r` is the boundary point for `a`, moved away from the
centre by the factor `1 + r`; it is on the boundary for `r = 0` only (missing compared with the
claim: for every `r > 0` the point is outside of the disk, see `C12_outside`). -/
theorem C12_point_partial (d : Elliptical) (a r : ℝ) (h : ValidElliptical d) :
    Disk.getPoint d a r = .val (Spec.localPoint d.center d.major d.minor
      ((1 + r) * (d.majLen * Real.cos (2 * Real.pi * a)))
      ((1 + r) * (d.minLen * Real.sin (2 * Real.pi * a)))) ∧
    (r = 0 → ∃ p, Disk.getPoint d a r = .val p ∧
      Spec.OnEllipse d.center d.major d.minor d.majLen d.minLen p ∧ Disk.containsDefault d p) := by
  have hp : Disk.getPoint d a r = .val (Spec.localPoint d.center d.major d.minor
      ((1 + r) * (d.majLen * Real.cos (2 * Real.pi * a)))
      ((1 + r) * (d.minLen * Real.sin (2 * Real.pi * a)))) := by
    unfold Disk.getPoint
    rw [boundingEllipse_val h]
    simp only [Outcome.val_bind, Outcome.pure_eq, Outcome.val.injEq]
    unfold Ellipse.getPoint Ellipse.getPointFromAngle Spec.localPoint
    ext <;> simp <;> ring
  refine ⟨hp, ?_⟩
  rintro rfl
  refine ⟨_, hp, ?_, ?_⟩
  · rw [show Spec.localPoint d.center d.major d.minor
      ((1 + 0) * (d.majLen * Real.cos (2 * Real.pi * a)))
      ((1 + 0) * (d.minLen * Real.sin (2 * Real.pi * a))) = Ellipse.getPoint d a by
        unfold Ellipse.getPoint
        rw [point_eq_local]; congr 1 <;> ring]
    exact (C09_ellipse_points_on_curve d h a).2
  · obtain ⟨e1, e2, e3⟩ := local_coords h ((1 + 0) * (d.majLen * Real.cos (2 * Real.pi * a)))
      ((1 + 0) * (d.minLen * Real.sin (2 * Real.pi * a)))
    refine ⟨fun _ => ?_, ?_⟩
    · show |(_ - d.center).dot d.normal| < confusion
      rw [e3, abs_zero]; exact confusion_pos
    · simp only
      rw [e1, e2]
      have ha := h.maj_pos
      have hb := h.min_pos
      refine ⟨by positivity, by positivity, ?_⟩
      have hcs := Real.cos_sq_add_sin_sq (2 * Real.pi * a)
      have : ∀ x y : ℝ, (1 + 0) * (d.majLen * x) * ((1 + 0) * (d.majLen * x)) / (d.majLen * d.majLen)
          + (1 + 0) * (d.minLen * y) * ((1 + 0) * (d.minLen * y)) / (d.minLen * d.minLen)
          = x ^ 2 + y ^ 2 := by intro x y; field_simp; ring
      rw [this, hcs]
      nlinarith [sq_nonneg confusion]

theorem inDisk_iff {d : Elliptical} (h : ValidElliptical d) (x y : ℝ) :
    Spec.InDisk d.center d.major d.minor d.majLen d.minLen
      (Spec.localPoint d.center d.major d.minor x y) ↔
    (x / d.majLen) ^ 2 + (y / d.minLen) ^ 2 ≤ 1 := by
  constructor
  · rintro ⟨x', y', h1, h2⟩
    have q1 := (local_coords h x y).1
    have q2 := (local_coords h x y).2.1
    rw [h2] at q1 q2
    rw [(local_coords h x' y').1] at q1
    rw [(local_coords h x' y').2.1] at q2
    rw [← q1, ← q2]; exact h1
  · intro hxy
    exact ⟨x, y, hxy, rfl⟩

/-- For every disk, every angle and every positive radial parameter, the produced point is outside
of the disk. -/
theorem C12_outside (d : Elliptical) (a r : ℝ) (h : ValidElliptical d) (hr : 0 < r) :
    ∃ p, Disk.getPoint d a r = .val p ∧
      ¬ Spec.InDisk d.center d.major d.minor d.majLen d.minLen p := by
  refine ⟨_, (C12_point_partial d a r h).1, ?_⟩
  rw [inDisk_iff h]
  have ha := h.maj_pos
  have hb := h.min_pos
  have hcs := Real.cos_sq_add_sin_sq (2 * Real.pi * a)
  have : ∀ x y : ℝ, ((1 + r) * (d.majLen * x) / d.majLen) ^ 2
      + ((1 + r) * (d.minLen * y) / d.minLen) ^ 2 = (1 + r) ^ 2 * (x ^ 2 + y ^ 2) := by
    intro x y; field_simp
  rw [this, hcs]
  nlinarith

/-- The claim fails: on the unit disk, the parameters `(0, 1)` give `(2, 0, 0)`. -/
theorem C12_disproof : ¬ C12_full := by
  intro H
  obtain ⟨p, hp, hn⟩ := C12_outside unitCircle 0 1 unitCircle_valid (by norm_num)
  exact hn (H unitCircle 0 1 p unitCircle_valid le_rfl (by norm_num) (by norm_num) le_rfl hp)

/-- Points of the disk are contained for every positive tolerance. -/
theorem C12_disk_points_contained (d : Elliptical) (h : ValidElliptical d) (p : V3) (eps : ℝ)
    (check : Bool) (he : 0 < eps)
    (hp : Spec.InDisk d.center d.major d.minor d.majLen d.minLen p) :
    Disk.contains d p eps check := by
  obtain ⟨x, y, hxy, rfl⟩ := hp
  obtain ⟨e1, e2, e3⟩ := local_coords h x y
  have ha := h.maj_pos
  have hb := h.min_pos
  refine ⟨fun _ => ?_, ?_⟩
  · show |(_ - d.center).dot d.normal| < eps
    rw [e3, abs_zero]; exact he
  · simp only
    rw [e1, e2]
    refine ⟨by positivity, by positivity, ?_⟩
    have h1 : x * x / (d.majLen * d.majLen) = (x / d.majLen) ^ 2 := by field_simp
    have h2 : y * y / (d.minLen * d.minLen) = (y / d.minLen) ^ 2 := by field_simp
    rw [h1, h2]
    nlinarith

/-- A point contained for every positive tolerance is on the disk. -/
theorem C12_contained_in_disk (d : Elliptical) (h : ValidElliptical d) (p : V3)
    (hp : ∀ eps, 0 < eps → Disk.contains d p eps) :
    Spec.InDisk d.center d.major d.minor d.majLen d.minLen p := by
  have hz : (p - d.center).dot d.normal = 0 := by
    by_contra hc
    exact lt_irrefl _ ((hp _ (abs_pos.2 hc)).1 rfl)
  rw [expand_frame h p hz, inDisk_iff h]
  set x := (p - d.center).dot d.major
  set y := (p - d.center).dot d.minor
  have ha := h.maj_pos
  have hb := h.min_pos
  have h1 : x * x / (d.majLen * d.majLen) = (x / d.majLen) ^ 2 := by field_simp
  have h2 : y * y / (d.minLen * d.minLen) = (y / d.minLen) ^ 2 := by field_simp
  by_contra hc
  push Not at hc
  set q := (x / d.majLen) ^ 2 + (y / d.minLen) ^ 2 with hq
  have he : 0 < Real.sqrt ((q - 1) / 2) := Real.sqrt_pos.2 (by linarith)
  have := (hp _ he).2.2.2
  change x * x / (d.majLen * d.majLen) + y * y / (d.minLen * d.minLen) ≤ _ at this
  rw [h1, h2, Real.mul_self_sqrt (by linarith), ← hq] at this
  linarith

/-- Non-trivial instance: an inner point and a boundary point of an elongated disk. -/
example : Spec.InDisk ⟨1, 2, 3⟩ ⟨3 / 5, 4 / 5, 0⟩ ⟨0, 0, 1⟩ 5 2 ⟨1 + 3 / 5, 2 + 4 / 5, 4⟩ ∧
    Spec.InDisk ⟨1, 2, 3⟩ ⟨3 / 5, 4 / 5, 0⟩ ⟨0, 0, 1⟩ 5 2 ⟨4, 6, 3⟩ :=
  ⟨⟨1, 1, by norm_num, by simp [Spec.localPoint]; norm_num⟩,
   ⟨5, 0, by norm_num, by simp [Spec.localPoint]; norm_num⟩⟩

end Props
