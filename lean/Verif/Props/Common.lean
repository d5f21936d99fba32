import Verif.Model.Geometry.Basic
import Verif.Spec.Euclid
import Mathlib.Analysis.SpecialFunctions.Trigonometric.Inverse

/-!
# Properties of frackit/common/math.hh and of vectors and directions (C01, C02, C04)
-/

namespace Props
open Verif Frackit

/-! ## Helper: closed form of the rotation -/

theorem rotate_eq (v k : V3) (a : ℝ) :
    rotate v k a = Real.cos a • v + Real.sin a • (k.cross v) + ((1 - Real.cos a) * k.dot v) • k := by
  ext <;> simp [rotate, rotRx, rotRy, rotRz, V3.dot, V3.cross] <;> ring

/-! ## C01 Rotation is a rigid motion about the axis -/

/-- Inner products are preserved by a rotation about a unit axis. -/
theorem C01_rotate_preserves_inner (v w axis : V3) (angle : ℝ) (h : Spec.IsUnit axis) :
    Spec.inner (rotate v axis angle) (rotate w axis angle) = Spec.inner v w := by
  unfold Spec.IsUnit at h
  have hcs := Real.sin_sq_add_cos_sq angle
  rw [rotate_eq, rotate_eq]
  simp only [Spec.inner, V3.add_x, V3.add_y, V3.add_z, V3.smul_x, V3.smul_y, V3.smul_z, V3.cross,
    V3.dot]
  generalize Real.cos angle = c at *
  generalize Real.sin angle = s at *
  obtain ⟨vx, vy, vz⟩ := v
  obtain ⟨wx, wy, wz⟩ := w
  obtain ⟨kx, ky, kz⟩ := axis
  simp only at *
  have hs : s ^ 2 = 1 - c ^ 2 := by linarith
  linear_combination
    (s ^ 2 * (vx * wx + vy * wy + vz * wz)
      + (1 - c) ^ 2 * (kx * vx + ky * vy + kz * vz) * (kx * wx + ky * wy + kz * wz)) * h
    + ((vx * wx + vy * wy + vz * wz) - (kx * vx + ky * vy + kz * vz) * (kx * wx + ky * wy + kz * wz))
      * hcs

/-- Lengths are preserved by a rotation about a unit axis. -/
theorem C01_rotate_preserves_norm (v axis : V3) (angle : ℝ) (h : Spec.IsUnit axis) :
    Spec.norm (rotate v axis angle) = Spec.norm v := by
  have := C01_rotate_preserves_inner v v axis angle h
  unfold Spec.inner at this
  unfold Spec.norm
  congr 1
  nlinarith

/-- Vectors along the axis are not changed. -/
theorem C01_rotate_fixes_axis (axis : V3) (r angle : ℝ) (h : Spec.IsUnit axis) :
    rotate (r • axis) axis angle = r • axis := by
  unfold Spec.IsUnit at h
  rw [rotate_eq]
  ext <;> simp [V3.cross, V3.dot] <;> obtain ⟨kx, ky, kz⟩ := axis <;> simp only at *
  · linear_combination (1 - Real.cos angle) * r * kx * h
  · linear_combination (1 - Real.cos angle) * r * ky * h
  · linear_combination (1 - Real.cos angle) * r * kz * h

/-- Rotating by `a` and then by `b` is rotating by `b + a`. -/
theorem C01_rotate_composes (v axis : V3) (a b : ℝ) (h : Spec.IsUnit axis) :
    rotate (rotate v axis a) axis b = rotate v axis (b + a) := by
  unfold Spec.IsUnit at h
  simp only [rotate_eq]
  rw [Real.cos_add, Real.sin_add]
  generalize Real.cos a = ca
  generalize Real.sin a = sa
  generalize Real.cos b = cb
  generalize Real.sin b = sb
  obtain ⟨vx, vy, vz⟩ := v
  obtain ⟨kx, ky, kz⟩ := axis
  simp only at h
  ext <;> simp only [V3.add_x, V3.add_y, V3.add_z, V3.smul_x, V3.smul_y, V3.smul_z, V3.cross,
    V3.dot]
  · linear_combination (-(sb * sa * vx) + (1 - cb) * (1 - ca) * (kx * vx + ky * vy + kz * vz) * kx) * h
  · linear_combination (-(sb * sa * vy) + (1 - cb) * (1 - ca) * (kx * vx + ky * vy + kz * vz) * ky) * h
  · linear_combination (-(sb * sa * vz) + (1 - cb) * (1 - ca) * (kx * vx + ky * vy + kz * vz) * kz) * h

/-- A zero turn and every full turn are the identity. -/
theorem C01_rotate_full_turns (v axis : V3) (n : ℤ) :
    rotate v axis (n * (2 * Real.pi)) = v := by
  have hs : Real.sin (n * (2 * Real.pi)) = 0 := by
    simpa using Real.sin_add_int_mul_two_pi 0 n
  rw [rotate_eq, Real.cos_int_mul_two_pi, hs]
  ext <;> simp

/-- For a vector orthogonal to the axis, the rotated vector is the positive turn by `angle` towards
`axis × v`: this fixes the sense of the rotation (right-hand rule). -/
theorem C01_rotate_right_hand_rule (v axis : V3) (angle : ℝ) (ho : Spec.Orthogonal axis v) :
    rotate v axis angle = Real.cos angle • v + Real.sin angle •
      (⟨axis.y * v.z - axis.z * v.y, axis.z * v.x - axis.x * v.z,
        axis.x * v.y - axis.y * v.x⟩ : V3) := by
  unfold Spec.Orthogonal Spec.inner at ho
  rw [rotate_eq]
  have : axis.dot v = 0 := ho
  rw [this]
  ext <;> simp [V3.cross]

/-- The list overload does to every element what the single-vector overload does. -/
theorem C01_rotateList_elementwise (vs : List V3) (axis : V3) (angle : ℝ) :
    (rotateList vs axis angle).length = vs.length ∧
    ∀ (i : ℕ) (v : V3), vs[i]? = some v →
      (rotateList vs axis angle)[i]? = some (rotate v axis angle) := by
  constructor
  · simp [rotateList]
  · intro i v h
    simp [rotateList, h, rotate]

/-- The unit axis `(3/5, 0, 4/5)` is a non-trivial instance of the hypotheses. -/
example : Spec.IsUnit ⟨3 / 5, 0, 4 / 5⟩ ∧ Spec.Orthogonal ⟨3 / 5, 0, 4 / 5⟩ ⟨4, 7, -3⟩ := by
  constructor <;> norm_num [Spec.IsUnit, Spec.Orthogonal, Spec.inner]

/-- The rotation is not trivial: a quarter turn of the x-axis about z is the y-axis. -/
example : rotate ⟨1, 0, 0⟩ ⟨0, 0, 1⟩ (Real.pi / 2) = ⟨0, 1, 0⟩ := by
  ext <;> simp [rotate, rotRx, rotRy, rotRz, V3.dot]

/-! ## C02 Directions are unit vectors -/

theorem mkDirection_of_ne {v : V3} (h : v ≠ 0) : mkDirection v = .val (v.len⁻¹ • v) := by
  have : v.len ≠ 0 := fun e => h (V3.len_eq_zero.1 e)
  simp [mkDirection, this, V3.sdiv_eq]

/-- A non-zero vector gives a direction of unit length which is a positive multiple of it. -/
theorem C02_direction_unit (v : V3) (h : v ≠ ⟨0, 0, 0⟩) :
    ∃ d, mkDirection v = .val d ∧ Spec.IsUnit d ∧ ∃ r : ℝ, 0 < r ∧ v = r • d := by
  have h' : v ≠ 0 := h
  have hl : 0 < v.len := V3.len_pos.2 h'
  refine ⟨_, mkDirection_of_ne h', ?_, v.len, hl, ?_⟩
  · rw [Spec.isUnit_iff, V3.sqLen_smul, ← V3.len_sq]
    field_simp
  · rw [smul_smul, mul_inv_cancel₀ hl.ne', one_smul]

/-- Exactly the zero vector gives an invalid direction. -/
theorem C02_direction_invalid_iff_zero (v : V3) :
    mkDirection v = .nan ↔ v = ⟨0, 0, 0⟩ := by
  constructor
  · intro h
    by_contra hc
    obtain ⟨d, hd, _⟩ := C02_direction_unit v hc
    rw [hd] at h; cases h
  · rintro rfl
    simp [mkDirection, V3.len_eq_zero]
    rfl

/-- The direction is unique: any unit vector of which `v` is a positive multiple is the result. -/
theorem C02_direction_unique (v d : V3) (r : ℝ) (hr : 0 < r) (hd : Spec.IsUnit d)
    (hv : v = r • d) : mkDirection v = .val d := by
  have hlen : v.len = r := by
    rw [hv, V3.len_smul, V3.len, (Spec.isUnit_iff d).1 hd, Real.sqrt_one, mul_one, abs_of_pos hr]
  have hne : v ≠ 0 := V3.len_pos.1 (by rw [hlen]; exact hr)
  rw [mkDirection_of_ne hne, hlen, hv, smul_smul, inv_mul_cancel₀ hr.ne', one_smul]

/-- Inverting keeps unit length, inverting twice restores the direction. -/
theorem C02_invert (d : V3) (h : Spec.IsUnit d) :
    Spec.IsUnit (invertDirection d) ∧ invertDirection (invertDirection d) = d ∧
      Spec.inner d (invertDirection d) = -1 := by
  unfold Spec.IsUnit at *
  refine ⟨?_, ?_, ?_⟩
  · simp [invertDirection]; linarith
  · ext <;> simp [invertDirection]
  · simp [invertDirection, Spec.inner]; linarith

example : mkDirection ⟨3, 0, -4⟩ = .val ⟨3 / 5, 0, -4 / 5⟩ :=
  C02_direction_unique _ _ 5 (by norm_num) (by norm_num [Spec.IsUnit])
    (by ext <;> norm_num)

/-! ## C04 Parallelism does not depend on the sense of the vectors -/

/-- The property claimed: the answer does not change when one vector is reversed. -/
def ParallelIgnoresSense : Prop :=
  ∀ (a b : V3) (eps : ℝ), a ≠ 0 → b ≠ 0 → 0 < eps → eps ≤ 1 →
    (isParallel a b eps ↔ isParallel a (-b) eps)

theorem arccos_arg_neg (a b : V3) :
    a.dot (-b) / a.len / (-b).len = -(a.dot b / a.len / b.len) := by
  rw [V3.len_neg, V3.dot_neg]; ring

/-- **The code violates the property**: the second condition of `isParallel` compares the tolerance
with π instead of the angle. -/
theorem C04_disproof : ¬ ParallelIgnoresSense := by
  intro h
  have h1 := (h ⟨1, 0, 0⟩ ⟨1, 0, 0⟩ 1 (by intro e; have := congrArg V3.x e; norm_num at this)
    (by intro e; have := congrArg V3.x e; norm_num at this) (by norm_num) (by norm_num)).1 (by
      left
      have hl : (⟨1, 0, 0⟩ : V3).len = 1 := by simp [V3.len, V3.sqLen]
      rw [hl]
      simp [V3.dot])
  have hpi := Real.two_le_pi
  have hl : (⟨1, 0, 0⟩ : V3).len = 1 := by simp [V3.len, V3.sqLen]
  rcases h1 with ⟨_, _, h2⟩ | h2
  · rw [arccos_arg_neg, hl] at h2
    simp [V3.dot] at h2
    rw [abs_of_pos Real.pi_pos] at h2
    linarith
  · rw [abs_lt] at h2
    linarith [h2.1]

/-- Worse, with the default tolerance no vector is parallel to its own reverse. -/
theorem C04_antiparallel_never_detected (a : V3) (ha : a ≠ 0) : ¬ isParallel a (-a) angular := by
  have hl : 0 < a.len := V3.len_pos.2 ha
  have hpi := Real.two_le_pi
  have hang : angular < 1 := by unfold angular; norm_num
  rintro (⟨_, _, h⟩ | h)
  · rw [arccos_arg_neg, ← V3.sqLen_eq_dot, ← V3.len_mul_self] at h
    have : a.len * a.len / a.len / a.len = 1 := by field_simp
    rw [this, Real.arccos_neg_one, abs_of_pos Real.pi_pos] at h
    linarith
  · rw [abs_lt] at h; linarith [h.1, angular_pos]

/-- What does hold (missing: opposite vectors, see `C04_disproof`): the test is symmetric, and two
vectors in the same direction are parallel for every positive tolerance. -/
theorem C04_parallel_partial (a b : V3) (eps : ℝ) :
    (isParallel a b eps ↔ isParallel b a eps) ∧
    (0 < eps → a ≠ 0 → ∀ r : ℝ, 0 < r → b = r • a → isParallel a b eps) := by
  constructor
  · unfold isParallel
    have e : a.dot b / a.len / b.len = b.dot a / b.len / a.len := by
      rw [V3.dot_comm]; ring
    rw [e]; tauto
  · intro he ha r hr hb
    left
    have hl : 0 < a.len := V3.len_pos.2 ha
    subst hb
    refine ⟨hl.ne', ?_, ?_⟩
    · rw [V3.len_smul, abs_of_pos hr]; positivity
    · rw [V3.len_smul, abs_of_pos hr, V3.dot_smul, ← V3.sqLen_eq_dot, ← V3.len_mul_self]
      have : r * (a.len * a.len) / a.len / (r * a.len) = 1 := by field_simp
      rw [this, Real.arccos_one, abs_zero]; exact he

/-- For tolerances below π/2 the test is exactly: the enclosed angle is below the tolerance
(missing: the angle to the reversed vector). -/
theorem C04_parallel_iff_angle_partial (a b : V3) (eps : ℝ) (ha : a ≠ 0) (hb : b ≠ 0)
    (heps : eps < Real.pi / 2) :
    isParallel a b eps ↔ Real.arccos (Spec.inner a b / (Spec.norm a * Spec.norm b)) < eps := by
  have h1 : a.len ≠ 0 := (V3.len_pos.2 ha).ne'
  have h2 : b.len ≠ 0 := (V3.len_pos.2 hb).ne'
  rw [Spec.norm_eq_len, Spec.norm_eq_len, Spec.inner_eq_dot, ← div_div]
  unfold isParallel
  rw [abs_of_nonneg (Real.arccos_nonneg _)]
  constructor
  · rintro (⟨_, _, h⟩ | h)
    · exact h
    · rw [abs_lt] at h; linarith [h.1]
  · intro h; exact Or.inl ⟨h1, h2, h⟩

example : isParallel ⟨1, 2, 3⟩ ⟨2, 4, 6⟩ angular :=
  (C04_parallel_partial _ _ _).2 angular_pos
    (by intro e; have := congrArg V3.x e; norm_num at this) 2 (by norm_num) (by ext <;> norm_num)

end Props
