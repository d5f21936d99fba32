import Verif.Model.Float.Rotation
import Verif.Spec.Rotation
import Verif.Props.FloatCircle

/-!
# C153 Rotations and sampled disks in double precision
-/

namespace Props
open Verif Frackit Spec

/-! ### One rotation -/

/-- A row of the matrix times a vector, for entries with errors. -/
theorem row_error {k : ℕ} {r r' m v : V3} (hx : Err k r'.x r.x m.x) (hy : Err k r'.y r.y m.y) (hz : Err k r'.z r.z m.z) :
    |Fp.scalarProduct r' v - r.dot v| ≤ (rho ^ (k + 4) - 1) * (m.x * |v.x| + m.y * |v.y| + m.z * |v.z|) := by
  have p : ∀ {a' a b w : ℝ}, Err k a' a b → Err (k + 1) (Fp.mul a' w) (a * w) (b * |w|) := fun h => (h.mul (Err.refl _)).rnd
  have z : Err (k + 1) 0 0 0 := ⟨by simp, by simp⟩
  have s1 := (z.add (p (w := v.x) hx)).rnd
  have s2 := (s1.add ((p (w := v.y) hy).mono (Nat.le_succ _) le_rfl)).rnd
  have s3 := (s2.add ((p (w := v.z) hz).mono (by omega) le_rfl)).rnd
  have e1 : r.dot v = 0 + r.x * v.x + r.y * v.y + r.z * v.z := by rw [zero_add]; rfl
  have e2 : m.x * |v.x| + m.y * |v.y| + m.z * |v.z| = 0 + m.x * |v.x| + m.y * |v.y| + m.z * |v.z| := by rw [zero_add]
  rw [e1, e2]
  exact s3.1

theorem err_cos (t : ℝ) : Err 1 (Fp.cos t) (Real.cos t) 1 := (Err.refl _).rnd.mono le_rfl (Real.abs_cos_le_one t)
theorem err_sin (t : ℝ) : Err 1 (Fp.sin t) (Real.sin t) 1 := (Err.refl _).rnd.mono le_rfl (Real.abs_sin_le_one t)

theorem err_oneMinusCos (t : ℝ) : Err 2 (Fp.sub 1 (Fp.cos t)) (1 - Real.cos t) 2 := by
  have h1 : Err 1 (1 : ℝ) 1 1 := (Err.refl 1).mono (by norm_num) (by norm_num)
  exact ((Err.sub' h1 (err_cos t)).rnd).mono le_rfl (by norm_num)

theorem err_diagonal (a t : ℝ) : Err 5 (Fp.add (Fp.cos t) (Fp.mul (Fp.mul a a) (Fp.sub 1 (Fp.cos t))))
    (Real.cos t + a * a * (1 - Real.cos t)) (1 + |a| * |a| * 2) := by
  have h := ((err_mul a a).mul (err_oneMinusCos t)).rnd
  exact (((err_cos t).mono (show 1 ≤ 4 by norm_num) le_rfl).add h).rnd

theorem err_off_sub (a b c t : ℝ) : Err 5 (Fp.sub (Fp.mul (Fp.mul a b) (Fp.sub 1 (Fp.cos t))) (Fp.mul c (Fp.sin t)))
    (a * b * (1 - Real.cos t) - c * Real.sin t) (|a| * |b| * 2 + |c| * 1) := by
  have h := ((err_mul a b).mul (err_oneMinusCos t)).rnd
  have h2 : Err 4 (Fp.mul c (Fp.sin t)) (c * Real.sin t) (|c| * 1) :=
    (((Err.refl c).mul (err_sin t)).rnd).mono (by norm_num) le_rfl
  exact (Err.sub' h h2).rnd

theorem err_off_add (a b c t : ℝ) : Err 5 (Fp.add (Fp.mul (Fp.mul a b) (Fp.sub 1 (Fp.cos t))) (Fp.mul c (Fp.sin t)))
    (a * b * (1 - Real.cos t) + c * Real.sin t) (|a| * |b| * 2 + |c| * 1) := by
  have h := ((err_mul a b).mul (err_oneMinusCos t)).rnd
  have h2 : Err 4 (Fp.mul c (Fp.sin t)) (c * Real.sin t) (|c| * 1) :=
    (((Err.refl c).mul (err_sin t)).rnd).mono (by norm_num) le_rfl
  exact (h.add h2).rnd

/-- The error of a rotation about an axis of a length of about one. -/
theorem rotate_error (v a : V3) (t : ℝ) (ha : a.len ≤ 1.001) :
    (Fp.rotate v a t - rotAbout a t v).len ≤ 46 / 2 ^ 53 * v.len := by
  let s : ℝ := |a.x| * |v.x| + |a.y| * |v.y| + |a.z| * |v.z|
  have c0 : 0 ≤ rho ^ 9 - 1 := by linarith [one_le_rho_pow 9]
  have hx := row_error (v := v) (r' := Fp.rotRx a t)
    (r := ⟨Real.cos t + a.x * a.x * (1 - Real.cos t), a.x * a.y * (1 - Real.cos t) - a.z * Real.sin t,
      a.x * a.z * (1 - Real.cos t) + a.y * Real.sin t⟩)
    (m := ⟨1 + |a.x| * |a.x| * 2, |a.x| * |a.y| * 2 + |a.z| * 1, |a.x| * |a.z| * 2 + |a.y| * 1⟩)
    (err_diagonal a.x t) (err_off_sub a.x a.y a.z t) (err_off_add a.x a.z a.y t)
  have hy := row_error (v := v) (r' := Fp.rotRy a t)
    (r := ⟨a.y * a.x * (1 - Real.cos t) + a.z * Real.sin t, Real.cos t + a.y * a.y * (1 - Real.cos t),
      a.y * a.z * (1 - Real.cos t) - a.x * Real.sin t⟩)
    (m := ⟨|a.y| * |a.x| * 2 + |a.z| * 1, 1 + |a.y| * |a.y| * 2, |a.y| * |a.z| * 2 + |a.x| * 1⟩)
    (err_off_add a.y a.x a.z t) (err_diagonal a.y t) (err_off_sub a.y a.z a.x t)
  have hz := row_error (v := v) (r' := Fp.rotRz a t)
    (r := ⟨a.z * a.x * (1 - Real.cos t) - a.y * Real.sin t, a.z * a.y * (1 - Real.cos t) + a.x * Real.sin t,
      Real.cos t + a.z * a.z * (1 - Real.cos t)⟩)
    (m := ⟨|a.z| * |a.x| * 2 + |a.y| * 1, |a.z| * |a.y| * 2 + |a.x| * 1, 1 + |a.z| * |a.z| * 2⟩)
    (err_off_sub a.z a.x a.y t) (err_off_add a.z a.y a.x t) (err_diagonal a.z t)
  have h := len_sub_le_of (a := Fp.rotate v a t) (b := rotAbout a t v)
    (m := absV v + ((2 * s) • absV a + absCross a v)) c0
    (by
      refine le_trans (le_of_eq ?_) (hx.trans (le_of_eq ?_))
      · congr 1
        simp only [Fp.rotate, rotAbout, V3.dot, V3.add_x, V3.smul_x]
        ring
      · congr 1
        simp only [absV, absCross, V3.add_x, V3.smul_x, s]
        ring)
    (by
      refine le_trans (le_of_eq ?_) (hy.trans (le_of_eq ?_))
      · congr 1
        simp only [Fp.rotate, rotAbout, V3.dot, V3.add_y, V3.smul_y]
        ring
      · congr 1
        simp only [absV, absCross, V3.add_y, V3.smul_y, s]
        ring)
    (by
      refine le_trans (le_of_eq ?_) (hz.trans (le_of_eq ?_))
      · congr 1
        simp only [Fp.rotate, rotAbout, V3.dot, V3.add_z, V3.smul_z]
        ring
      · congr 1
        simp only [absV, absCross, V3.add_z, V3.smul_z, s]
        ring)
  refine h.trans ?_
  have v0 := V3.len_nonneg v
  have a0 := V3.len_nonneg a
  have s0 : 0 ≤ s := by positivity
  have hs : s ≤ 1.001 * v.len := (abs_products_le a v).trans (mul_le_mul_of_nonneg_right ha v0)
  have hm : (absV v + ((2 * s) • absV a + absCross a v)).len ≤ 5.01 * v.len := by
    refine (V3.len_add_le _ _).trans ?_
    have h1 := V3.len_add_le ((2 * s) • absV a) (absCross a v)
    rw [V3.len_smul, absV_len, abs_of_nonneg (by positivity)] at h1
    have h2 := absCross_len a v
    have h3 : 2 * s * a.len ≤ 2 * (1.001 * v.len) * 1.001 :=
      mul_le_mul (mul_le_mul_of_nonneg_left hs (by norm_num)) ha a0 (by positivity)
    have h4 : a.len * v.len ≤ 1.001 * v.len := mul_le_mul_of_nonneg_right ha v0
    rw [absV_len]
    linarith
  calc (rho ^ 9 - 1) * (absV v + ((2 * s) • absV a + absCross a v)).len ≤ 9.01 / 2 ^ 53 * (5.01 * v.len) :=
        mul_le_mul ((rho_pow_sub_one_le (by norm_num)).trans (by norm_num)) hm (V3.len_nonneg _) (by norm_num)
    _ ≤ _ := by
        rw [← mul_assoc]
        exact mul_le_mul_of_nonneg_right (by norm_num) v0

theorem len_cross_bound (a b : V3) : (a.cross b).len ≤ a.len * b.len := by
  have h := sq_cross a b
  have h0 : 0 ≤ a.len * b.len := mul_nonneg (V3.len_nonneg _) (V3.len_nonneg _)
  refine abs_le_of_sq_le_sq' ?_ h0 |>.2
  rw [sq, sq, h]
  nlinarith [mul_self_nonneg (a.dot b)]

theorem rotAbout_eq (e v : V3) (t : ℝ) :
    rotAbout e t v = Real.cos t • v + Real.sin t • e.cross v + ((1 - Real.cos t) * e.dot v) • e := rfl

/-- Rotations about two axes close to each other. -/
theorem rotAbout_axis (v : V3) {a e : V3} (t : ℝ) (e1 : e.len = 1) (d1 : (a - e).len ≤ 1 / 2 ^ 50) :
    (rotAbout a t v - rotAbout e t v).len ≤ 41 / 2 ^ 53 * v.len := by
  have ahi : a.len ≤ 1.001 := by
    have h := V3.len_add_le (a - e) e
    rw [show a - e + e = a by ext <;> simp, e1] at h
    norm_num at d1 ⊢
    linarith
  set d := a - e with hd
  have d0 := V3.len_nonneg d
  have v0 := V3.len_nonneg v
  have eq : rotAbout a t v - rotAbout e t v
      = Real.sin t • d.cross v + ((1 - Real.cos t) * a.dot v) • d + ((1 - Real.cos t) * d.dot v) • e := by
    rw [rotAbout_eq, rotAbout_eq]
    ext <;> simp [hd, V3.cross, V3.dot] <;> ring
  have hc : |1 - Real.cos t| ≤ 2 := by
    rw [abs_le]
    constructor <;> linarith [Real.neg_one_le_cos t, Real.cos_le_one t]
  have t1 : (Real.sin t • d.cross v).len ≤ d.len * v.len := by
    rw [V3.len_smul]
    exact (mul_le_mul (Real.abs_sin_le_one t) (len_cross_bound d v) (V3.len_nonneg _) zero_le_one).trans (one_mul _).le
  have t2 : (((1 - Real.cos t) * a.dot v) • d).len ≤ 2.002 * v.len * d.len := by
    rw [V3.len_smul, abs_mul]
    refine mul_le_mul_of_nonneg_right ?_ d0
    have h1 : |a.dot v| ≤ 1.001 * v.len := (V3.abs_dot_le _ _).trans (mul_le_mul_of_nonneg_right ahi v0)
    exact (mul_le_mul hc h1 (abs_nonneg _) (by norm_num)).trans (le_of_eq (by ring))
  have t3 : (((1 - Real.cos t) * d.dot v) • e).len ≤ 2 * (d.len * v.len) := by
    rw [V3.len_smul, abs_mul, e1, mul_one]
    exact mul_le_mul hc (V3.abs_dot_le _ _) (abs_nonneg _) (by norm_num)
  rw [eq]
  have s1 := V3.len_add_le (Real.sin t • d.cross v + ((1 - Real.cos t) * a.dot v) • d) (((1 - Real.cos t) * d.dot v) • e)
  have s2 := V3.len_add_le (Real.sin t • d.cross v) (((1 - Real.cos t) * a.dot v) • d)
  have s3 : d.len * v.len ≤ 8 / 2 ^ 53 * v.len := mul_le_mul_of_nonneg_right (d1.trans (by norm_num)) v0
  norm_num at *
  linarith

theorem len_triangle (a b c : V3) : (a - c).len ≤ (a - b).len + (b - c).len := by
  have := V3.len_add_le (a - b) (b - c)
  rwa [show a - b + (b - c) = a - c by ext <;> simp] at this

theorem unit_normalised {w : V3} (hw : w ≠ 0) : (w.len⁻¹ • w).len = 1 := by
  have := V3.len_pos.2 hw
  rw [V3.len_smul, abs_of_pos (inv_pos.2 this), inv_mul_cancel₀ this.ne']

/-- **Rotations.**  In double precision, a vector is rotated about the direction of a nonzero vector up to an error of
2⁻⁴⁶ times its length. -/
theorem C153_rotation (v w : V3) (t : ℝ) (hw : w ≠ ⟨0, 0, 0⟩) :
    ∃ a, Fp.mkDirection w = .val a ∧
      Spec.dist (Fp.rotate v a t) (rotAbout ((norm w)⁻¹ • w) t v) ≤ 1 / 2 ^ 46 * norm v := by
  have hw : w ≠ 0 := hw
  obtain ⟨a, ha⟩ := fpDirection_of_ne hw
  obtain ⟨h1, h2⟩ := len_direction ha hw
  refine ⟨a, ha, ?_⟩
  have a2 := (abs_le.1 h2).2
  have ahi : a.len ≤ 1.001 := by norm_num at a2 ⊢; linarith
  have r1 := rotate_error v a t ahi
  have r2 := rotAbout_axis v t (unit_normalised hw) h1
  have v0 := V3.len_nonneg v
  rw [dist_eq_len, norm_eq_len, norm_eq_len]
  have := len_triangle (Fp.rotate v a t) (rotAbout a t v) (rotAbout (w.len⁻¹ • w) t v)
  norm_num at *
  linarith

theorem rotAbout_eq_rotate (v e : V3) (t : ℝ) : rotAbout e t v = Frackit.rotate v e t := (rotate_eq v e t).symm

theorem isUnit_of_len {e : V3} (he : e.len = 1) : Spec.IsUnit e := by
  have := V3.len_sq e
  rw [he] at this
  simp only [V3.sqLen] at this
  unfold Spec.IsUnit
  nlinarith

theorem len_rotAbout {e : V3} (he : e.len = 1) (t : ℝ) (v : V3) : (rotAbout e t v).len = v.len := by
  have := C01_rotate_preserves_norm v e t (isUnit_of_len he)
  rwa [← rotAbout_eq_rotate, norm_eq_len, norm_eq_len] at this

theorem dot_rotAbout {e : V3} (he : e.len = 1) (t : ℝ) (v w : V3) :
    (rotAbout e t v).dot (rotAbout e t w) = v.dot w := by
  have := C01_rotate_preserves_inner v w e t (isUnit_of_len he)
  rwa [← rotAbout_eq_rotate, ← rotAbout_eq_rotate] at this

theorem dot_sub_error (a a' b b' : V3) :
    |a'.dot b' - a.dot b| ≤ (a' - a).len * b'.len + a.len * (b' - b).len := by
  have h : a'.dot b' - a.dot b = (a' - a).dot b' + a.dot (b' - b) := by
    simp only [V3.dot, V3.sub_x, V3.sub_y, V3.sub_z]
    ring
  rw [h]
  exact (abs_add_le _ _).trans (add_le_add (V3.abs_dot_le _ _) (V3.abs_dot_le _ _))

/-- **Rotations in double precision are rigid** up to relative errors of 2⁻⁴⁶ (lengths) and 2⁻⁴⁴ (products). -/
theorem C153_rigid (v v' w : V3) (t : ℝ) (hw : w ≠ ⟨0, 0, 0⟩) :
    ∃ a, Fp.mkDirection w = .val a ∧ |norm (Fp.rotate v a t) - norm v| ≤ 1 / 2 ^ 46 * norm v ∧
      |inner (Fp.rotate v a t) (Fp.rotate v' a t) - inner v v'| ≤ 1 / 2 ^ 44 * (norm v * norm v') := by
  obtain ⟨a, ha, h1⟩ := C153_rotation v w t hw
  obtain ⟨a', ha', h2⟩ := C153_rotation v' w t hw
  obtain rfl := Outcome.val.inj (ha'.symm.trans ha)
  refine ⟨a', ha', ?_⟩
  have hw : w ≠ 0 := hw
  have e1 := unit_normalised hw
  rw [dist_eq_len, norm_eq_len, norm_eq_len] at h1 h2
  rw [norm_eq_len, norm_eq_len, norm_eq_len]
  set e := w.len⁻¹ • w
  have l1 := len_rotAbout e1 t v
  have l2 := len_rotAbout e1 t v'
  have n1 : |(Fp.rotate v a' t).len - v.len| ≤ 1 / 2 ^ 46 * v.len := by
    have := abs_len_sub_le (Fp.rotate v a' t) (rotAbout e t v)
    rw [l1] at this
    exact this.trans h1
  have n2 : (Fp.rotate v' a' t).len ≤ 1.001 * v'.len := by
    have := (abs_le.1 (abs_len_sub_le (Fp.rotate v' a' t) (rotAbout e t v'))).2
    rw [l2] at this
    have v0 := V3.len_nonneg v'
    norm_num at *
    linarith
  refine ⟨n1, ?_⟩
  have := dot_sub_error (rotAbout e t v) (Fp.rotate v a' t) (rotAbout e t v') (Fp.rotate v' a' t)
  rw [dot_rotAbout e1, l1] at this
  refine this.trans ?_
  have v0 := V3.len_nonneg v
  have v0' := V3.len_nonneg v'
  have p1 := mul_le_mul h1 n2 (V3.len_nonneg _) (by positivity)
  have p2 := mul_le_mul_of_nonneg_left h2 v0
  have p3 := mul_nonneg v0 v0'
  calc _ ≤ _ := add_le_add p1 p2
    _ = (1.001 / 2 ^ 46 + 1 / 2 ^ 46) * (v.len * v'.len) := by ring
    _ ≤ _ := mul_le_mul_of_nonneg_right (by norm_num) p3

/-- Rotation of a vector about an oblique axis. -/
example : ∃ a, Fp.mkDirection ⟨1, 2, 3⟩ = .val a ∧
    |Spec.norm (Fp.rotate ⟨4, 5, 6⟩ a 0.25) - Spec.norm ⟨4, 5, 6⟩| ≤ 1 / 2 ^ 46 * Spec.norm ⟨4, 5, 6⟩ := by
  obtain ⟨a, h1, h2, -⟩ := C153_rigid ⟨4, 5, 6⟩ ⟨7, 8, 9⟩ ⟨1, 2, 3⟩ 0.25 (by simp)
  exact ⟨a, h1, h2⟩

/-! ### Sampled disks -/

theorem basis_direction (v : V3) (hv : v = ⟨0, 0, 1⟩ ∨ v = ⟨0, 1, 0⟩ ∨ v = ⟨1, 0, 0⟩) : Fp.mkDirection v = .val v := by
  have d1 : IsDouble 1 := ⟨1, 0, by norm_num, by norm_num⟩
  have r1 := rnd_of_isDouble d1
  have hl : Fp.length v = 1 := by
    unfold Fp.length Fp.squaredLength Fp.sqrt Fp.add Fp.mul
    rcases hv with rfl | rfl | rfl <;> simp [rnd_zero, r1]
  unfold Fp.mkDirection
  rw [if_neg (by rw [hl]; norm_num), hl]
  unfold Fp.div
  rcases hv with rfl | rfl | rfl <;> simp [rnd_zero, r1]

theorem basis_len (v : V3) (hv : v = ⟨0, 0, 1⟩ ∨ v = ⟨0, 1, 0⟩ ∨ v = ⟨1, 0, 0⟩) : v.len = 1 := by
  rcases hv with rfl | rfl | rfl <;> simp [V3.len, V3.sqLen]

/-- One more rotation of a vector that is known up to an error. -/
theorem rotate_step {v v' e : V3} {k : ℝ} (t : ℝ) (he : e.len = 1) (hv : v.len = 1) (k1 : k ≤ 1000)
    (h : (v' - v).len ≤ k / 2 ^ 53) :
    (Fp.rotate v' e t - rotAbout e t v).len ≤ (k + 46.001) / 2 ^ 53 ∧ (rotAbout e t v).len = 1 := by
  refine ⟨?_, (len_rotAbout he t v).trans hv⟩
  have h1 := rotate_error v' e t (by rw [he]; norm_num)
  have h2 : (rotAbout e t v' - rotAbout e t v).len = (v' - v).len := by
    rw [← len_rotAbout he t (v' - v)]
    congr 1
    rw [rotAbout_eq, rotAbout_eq, rotAbout_eq]
    ext <;> simp [V3.cross, V3.dot] <;> ring
  have h3 := len_triangle (Fp.rotate v' e t) (rotAbout e t v') (rotAbout e t v)
  have h4 := (abs_le.1 (abs_len_sub_le v' v)).2
  rw [hv] at h4
  norm_num at *
  linarith

/-- The direction of a vector that is known up to an error. -/
theorem direction_step {v v' : V3} {k : ℝ} (hv : v.len = 1) (k1 : k ≤ 1000) (h : (v' - v).len ≤ k / 2 ^ 53) :
    ∃ n, Fp.mkDirection v' = .val n ∧ (n - v).len ≤ (2 * k + 8) / 2 ^ 53 ∧ |n.len - 1| ≤ 1 / 2 ^ 50 := by
  have h4 := abs_len_sub_le v' v
  rw [hv] at h4
  have hp : 0 < v'.len := by
    have := (abs_le.1 h4).1
    norm_num at *
    linarith
  have hne := V3.len_pos.1 hp
  obtain ⟨n, hn⟩ := fpDirection_of_ne hne
  obtain ⟨n1, n2⟩ := len_direction hn hne
  refine ⟨n, hn, ?_, n2⟩
  have h5 : (v'.len⁻¹ • v' - v').len = |v'.len - 1| := by
    have : v'.len⁻¹ • v' - v' = (v'.len⁻¹ - 1) • v' := by ext <;> simp <;> ring
    rw [this, V3.len_smul]
    conv_lhs => rw [← abs_of_pos hp]
    rw [abs_of_pos hp]
    rw [show |v'.len⁻¹ - 1| * v'.len = |v'.len⁻¹ - 1| * |v'.len| by rw [abs_of_pos hp], ← abs_mul, sub_mul,
      inv_mul_cancel₀ hp.ne', one_mul, abs_sub_comm]
  have t1 := len_triangle n (v'.len⁻¹ • v') v
  have t2 := len_triangle (v'.len⁻¹ • v') v' v
  rw [h5] at t2
  norm_num at *
  linarith

theorem rotAbout_x (t : ℝ) (v : V3) : rotAbout ⟨1, 0, 0⟩ t v = rotX t v := by
  unfold rotAbout rotX
  ext <;> simp <;> ring

theorem rotAbout_y (t : ℝ) (v : V3) : rotAbout ⟨0, 1, 0⟩ t v = rotY t v := by
  unfold rotAbout rotY
  ext <;> simp <;> ring

theorem rotAbout_z (t : ℝ) (v : V3) : rotAbout ⟨0, 0, 1⟩ t v = rotZ t v := by
  unfold rotAbout rotZ
  ext <;> simp <;> ring

/-- **Sampled disks.**  In double precision, a sampled disk has the sampled centre, the sampled axis lengths in order,
and axes and a normal that are the ones of the exact rotation up to 2⁻⁴⁴ and 2⁻⁴³; the assertion that its axes are
orthogonal is met. -/
theorem C153_disk (c : V3) (a b α β γ : ℝ) :
    ∃ d, Fp.diskOfDraws c a b α β γ = .val d ∧ d.center = c ∧ d.majLen = a ∧ d.minLen = min a b ∧
      Spec.dist d.major (rotZ γ (rotY β (rotX α ⟨1, 0, 0⟩))) ≤ 1 / 2 ^ 44 ∧
      Spec.dist d.minor (rotZ γ (rotY β (rotX α ⟨0, 1, 0⟩))) ≤ 1 / 2 ^ 44 ∧
      Spec.dist d.normal (rotZ γ (rotY β (rotX α ⟨0, 0, 1⟩))) ≤ 1 / 2 ^ 43 ∧
      Fp.ellipticalAssertion d.major d.minor := by
  have l1 := basis_len ⟨1, 0, 0⟩ (by simp)
  have l2 := basis_len ⟨0, 1, 0⟩ (by simp)
  have l3 := basis_len ⟨0, 0, 1⟩ (by simp)
  have z : ∀ v : V3, (v - v).len ≤ 0 / 2 ^ 53 := fun v => by
    rw [show v - v = 0 by ext <;> simp]
    simp [V3.len, V3.sqLen]
  -- the axes before they are normalised
  obtain ⟨a1, a2⟩ := rotate_step β l2 l1 (by norm_num) (z ⟨1, 0, 0⟩)
  obtain ⟨a3, a4⟩ := rotate_step γ l3 a2 (by norm_num) a1
  obtain ⟨b1, b2⟩ := rotate_step α l1 l2 (by norm_num) (z ⟨0, 1, 0⟩)
  obtain ⟨b3, b4⟩ := rotate_step β l2 b2 (by norm_num) b1
  obtain ⟨b5, b6⟩ := rotate_step γ l3 b4 (by norm_num) b3
  obtain ⟨u, hu, u1, u2⟩ := direction_step a4 (by norm_num) a3
  obtain ⟨v, hv, v1, v2⟩ := direction_step b6 (by norm_num) b5
  rw [rotAbout_y, rotAbout_z] at a4 u1
  rw [rotAbout_x, rotAbout_y, rotAbout_z] at b6 v1
  -- the exact axes
  have hx : rotX α ⟨1, 0, 0⟩ = ⟨1, 0, 0⟩ := by ext <;> simp [rotX]
  have hcr : (rotZ γ (rotY β ⟨1, 0, 0⟩)).cross (rotZ γ (rotY β (rotX α ⟨0, 1, 0⟩)))
      = rotZ γ (rotY β (rotX α ⟨0, 0, 1⟩)) := by
    have c1 := Real.sin_sq_add_cos_sq β
    have c2 := Real.sin_sq_add_cos_sq γ
    ext <;> simp [rotX, rotY, rotZ, V3.cross]
    · linear_combination Real.sin γ * Real.sin α * c1
    · linear_combination -(Real.cos γ * Real.sin α) * c1
    · linear_combination Real.cos β * Real.cos α * c2
  have hort : (rotZ γ (rotY β ⟨1, 0, 0⟩)).dot (rotZ γ (rotY β (rotX α ⟨0, 1, 0⟩))) = 0 := by
    rw [← rotAbout_z, ← rotAbout_z, dot_rotAbout l3, ← rotAbout_y, ← rotAbout_y, dot_rotAbout l2]
    simp [rotX, V3.dot]
  rw [hx]
  set m := rotZ γ (rotY β ⟨1, 0, 0⟩)
  set k := rotZ γ (rotY β (rotX α ⟨0, 1, 0⟩))
  have u3 : u.len ≤ 1.001 := by
    have := (abs_le.1 u2).2
    norm_num at *
    linarith
  have v3 : v.len ≤ 1.001 := by
    have := (abs_le.1 v2).2
    norm_num at *
    linarith
  have u0 := V3.len_nonneg u
  have v0 := V3.len_nonneg v
  -- the normal
  have ce := crossProduct_error (u := u) (b := v) (Err.refl u.x) (Err.refl u.y) (Err.refl u.z) (Err.refl v.x)
    (Err.refl v.y) (Err.refl v.z)
  have hr : rho ^ (0 + 0 + 2) - 1 ≤ 2.001 / 2 ^ 53 := (rho_pow_sub_one_le (by norm_num)).trans (by norm_num)
  have uv : u.len * v.len ≤ 1.003 := (mul_le_mul u3 v3 v0 (by norm_num)).trans (by norm_num)
  have ce' : (Fp.crossProduct u v - u.cross v).len ≤ 5 / 2 ^ 53 :=
    ce.trans ((mul_le_mul hr (mul_le_mul_of_nonneg_left uv zero_le_two) (by positivity) (by norm_num)).trans (by norm_num))
  have cd : (u.cross v - m.cross k).len ≤ 490 / 2 ^ 53 := by
    have h : u.cross v - m.cross k = (u - m).cross v + m.cross (v - k) := by
      ext <;> simp [V3.cross] <;> ring
    rw [h]
    have h1 := V3.len_add_le ((u - m).cross v) (m.cross (v - k))
    have h2 := len_cross_bound (u - m) v
    have h3 := len_cross_bound m (v - k)
    rw [a4, one_mul] at h3
    have h4 := mul_le_mul u1 v3 v0 (by norm_num)
    norm_num at *
    linarith
  have cn : (Fp.crossProduct u v - m.cross k).len ≤ 495 / 2 ^ 53 := by
    have := len_triangle (Fp.crossProduct u v) (u.cross v) (m.cross k)
    norm_num at *
    linarith
  have ln : (rotZ γ (rotY β (rotX α ⟨0, 0, 1⟩))).len = 1 := by
    rw [← rotAbout_z, len_rotAbout l3, ← rotAbout_y, len_rotAbout l2, ← rotAbout_x, len_rotAbout l1, l3]
  rw [hcr] at cn
  obtain ⟨n, hn, n1, n2⟩ := direction_step ln (by norm_num) cn
  refine ⟨⟨c, u, v, n, a, min a b⟩, ?_, rfl, rfl, rfl, ?_, ?_, ?_, ?_⟩
  · unfold Fp.diskOfDraws Fp.ellipticalMake
    dsimp only
    rw [basis_direction ⟨1, 0, 0⟩ (by simp), basis_direction ⟨0, 1, 0⟩ (by simp), basis_direction ⟨0, 0, 1⟩ (by simp)]
    change (Fp.mkDirection (Fp.rotate (Fp.rotate ⟨1, 0, 0⟩ ⟨0, 1, 0⟩ β) ⟨0, 0, 1⟩ γ)).bind _ = _
    rw [hu]
    change (Fp.mkDirection (Fp.rotate (Fp.rotate (Fp.rotate ⟨0, 1, 0⟩ ⟨1, 0, 0⟩ α) ⟨0, 1, 0⟩ β) ⟨0, 0, 1⟩ γ)).bind _ = _
    rw [hv]
    change (Fp.mkDirection (Fp.crossProduct u v)).bind _ = _
    rw [hn]
    rfl
  · rw [dist_eq_len]
    exact u1.trans (by norm_num)
  · rw [dist_eq_len]
    exact v1.trans (by norm_num)
  · rw [dist_eq_len]
    exact n1.trans (by norm_num)
  · unfold Fp.ellipticalAssertion
    have h := dot_sub_error k v m u
    have h1 : |Fp.scalarProduct v u - v.dot u|
        ≤ (rho ^ (0 + 4) - 1) * (|v.x| * |u.x| + |v.y| * |u.y| + |v.z| * |u.z|) := row_error (m := absV v) (Err.refl v.x) (Err.refl v.y) (Err.refl v.z)
    have h2 : rho ^ (0 + 4) - 1 ≤ 4.001 / 2 ^ 53 := (rho_pow_sub_one_le (by norm_num)).trans (by norm_num)
    have h3 := abs_products_le v u
    have h4 := mul_le_mul h2 (h3.trans ((mul_comm _ _).le.trans uv)) (by positivity) (by norm_num)
    have h5 : k.dot m = 0 := by rw [V3.dot_comm]; exact hort
    have h6 := mul_le_mul v1 u3 u0 (by norm_num)
    have h7 := abs_sub_abs_le_abs_sub (Fp.scalarProduct v u) (v.dot u)
    have h8 := confusion_bounds.1
    rw [b6, one_mul, h5, sub_zero] at h
    norm_num at *
    linarith

/-- A disk with the axis lengths two and one. -/
example : ∃ d, Fp.diskOfDraws ⟨1, 2, 3⟩ 2 1 0.1 0.2 0.3 = .val d ∧ d.minLen = 1 ∧
    Fp.ellipticalAssertion d.major d.minor := by
  obtain ⟨d, h, -, -, h1, -, -, -, h2⟩ := C153_disk ⟨1, 2, 3⟩ 2 1 0.1 0.2 0.3
  exact ⟨d, h, h1.trans (by norm_num), h2⟩

end Props
