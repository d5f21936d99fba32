import Mathlib.Analysis.SpecialFunctions.Sqrt
import Mathlib.Tactic.Ring
import Mathlib.Tactic.Linarith
import Mathlib.Tactic.FieldSimp
import Mathlib.Tactic.LinearCombination
import Mathlib.Tactic.Module
import Mathlib.Tactic.Positivity

/-!
# Vectors of ℝ³

`V3` models `Point<CT,3>`, `Vector<CT,3>` and `Direction<CT,3>` (the coordinate triple of each of
them); the C++ classes only differ in the operations they offer.
-/

namespace Verif

/-- Coordinate triple.  Models the data member `coordinates_` of `Point<CT,3>`
(frackit/geometry/point.hh:168), `Vector<CT,3>` (frackit/geometry/vector.hh) and
`Direction<CT,3>` (frackit/geometry/direction.hh:232).
Simplification: real numbers instead of floating point numbers; one type for the three classes. -/
@[ext] structure V3 where
  x : ℝ
  y : ℝ
  z : ℝ

namespace V3

instance : Zero V3 := ⟨⟨0, 0, 0⟩⟩
/-- frackit/geometry/vector.hh:149-161 (`operator+`), frackit/geometry/point.hh:92-109. -/
instance : Add V3 := ⟨fun a b => ⟨a.x + b.x, a.y + b.y, a.z + b.z⟩⟩
/-- frackit/geometry/vector.hh:163-176 (`operator-`), frackit/geometry/point.hh:113-130;
also `Vector(a, b)` (line 337) which is `b - a`. -/
instance : Sub V3 := ⟨fun a b => ⟨a.x - b.x, a.y - b.y, a.z - b.z⟩⟩
instance : Neg V3 := ⟨fun a => ⟨-a.x, -a.y, -a.z⟩⟩
/-- frackit/geometry/vector.hh:179-185 (`operator*=`), frackit/geometry/direction.hh:217-222. -/
instance : SMul ℝ V3 := ⟨fun c a => ⟨c * a.x, c * a.y, c * a.z⟩⟩
instance : SMul ℕ V3 := ⟨fun c a => ⟨c * a.x, c * a.y, c * a.z⟩⟩
instance : SMul ℤ V3 := ⟨fun c a => ⟨c * a.x, c * a.y, c * a.z⟩⟩
instance : Inhabited V3 := ⟨0⟩

@[simp] theorem zero_x : (0 : V3).x = 0 := rfl
@[simp] theorem zero_y : (0 : V3).y = 0 := rfl
@[simp] theorem zero_z : (0 : V3).z = 0 := rfl
@[simp] theorem add_x (a b : V3) : (a + b).x = a.x + b.x := rfl
@[simp] theorem add_y (a b : V3) : (a + b).y = a.y + b.y := rfl
@[simp] theorem add_z (a b : V3) : (a + b).z = a.z + b.z := rfl
@[simp] theorem sub_x (a b : V3) : (a - b).x = a.x - b.x := rfl
@[simp] theorem sub_y (a b : V3) : (a - b).y = a.y - b.y := rfl
@[simp] theorem sub_z (a b : V3) : (a - b).z = a.z - b.z := rfl
@[simp] theorem neg_x (a : V3) : (-a).x = -a.x := rfl
@[simp] theorem neg_y (a : V3) : (-a).y = -a.y := rfl
@[simp] theorem neg_z (a : V3) : (-a).z = -a.z := rfl
@[simp] theorem smul_x (c : ℝ) (a : V3) : (c • a).x = c * a.x := rfl
@[simp] theorem smul_y (c : ℝ) (a : V3) : (c • a).y = c * a.y := rfl
@[simp] theorem smul_z (c : ℝ) (a : V3) : (c • a).z = c * a.z := rfl
theorem nsmul_x (c : ℕ) (a : V3) : (c • a).x = c * a.x := rfl
theorem nsmul_y (c : ℕ) (a : V3) : (c • a).y = c * a.y := rfl
theorem nsmul_z (c : ℕ) (a : V3) : (c • a).z = c * a.z := rfl
theorem zsmul_x (c : ℤ) (a : V3) : (c • a).x = c * a.x := rfl
theorem zsmul_y (c : ℤ) (a : V3) : (c • a).y = c * a.y := rfl
theorem zsmul_z (c : ℤ) (a : V3) : (c • a).z = c * a.z := rfl

instance : AddCommGroup V3 where
  add_assoc a b c := by ext <;> simp <;> ring
  zero_add a := by ext <;> simp
  add_zero a := by ext <;> simp
  nsmul n a := n • a
  nsmul_zero a := by ext <;> simp [nsmul_x, nsmul_y, nsmul_z]
  nsmul_succ n a := by ext <;> simp [nsmul_x, nsmul_y, nsmul_z] <;> ring
  zsmul n a := n • a
  zsmul_zero' a := by ext <;> simp [zsmul_x, zsmul_y, zsmul_z]
  zsmul_succ' n a := by ext <;> simp [zsmul_x, zsmul_y, zsmul_z] <;> ring
  zsmul_neg' n a := by
    ext <;> simp [zsmul_x, zsmul_y, zsmul_z] <;> ring
  neg_add_cancel a := by ext <;> simp
  add_comm a b := by ext <;> simp <;> ring
  sub_eq_add_neg a b := by ext <;> simp <;> ring

instance : Module ℝ V3 where
  one_smul a := by ext <;> simp
  mul_smul c d a := by ext <;> simp <;> ring
  smul_zero c := by ext <;> simp
  smul_add c a b := by ext <;> simp <;> ring
  add_smul c d a := by ext <;> simp <;> ring
  zero_smul a := by ext <;> simp

/-- Scalar product.  frackit/geometry/vector.hh:138-146 (`operator*(const Vector&)`). -/
def dot (a b : V3) : ℝ := a.x * b.x + a.y * b.y + a.z * b.z

/-- Cross product.  frackit/common/math.hh:74-81 (`crossProduct` in 3d). -/
def cross (a b : V3) : V3 :=
  ⟨a.y * b.z - a.z * b.y, a.z * b.x - a.x * b.z, a.x * b.y - a.y * b.x⟩

/-- `squaredLength()`.  frackit/geometry/vector.hh:107-113. -/
def sqLen (a : V3) : ℝ := a.x * a.x + a.y * a.y + a.z * a.z

/-- `length()`.  frackit/geometry/vector.hh:116-120. -/
noncomputable def len (a : V3) : ℝ := Real.sqrt a.sqLen

/-- Division of all components by a scalar.  frackit/geometry/vector.hh:188-194 (`operator/=`).
Only called in the model with a non-zero divisor (a zero divisor is a `nan` outcome). -/
noncomputable def sdiv (a : V3) (c : ℝ) : V3 := ⟨a.x / c, a.y / c, a.z / c⟩

theorem sdiv_eq (a : V3) (c : ℝ) : a.sdiv c = c⁻¹ • a := by
  ext <;> simp [sdiv, div_eq_inv_mul]

theorem sqLen_eq_dot (a : V3) : a.sqLen = a.dot a := rfl

theorem sqLen_nonneg (a : V3) : 0 ≤ a.sqLen := by
  unfold sqLen; nlinarith [sq_nonneg a.x, sq_nonneg a.y, sq_nonneg a.z]

theorem len_nonneg (a : V3) : 0 ≤ a.len := Real.sqrt_nonneg _

theorem len_sq (a : V3) : a.len ^ 2 = a.sqLen := Real.sq_sqrt a.sqLen_nonneg

theorem len_mul_self (a : V3) : a.len * a.len = a.sqLen := Real.mul_self_sqrt a.sqLen_nonneg

theorem sqLen_eq_zero {a : V3} : a.sqLen = 0 ↔ a = 0 := by
  constructor
  · intro h
    unfold sqLen at h
    have hx : a.x = 0 := by nlinarith [sq_nonneg a.x, sq_nonneg a.y, sq_nonneg a.z]
    have hy : a.y = 0 := by nlinarith [sq_nonneg a.x, sq_nonneg a.y, sq_nonneg a.z]
    have hz : a.z = 0 := by nlinarith [sq_nonneg a.x, sq_nonneg a.y, sq_nonneg a.z]
    ext <;> simp [hx, hy, hz]
  · rintro rfl; simp [sqLen]

theorem sqLen_pos {a : V3} : 0 < a.sqLen ↔ a ≠ 0 := by
  rw [lt_iff_le_and_ne]
  constructor
  · rintro ⟨_, h⟩ e; exact h (sqLen_eq_zero.2 e).symm
  · intro h; exact ⟨a.sqLen_nonneg, fun e => h (sqLen_eq_zero.1 e.symm)⟩

theorem len_pos {a : V3} : 0 < a.len ↔ a ≠ 0 := by
  unfold len; rw [Real.sqrt_pos, sqLen_pos]

theorem len_eq_zero {a : V3} : a.len = 0 ↔ a = 0 := by
  unfold len; rw [Real.sqrt_eq_zero a.sqLen_nonneg, sqLen_eq_zero]

theorem dot_comm (a b : V3) : a.dot b = b.dot a := by unfold dot; ring
theorem dot_add (a b c : V3) : a.dot (b + c) = a.dot b + a.dot c := by simp [dot]; ring
theorem dot_sub (a b c : V3) : a.dot (b - c) = a.dot b - a.dot c := by simp [dot]; ring
theorem dot_smul (r : ℝ) (a b : V3) : a.dot (r • b) = r * a.dot b := by simp [dot]; ring
theorem dot_neg (a b : V3) : a.dot (-b) = - a.dot b := by simp [dot]; ring
theorem add_dot (a b c : V3) : (a + b).dot c = a.dot c + b.dot c := by simp [dot]; ring
theorem sub_dot (a b c : V3) : (a - b).dot c = a.dot c - b.dot c := by simp [dot]; ring
theorem smul_dot (r : ℝ) (a b : V3) : (r • a).dot b = r * a.dot b := by simp [dot]; ring
theorem neg_dot (a b : V3) : (-a).dot b = - a.dot b := by simp [dot]; ring
@[simp] theorem dot_zero (a : V3) : a.dot 0 = 0 := by simp [dot]
@[simp] theorem zero_dot (a : V3) : (0 : V3).dot a = 0 := by simp [dot]

theorem sqLen_smul (r : ℝ) (a : V3) : (r • a).sqLen = r ^ 2 * a.sqLen := by
  simp [sqLen]; ring

theorem sqLen_neg (a : V3) : (-a).sqLen = a.sqLen := by simp [sqLen]

theorem len_smul (r : ℝ) (a : V3) : (r • a).len = |r| * a.len := by
  unfold len; rw [sqLen_smul, Real.sqrt_mul (sq_nonneg r), Real.sqrt_sq_eq_abs]

theorem len_neg (a : V3) : (-a).len = a.len := by unfold len; rw [sqLen_neg]

theorem sqLen_sub_comm (a b : V3) : (a - b).sqLen = (b - a).sqLen := by
  simp [sqLen]; ring

theorem len_sub_comm (a b : V3) : (a - b).len = (b - a).len := by
  unfold len; rw [sqLen_sub_comm]

/-- Lagrange identity. -/
theorem sqLen_cross (a b : V3) : (a.cross b).sqLen = a.sqLen * b.sqLen - (a.dot b) ^ 2 := by
  simp [sqLen, cross, dot]; ring

theorem dot_cross_left (a b : V3) : a.dot (a.cross b) = 0 := by simp [dot, cross]; ring
theorem dot_cross_right (a b : V3) : b.dot (a.cross b) = 0 := by simp [dot, cross]; ring

/-- Cauchy-Schwarz. -/
theorem dot_sq_le (a b : V3) : (a.dot b) ^ 2 ≤ a.sqLen * b.sqLen := by
  have := sqLen_nonneg (a.cross b); rw [sqLen_cross] at this; linarith

theorem abs_dot_le (a b : V3) : |a.dot b| ≤ a.len * b.len := by
  have h := dot_sq_le a b
  rw [← len_sq, ← len_sq, ← mul_pow] at h
  exact abs_le_of_sq_le_sq h (mul_nonneg a.len_nonneg b.len_nonneg)

theorem dot_le (a b : V3) : a.dot b ≤ a.len * b.len := le_trans (le_abs_self _) (abs_dot_le a b)

theorem sqLen_add (a b : V3) : (a + b).sqLen = a.sqLen + 2 * a.dot b + b.sqLen := by
  simp [sqLen, dot]; ring

theorem sqLen_sub (a b : V3) : (a - b).sqLen = a.sqLen - 2 * a.dot b + b.sqLen := by
  simp [sqLen, dot]; ring

/-- Triangle inequality. -/
theorem len_add_le (a b : V3) : (a + b).len ≤ a.len + b.len := by
  have h1 : (a + b).len ^ 2 ≤ (a.len + b.len) ^ 2 := by
    rw [len_sq, sqLen_add]
    have := dot_le a b
    have e1 := len_sq a
    have e2 := len_sq b
    nlinarith
  exact le_of_sq_le_sq h1 (add_nonneg a.len_nonneg b.len_nonneg)
where
  le_of_sq_le_sq {u v : ℝ} (h : u ^ 2 ≤ v ^ 2) (hv : 0 ≤ v) : u ≤ v := by
    by_contra hc
    push Not at hc
    nlinarith

end V3
end Verif
