import Verif.Core.Vec

/-!
# Elementary Euclidean geometry, written in coordinates

Specifications used by the property theorems.  Only the coordinate triple `V3` is shared with the
model; none of the model's functions are used.
-/

namespace Spec
open Verif

/-- Euclidean distance. -/
noncomputable def dist (p q : V3) : ℝ :=
  Real.sqrt ((p.x - q.x) ^ 2 + (p.y - q.y) ^ 2 + (p.z - q.z) ^ 2)

/-- Euclidean length. -/
noncomputable def norm (v : V3) : ℝ := Real.sqrt (v.x ^ 2 + v.y ^ 2 + v.z ^ 2)

/-- Inner product. -/
def inner (a b : V3) : ℝ := a.x * b.x + a.y * b.y + a.z * b.z

/-- Vector of length one. -/
def IsUnit (v : V3) : Prop := v.x ^ 2 + v.y ^ 2 + v.z ^ 2 = 1

/-- Orthogonal vectors. -/
def Orthogonal (a b : V3) : Prop := inner a b = 0

/-- Determinant of the matrix with rows `a`, `b`, `c`. -/
def det (a b c : V3) : ℝ :=
  a.x * (b.y * c.z - b.z * c.y) - a.y * (b.x * c.z - b.z * c.x) + a.z * (b.x * c.y - b.y * c.x)

/-- Right-handed orthonormal system. -/
def RightHandedOrthonormal (a b c : V3) : Prop :=
  IsUnit a ∧ IsUnit b ∧ IsUnit c ∧ Orthogonal a b ∧ Orthogonal b c ∧ Orthogonal a c ∧ det a b c = 1

/-- `p` is on the plane through `q` with normal `n`. -/
def OnPlane (q n p : V3) : Prop :=
  n.x * (p.x - q.x) + n.y * (p.y - q.y) + n.z * (p.z - q.z) = 0

/-- `p` is on the line through `q` with direction `d`. -/
def OnLine (q d p : V3) : Prop :=
  ∃ t : ℝ, p.x = q.x + t * d.x ∧ p.y = q.y + t * d.y ∧ p.z = q.z + t * d.z

/-- `p` is on the straight segment between `a` and `b`. -/
def OnSegment (a b p : V3) : Prop :=
  ∃ t : ℝ, 0 ≤ t ∧ t ≤ 1 ∧ p.x = (1 - t) * a.x + t * b.x ∧
    p.y = (1 - t) * a.y + t * b.y ∧ p.z = (1 - t) * a.z + t * b.z

/-- Three points on a common line. -/
def Collinear (a b c : V3) : Prop :=
  ∃ q d : V3, OnLine q d a ∧ OnLine q d b ∧ OnLine q d c

/-! ## Bridges to the vector operations of the model's carrier -/

theorem inner_eq_dot (a b : V3) : inner a b = a.dot b := rfl

theorem norm_eq_len (v : V3) : norm v = v.len := by
  unfold norm V3.len V3.sqLen; congr 1; ring

theorem dist_eq_len (p q : V3) : dist p q = (p - q).len := by
  unfold dist V3.len V3.sqLen; congr 1; simp; ring

theorem dist_comm (p q : V3) : dist p q = dist q p := by
  unfold dist; congr 1; ring

theorem isUnit_iff (v : V3) : IsUnit v ↔ v.sqLen = 1 := by
  unfold IsUnit V3.sqLen; constructor <;> intro h <;> linarith

theorem onSegment_iff (a b p : V3) :
    OnSegment a b p ↔ ∃ t : ℝ, 0 ≤ t ∧ t ≤ 1 ∧ p = a + t • (b - a) := by
  unfold OnSegment
  constructor
  · rintro ⟨t, h0, h1, hx, hy, hz⟩
    refine ⟨t, h0, h1, ?_⟩
    ext <;> simp [hx, hy, hz] <;> ring
  · rintro ⟨t, h0, h1, rfl⟩
    refine ⟨t, h0, h1, ?_, ?_, ?_⟩ <;> simp <;> ring

theorem onLine_iff (q d p : V3) : OnLine q d p ↔ ∃ t : ℝ, p = q + t • d := by
  unfold OnLine
  constructor
  · rintro ⟨t, hx, hy, hz⟩; exact ⟨t, by ext <;> simp [hx, hy, hz]⟩
  · rintro ⟨t, rfl⟩; exact ⟨t, by simp, by simp, by simp⟩

theorem onPlane_iff (q n p : V3) : OnPlane q n p ↔ n.dot (p - q) = 0 := by
  unfold OnPlane V3.dot; simp

end Spec
