import Verif.Core.Outcome
import Mathlib.Analysis.SpecialFunctions.Trigonometric.Inverse
import Mathlib.Algebra.BigOperators.Fin

/-!
# Points, vectors and directions of any dimension

frackit/geometry/{point,vector,direction}.hh for the template parameter `wd`, which is 1, 2 or 3 in the code.
The other modules use the three-dimensional versions as `V3`.
-/

namespace Frackit
open Verif

/-- `std::array<ctype, wd>`, frackit/geometry/point.hh:166, vector.hh:217, direction.hh:95,157,232. -/
abbrev Coords (n : ℕ) := Fin n → ℝ

/-- `PointBase()` and `VectorBase()`, frackit/geometry/point.hh:63-66, vector.hh:87-90. -/
def Coords.default (n : ℕ) : Coords n := fun _ => 0

/-- `PointBase(initializer_list)` and `VectorBase(initializer_list)`, frackit/geometry/point.hh:72-76,
vector.hh:96-100.  If the list is shorter than the dimension, the remaining coordinates stay uninitialised; they are
read by every further use. -/
def Coords.ofInitializerList (n : ℕ) (l : List ℝ) : Outcome (Coords n) :=
  if l.length < n then .ub else .val fun i => l.getD i 0

/-- `Vector(a, b)`, frackit/geometry/vector.hh:236-239,284-287,336-339. -/
def vectorBetween {n : ℕ} (a b : Coords n) : Coords n := fun i => b i - a i

/-- `VectorBase::squaredLength`, frackit/geometry/vector.hh:106-112. -/
def Coords.squaredLength {n : ℕ} (v : Coords n) : ℝ := ∑ i, v i * v i

/-- `VectorBase::length`, frackit/geometry/vector.hh:115-119. -/
noncomputable def Coords.length {n : ℕ} (v : Coords n) : ℝ := Real.sqrt v.squaredLength

/-- `VectorBase::operator*(Vector)`, frackit/geometry/vector.hh:138-145. -/
def Coords.scalarProduct {n : ℕ} (v w : Coords n) : ℝ := ∑ i, v i * w i

/-- `VectorBase::operator+`, frackit/geometry/vector.hh:149-161. -/
def Coords.plus {n : ℕ} (v w : Coords n) : Coords n := fun i => v i + w i

/-- `VectorBase::operator-`, frackit/geometry/vector.hh:164-176. -/
def Coords.minus {n : ℕ} (v w : Coords n) : Coords n := fun i => v i - w i

/-- `VectorBase::operator*=` and `PointBase::operator*=`, frackit/geometry/vector.hh:179-185, point.hh:133-138. -/
def Coords.scale {n : ℕ} (v : Coords n) (a : ℝ) : Coords n := fun i => v i * a

/-- `VectorBase::operator/=` and `PointBase::operator/=`, frackit/geometry/vector.hh:188-194, point.hh:142-147.
Division by zero gives infinite or `NaN` coordinates, here `nan`. -/
noncomputable def Coords.divide {n : ℕ} (v : Coords n) (a : ℝ) : Outcome (Coords n) :=
  if a = 0 then .nan else .val fun i => v i / a

/-- `PointBase::operator+=` and `operator+`, frackit/geometry/point.hh:92-110. -/
def Coords.moveForward {n : ℕ} (p v : Coords n) : Coords n := fun i => p i + v i

/-- `PointBase::operator-=` and `operator-`, frackit/geometry/point.hh:113-131. -/
def Coords.moveBackward {n : ℕ} (p v : Coords n) : Coords n := fun i => p i - v i

/-- `PointBase::isEqual(other, eps)`, frackit/geometry/point.hh:83-84. -/
def Coords.isEqual {n : ℕ} (p q : Coords n) (eps : ℝ) : Prop := (vectorBetween p q).squaredLength < eps * eps

/-- `VectorBase::isParallel`, frackit/geometry/vector.hh:122-135.  For vectors of zero length the quotient is `NaN`,
whose comparison is false. -/
def Coords.isParallel {n : ℕ} (v w : Coords n) (angularEps : ℝ) : Prop :=
  n = 1 ∨ (v.length ≠ 0 ∧ w.length ≠ 0 ∧
      |Real.arccos (v.scalarProduct w / v.length / w.length)| < angularEps) ∨
    |angularEps - Real.pi| < angularEps

/-- `Direction(const Vector&)`, frackit/geometry/direction.hh:72-78,131-138,194-202. -/
noncomputable def directionOf {n : ℕ} (v : Coords n) : Outcome (Coords n) := v.divide v.length

/-- `Direction::operator*`, frackit/geometry/direction.hh:86-91,149-154,216-221. -/
def directionTimes {n : ℕ} (d : Coords n) (a : ℝ) : Coords n := d.scale a

/-- `Direction::invert`, frackit/geometry/direction.hh:94-98,157-161,224-228. -/
def directionInvert {n : ℕ} (d : Coords n) : Coords n := fun i => d i * (-1)

end Frackit
