import Verif.Core.Vec
import Verif.Core.Outcome
import Mathlib.Analysis.SpecialFunctions.Trigonometric.Inverse

/-!
# frackit/common/math.hh, frackit/precision/precision.hh
-/

namespace Frackit
open Verif

/-- `Precision<ctype>::confusion()`, frackit/precision/precision.hh:45.
The value of `OCCPrecision::Confusion()` is the documented OpenCASCADE constant 1e-7. -/
noncomputable def confusion : ℝ := 1 / 10 ^ 7

/-- `Precision<ctype>::angular()`, frackit/precision/precision.hh:53.
`OCCPrecision::Angular()` is the documented OpenCASCADE constant 1e-12. -/
noncomputable def angular : ℝ := 1 / 10 ^ 12 * 10 ^ 2

/-- `std::numeric_limits<double>::max()`, used in frackit/distance/distance.hh,
frackit/distance/distancetoboundary.hh and frackit/intersection/intersectionangle.hh. -/
noncomputable def doubleMax : ℝ := (2 - 1 / 2 ^ 52) * 2 ^ 1023

theorem confusion_pos : 0 < confusion := by unfold confusion; positivity
theorem angular_pos : 0 < angular := by unfold angular; positivity

/-- A closed interval `std::array<Scalar, 2>` (lower, upper). -/
structure Interval where
  lo : ℝ
  hi : ℝ

/-- `intervalsOverlap`, frackit/common/math.hh:54-67 (asserts on the order are compiled out). -/
def intervalsOverlap (i1 i2 : Interval) (eps : ℝ) : Prop :=
  if i1.hi > i2.hi + eps then i1.lo < i2.hi + eps
  else if i1.lo < i2.lo - eps then i1.hi > i2.lo - eps
  else True

/-- `boxProduct`, frackit/common/math.hh:98-102. -/
def boxProduct (v1 v2 v3 : V3) : ℝ := v1.dot (v2.cross v3)

/-- `isRightHandSystem`, frackit/common/math.hh:109-118 (assert compiled out). -/
def isRightHandSystem (v1 v2 v3 : V3) : Prop := boxProduct v1 v2 v3 > 0

/-- `toDegrees`, frackit/common/math.hh:124-126. -/
noncomputable def toDegrees (radians : ℝ) : ℝ := radians * 180 / Real.pi

/-- `toRadians`, frackit/common/math.hh:132-134. -/
noncomputable def toRadians (degrees : ℝ) : ℝ := degrees * Real.pi / 180

/-- First row of the rotation matrix, frackit/common/math.hh:156-158. -/
noncomputable def rotRx (axis : V3) (angle : ℝ) : V3 :=
  ⟨Real.cos angle + axis.x * axis.x * (1 - Real.cos angle),
   axis.x * axis.y * (1 - Real.cos angle) - axis.z * Real.sin angle,
   axis.x * axis.z * (1 - Real.cos angle) + axis.y * Real.sin angle⟩

/-- Second row of the rotation matrix, frackit/common/math.hh:159-161. -/
noncomputable def rotRy (axis : V3) (angle : ℝ) : V3 :=
  ⟨axis.y * axis.x * (1 - Real.cos angle) + axis.z * Real.sin angle,
   Real.cos angle + axis.y * axis.y * (1 - Real.cos angle),
   axis.y * axis.z * (1 - Real.cos angle) - axis.x * Real.sin angle⟩

/-- Third row of the rotation matrix, frackit/common/math.hh:162-164. -/
noncomputable def rotRz (axis : V3) (angle : ℝ) : V3 :=
  ⟨axis.z * axis.x * (1 - Real.cos angle) - axis.y * Real.sin angle,
   axis.z * axis.y * (1 - Real.cos angle) + axis.x * Real.sin angle,
   Real.cos angle + axis.z * axis.z * (1 - Real.cos angle)⟩

/-- `rotate(v, axis, angle)`, frackit/common/math.hh:145-167.  The in-place update of `v` is the
returned value. -/
noncomputable def rotate (v axis : V3) (angle : ℝ) : V3 :=
  ⟨(rotRx axis angle).dot v, (rotRy axis angle).dot v, (rotRz axis angle).dot v⟩

/-- `rotate(vectors, axis, angle)`, frackit/common/math.hh:180-204: the matrix is set up once and
then applied to each vector of the list. -/
noncomputable def rotateList (vs : List V3) (axis : V3) (angle : ℝ) : List V3 :=
  let Rx := rotRx axis angle
  let Ry := rotRy axis angle
  let Rz := rotRz axis angle
  vs.map fun v => ⟨Rx.dot v, Ry.dot v, Rz.dot v⟩

end Frackit
