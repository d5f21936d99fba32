import Verif.Model.Float.Elliptical

/-!
# Rotations and sampled disks in double precision

frackit/common/math.hh and frackit/sampling/disksampler.hh once more, with the arithmetic of `double`.
-/

namespace Frackit.Fp
open Verif

/-- First row of the rotation matrix, frackit/common/math.hh:153-159. -/
noncomputable def rotRx (axis : V3) (angle : ℝ) : V3 :=
  let cosPhi := cos angle
  let sinPhi := sin angle
  let oneMinusCosPhi := sub 1 cosPhi
  ⟨add cosPhi (mul (mul axis.x axis.x) oneMinusCosPhi),
   sub (mul (mul axis.x axis.y) oneMinusCosPhi) (mul axis.z sinPhi),
   add (mul (mul axis.x axis.z) oneMinusCosPhi) (mul axis.y sinPhi)⟩

/-- Second row, frackit/common/math.hh:160-162. -/
noncomputable def rotRy (axis : V3) (angle : ℝ) : V3 :=
  let cosPhi := cos angle
  let sinPhi := sin angle
  let oneMinusCosPhi := sub 1 cosPhi
  ⟨add (mul (mul axis.y axis.x) oneMinusCosPhi) (mul axis.z sinPhi),
   add cosPhi (mul (mul axis.y axis.y) oneMinusCosPhi),
   sub (mul (mul axis.y axis.z) oneMinusCosPhi) (mul axis.x sinPhi)⟩

/-- Third row, frackit/common/math.hh:163-165. -/
noncomputable def rotRz (axis : V3) (angle : ℝ) : V3 :=
  let cosPhi := cos angle
  let sinPhi := sin angle
  let oneMinusCosPhi := sub 1 cosPhi
  ⟨sub (mul (mul axis.z axis.x) oneMinusCosPhi) (mul axis.y sinPhi),
   add (mul (mul axis.z axis.y) oneMinusCosPhi) (mul axis.x sinPhi),
   add cosPhi (mul (mul axis.z axis.z) oneMinusCosPhi)⟩

/-- `rotate(v, axis, angle)`, frackit/common/math.hh:145-167, and what `rotate(vectors, axis, angle)`,
math.hh:180-204, does to every vector. -/
noncomputable def rotate (v axis : V3) (angle : ℝ) : V3 :=
  ⟨scalarProduct (rotRx axis angle) v, scalarProduct (rotRy axis angle) v, scalarProduct (rotRz axis angle) v⟩

/-- `DiskSampler::operator()`, frackit/sampling/disksampler.hh:153-171, for the values drawn for the axis lengths (which
are positive) and the angles, and the sampled point. -/
noncomputable def diskOfDraws (center : V3) (a b alpha beta gamma : ℝ) : Outcome Elliptical := do
  let axis0 : V3 := ⟨1, 0, 0⟩
  let axis1 : V3 := ⟨0, 1, 0⟩
  let e1 ← mkDirection axis0
  let e2 ← mkDirection axis1
  let e3 ← mkDirection ⟨0, 0, 1⟩
  let axis1 := rotate axis1 e1 alpha
  let axis0 := rotate axis0 e2 beta
  let axis1 := rotate axis1 e2 beta
  let axis0 := rotate axis0 e3 gamma
  let axis1 := rotate axis1 e3 gamma
  let major ← mkDirection axis0
  let minor ← mkDirection axis1
  ellipticalMake center major minor a (min a b)

/-- The condition of the assertion in the constructor of elliptical geometries,
frackit/geometry/ellipticalgeometry.hh:96 (the literal `1e-7` is a number of type `double`). -/
def ellipticalAssertion (major minor : V3) : Prop := |scalarProduct minor major| < confusion

end Frackit.Fp
