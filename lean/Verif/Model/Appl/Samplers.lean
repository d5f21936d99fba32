import Verif.Model.Common.Math
import Verif.Model.Geometry.Box
import Verif.Model.Sampling.DiskSampler
import Verif.Model.Sampling.PolygonSampler

/-!
# The samplers of the example applications

appl/example1 to appl/example4: the random distributions and the samplers made of them.
-/

namespace Frackit.Appl
open Verif

/-- A random distribution: `std::normal_distribution` with mean and standard deviation, or
`std::uniform_real_distribution` with an interval; `random.gauss` and `random.uniform` in Python. -/
inductive Distro where
  | normal (mean stdDev : ℝ)
  | uniform (a b : ℝ)

/-- `NormalDistro(mean, stdDev)`, e.g. appl/example1/example1.cc:45-49.  The C++ standard requires a positive
standard deviation. -/
noncomputable def normalDistro (mean stdDev : ℝ) : Outcome Distro :=
  open Classical in if 0 < stdDev then .val (.normal mean stdDev) else .ub

/-- `UniformDistro(a, b)`, e.g. appl/example1/example1.cc:46-51.  The C++ standard requires `a ≤ b`. -/
noncomputable def uniformDistro (a b : ℝ) : Outcome Distro :=
  open Classical in if a ≤ b then .val (.uniform a b) else .ub

/-- `random.gauss(mean, stdDev)`, appl/example1/example1.py:10-14, appl/example2/example2.py:13-17,
appl/example3/example3.py:49-51, appl/example4/example4.py:59-61: no requirements. -/
def pyGauss (mean stdDev : ℝ) : Distro := .normal mean stdDev

/-- `random.uniform(a, b)`, appl/example1/example1.py:17-21, appl/example2/example2.py:20-24,
appl/example3/example3.py:44-46, appl/example4/example4.py:54-56: `a + (b - a) * random()`, the bounds may
have any order. -/
noncomputable def pyUniform (a b : ℝ) : Distro := .uniform (min a b) (max a b)

/-- Parameters of a `QuadrilateralSampler` or `PolygonSampler`: orientation, sizes and numbers of corners. -/
structure PolygonSampling where
  strikeAngle : Distro
  dipAngle : Distro
  strikeLength : Distro
  dipLength : Distro
  minCorners : ℤ
  maxCorners : ℤ

/-- `QuadSampler(points, strikeAngle, dipAngle, strikeLength, dipLength)`: the number of corners is drawn from
{4, 4}, frackit/sampling/quadrilateralsampler.hh:155-158. -/
noncomputable def quadSampling (strikeAngle dipAngle strikeLength dipLength : Outcome Distro) : Outcome PolygonSampling := do
  let s ← strikeAngle
  let d ← dipAngle
  let l ← strikeLength
  let m ← dipLength
  pure ⟨s, d, l, m, 4, 4⟩

/-- The domain of the centres of example 1, appl/example1/example1.cc:33-37 and appl/example1/example1.py:3-7. -/
noncomputable def example1Box : Outcome Box := Box.make 0 0 0 1 1 1

/-- The samplers of example 1, appl/example1/example1.cc:47-60. -/
noncomputable def example1Samplers : Outcome (PolygonSampling × PolygonSampling) := do
  let s1 ← quadSampling (normalDistro (toRadians 45) (toRadians 5)) (normalDistro (toRadians 90) (toRadians 5))
    (uniformDistro 0.4 0.8) (uniformDistro 0.4 0.8)
  let s2 ← quadSampling (normalDistro (toRadians 0) (toRadians 5)) (normalDistro (toRadians 0) (toRadians 5))
    (uniformDistro 0.4 0.8) (uniformDistro 0.4 0.8)
  pure (s1, s2)

/-- The domain of the centres of example 2, appl/example2/example2.cc:39 and appl/example2/example2.py:9. -/
noncomputable def example2Box : Outcome Box := Box.make (-0.5) (-0.5) 0 0.5 0.5 1

/-- The samplers of example 2, appl/example2/example2.cc:44-54. -/
noncomputable def example2Samplers : Outcome (PolygonSampling × PolygonSampling) := do
  let s1 ← quadSampling (normalDistro (toRadians 45) (toRadians 5)) (normalDistro (toRadians 90) (toRadians 5))
    (uniformDistro 0.4 0.6) (uniformDistro 0.4 0.6)
  let s2 ← quadSampling (normalDistro (toRadians 0) (toRadians 5)) (normalDistro (toRadians 0) (toRadians 5))
    (uniformDistro 0.5 0.1) (uniformDistro 0.4 0.6)
  pure (s1, s2)

/-- Parameters of a `DiskSampler`. -/
structure DiskSampling where
  major : Distro
  minor : Distro
  angleX : Distro
  angleY : Distro
  angleZ : Distro

/-- The samplers of example 3, appl/example3/example3.cc:82-94. -/
noncomputable def example3Samplers : Outcome (DiskSampling × PolygonSampling) := do
  let a ← normalDistro 30 6.5
  let b ← normalDistro 24 4.5
  let x ← normalDistro (toRadians 0) (toRadians 7.5)
  let y ← normalDistro (toRadians 0) (toRadians 7.5)
  let z ← normalDistro (toRadians 0) (toRadians 7.5)
  let q ← quadSampling (normalDistro (toRadians 45) (toRadians 5)) (normalDistro (toRadians 90) (toRadians 5))
    (uniformDistro 30 60) (uniformDistro 30 60)
  pure (⟨a, b, x, y, z⟩, q)

/-- The lambda `getSampler` of example 4, appl/example4/example4.cc:124-150, and the Python function,
appl/example4/example4.py:75-93. -/
noncomputable def example4Sampler (orientation : ℕ) : Outcome PolygonSampling := do
  let size ← uniformDistro 3 6
  match orientation with
  | 1 => do
      let s ← normalDistro (toRadians 15) (toRadians 10)
      let d ← normalDistro (toRadians 90) (toRadians 10)
      pure ⟨s, d, size, size, 4, 9⟩
  | 2 => do
      let s ← normalDistro (toRadians 0) (toRadians 10)
      let d ← normalDistro (toRadians 0) (toRadians 10)
      pure ⟨s, d, size, size, 4, 9⟩
  | 3 => do
      let s ← normalDistro (toRadians (-75)) (toRadians 10)
      let d ← normalDistro (toRadians 90) (toRadians 10)
      pure ⟨s, d, size, size, 4, 9⟩
  | _ => .thrown "Unsupported orientation index"

/-- The samplers of example 1 in Python, appl/example1/example1.py:23-38. -/
noncomputable def example1PySamplers : PolygonSampling × PolygonSampling :=
  (⟨pyGauss (toRadians 45) (toRadians 5), pyGauss (toRadians 90) (toRadians 5), pyUniform 0.4 0.8, pyUniform 0.4 0.8, 4, 4⟩,
    ⟨pyGauss (toRadians 0) (toRadians 5), pyGauss (toRadians 0) (toRadians 5), pyUniform 0.4 0.8, pyUniform 0.4 0.8, 4, 4⟩)

/-- The samplers of example 2 in Python, appl/example2/example2.py:29-40. -/
noncomputable def example2PySamplers : PolygonSampling × PolygonSampling :=
  (⟨pyGauss (toRadians 45) (toRadians 5), pyGauss (toRadians 90) (toRadians 5), pyUniform 0.4 0.6, pyUniform 0.4 0.6, 4, 4⟩,
    ⟨pyGauss (toRadians 0) (toRadians 5), pyGauss (toRadians 0) (toRadians 5), pyUniform 0.4 0.6, pyUniform 0.4 0.6, 4, 4⟩)

/-- The samplers of example 3 in Python, appl/example3/example3.py:56-68: the axes of the disks have uniform
distributions there. -/
noncomputable def example3PySamplers : DiskSampling × PolygonSampling :=
  (⟨pyUniform 30 6.5, pyUniform 24 4.5, pyGauss (toRadians 0) (toRadians 7.5), pyGauss (toRadians 0) (toRadians 7.5),
      pyGauss (toRadians 0) (toRadians 7.5)⟩,
    ⟨pyGauss (toRadians 45) (toRadians 5), pyGauss (toRadians 90) (toRadians 5), pyUniform 30 60, pyUniform 30 60, 4, 4⟩)

end Frackit.Appl
