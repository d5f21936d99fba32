import Verif.Model.Float.Vector
import Verif.Model.Geometry.Box
import Verif.Model.Geometry.Elliptical

/-!
# Point samplers in double precision

frackit/sampling/{boxpointsampler,cylinderpointsampler,makepointsampler}.hh once more, with the arithmetic of `double`
and the way in which the distributions compute the numbers they return.
-/

namespace Frackit.Fp
open Verif

/-- A call of `std::uniform_real_distribution<double>(a, b)`, the distribution chosen by
frackit/sampling/uniformpointsamplertraits.hh:72-78, as implemented by libstdc++: `u*(b - a) + a` for a number `u` in
[0, 1) of type `double` that is determined by the random number generator.  `random.uniform(a, b)`, which is used by
python/frackit/sampling/__init__.py:75-81, computes the same. -/
noncomputable def uniform (u a b : ℝ) : ℝ := add (mul u (sub b a)) a

/-- A point sampled by the sampler that `makePointSampler(const Box&)`, frackit/sampling/makepointsampler.hh:84-92,
returns: `BoxPointSampler::operator()`, frackit/sampling/boxpointsampler.hh:79-84; `ux`, `uy` and `uz` are the numbers
used by the distributions. -/
noncomputable def boxSample (b : Box) (ux uy uz : ℝ) : V3 :=
  ⟨uniform ux b.xMin b.xMax, uniform uy b.yMin b.yMax, uniform uz b.zMin b.zMax⟩

/-- `std::sin` of `double`.  Simplified: assumes that the implementation is correctly rounded. -/
noncomputable def sin (x : ℝ) : ℝ := rnd (Real.sin x)

/-- `std::cos` of `double`.  Simplified: assumes that the implementation is correctly rounded. -/
noncomputable def cos (x : ℝ) : ℝ := rnd (Real.cos x)

/-- Operator `*=` of vectors, frackit/geometry/vector.hh:180-185. -/
noncomputable def scale (v : V3) (s : ℝ) : V3 := ⟨mul v.x s, mul v.y s, mul v.z s⟩

/-- Operator `+=` of points, frackit/geometry/point.hh:92-100. -/
noncomputable def move (p v : V3) : V3 := ⟨add p.x v.x, add p.y v.y, add p.z v.z⟩

/-- `CylinderPointSampler::operator()`, frackit/sampling/cylinderpointsampler.hh:89-115, for the values drawn for angle,
height and squared radius (which is not negative). -/
noncomputable def cylinderPoint (bottom : Elliptical) (phi h r2 : ℝ) : V3 :=
  let r := sqrt r2
  let a := scale bottom.major (mul r (cos phi))
  let b := scale bottom.minor (mul r (sin phi))
  let n := scale bottom.normal h
  move (move (move bottom.center a) b) n

/-- A point sampled by the sampler that `makePointSampler(const Cylinder&)`, frackit/sampling/makepointsampler.hh:44-53,
returns for a cylinder with the given bottom face, radius and height. -/
noncomputable def cylinderSample (bottom : Elliptical) (radius height ur uphi uh : ℝ) : V3 :=
  cylinderPoint bottom (uniform uphi 0 (mul 2 pi)) (uniform uh 0 height) (uniform ur 0 (mul radius radius))

/-- A point sampled by the sampler that `makePointSampler(const HollowCylinder&)`,
frackit/sampling/makepointsampler.hh:64-77, returns for a hollow cylinder whose full cylinder has the given bottom face. -/
noncomputable def hollowCylinderSample (bottom : Elliptical) (r1 r2 height ur uphi uh : ℝ) : V3 :=
  cylinderPoint bottom (uniform uphi 0 (mul 2 pi)) (uniform uh 0 height) (uniform ur (mul r1 r1) (mul r2 r2))

end Frackit.Fp
