import Verif.Model.Geometry.Cylinder

/-!
# Point samplers

frackit/sampling/{boxpointsampler,cylinderpointsampler,makepointsampler}.hh and
python/frackit/sampling/__init__.py

A distribution is represented by the interval that is requested at its construction; a call of the
sampler is a function of the values returned by the three distributions.  Which values of the
intervals are drawn is left open.
-/

namespace Frackit
open Verif

/-- `CylinderPointSampler<ctype, T>`, frackit/sampling/cylinderpointsampler.hh:118-124, and the Python
class `CylinderPointSampler`, python/frackit/sampling/__init__.py:28-47 (the random number generator
is not part of the state; the Python class stores the cylinder, of which only the bottom face is
used). -/
structure CylinderPointSampler where
  bottom : Elliptical
  radiusSquared : Interval
  angle : Interval
  height : Interval

open Classical in
/-- `CylinderPointSampler::operator()`, frackit/sampling/cylinderpointsampler.hh:89-115, for the values
drawn for angle, height and squared radius.  The square root of a negative number is `NaN`.
The Python `__call__`, python/frackit/sampling/__init__.py:49-71, does the same computation (there
`math.sqrt` throws for negative values, which is not distinguished here). -/
noncomputable def CylinderPointSampler.sample (s : CylinderPointSampler) (phi h r2 : ℝ) : Outcome V3 :=
  if r2 < 0 then .nan
  else
    let r := Real.sqrt r2
    .val (s.bottom.center + (r * Real.cos phi) • s.bottom.major
      + (r * Real.sin phi) • s.bottom.minor + h • s.bottom.normal)

/-- `makePointSampler(const Cylinder&)`, frackit/sampling/makepointsampler.hh:44-53. -/
noncomputable def makeCylinderPointSampler (c : Cylinder) : CylinderPointSampler :=
  ⟨c.bottom, ⟨0, c.radius * c.radius⟩, ⟨0, 2 * Real.pi⟩, ⟨0, c.height⟩⟩

/-- `makePointSampler(const HollowCylinder&)`, frackit/sampling/makepointsampler.hh:64-77. -/
noncomputable def makeHollowCylinderPointSampler (c : HollowCylinder) : Outcome CylinderPointSampler := do
  let r1 := c.innerRadius
  let r2 := c.outerRadius
  let full ← c.fullCylinder
  pure ⟨full.bottom, ⟨r1 * r1, r2 * r2⟩, ⟨0, 2 * Real.pi⟩, ⟨0, full.height⟩⟩

/-- `BoxPointSampler<ctype, T>`, frackit/sampling/boxpointsampler.hh:86-90, and the Python class,
python/frackit/sampling/__init__.py:3-17. -/
structure BoxPointSampler where
  x : Interval
  y : Interval
  z : Interval

/-- `BoxPointSampler::operator()`, frackit/sampling/boxpointsampler.hh:79-84 (braced initialisation
draws from left to right), and `__call__`, python/frackit/sampling/__init__.py:19-25. -/
def BoxPointSampler.sample (_s : BoxPointSampler) (x y z : ℝ) : V3 := ⟨x, y, z⟩

/-- `makePointSampler(const Box&)`, frackit/sampling/makepointsampler.hh:84-92. -/
def makeBoxPointSampler (b : Box) : BoxPointSampler :=
  ⟨⟨b.xMin, b.xMax⟩, ⟨b.yMin, b.yMax⟩, ⟨b.zMin, b.zMax⟩⟩

/-! ## Python -/

/-- The geometries that the Python function distinguishes by `geometry.name()`. -/
inductive PyGeometry where
  | box (b : Box)
  | cylinder (c : Cylinder)
  | hollowCylinder (c : HollowCylinder)
  | other (name : String)

/-- The sampler objects returned by the Python function. -/
inductive PyPointSampler where
  | box (s : BoxPointSampler)
  | cylinder (s : CylinderPointSampler)

/-- `makePointSampler(geometry, ...)`, python/frackit/sampling/__init__.py:84-137.  Note that the
interval for the squared radius is given by the radii, not by their squares (lines 124 and 132). -/
noncomputable def pyMakePointSampler : PyGeometry → Outcome PyPointSampler
  | .box b => .val (.box ⟨⟨b.xMin, b.xMax⟩, ⟨b.yMin, b.yMax⟩, ⟨b.zMin, b.zMax⟩⟩)
  | .cylinder c => .val (.cylinder ⟨c.bottom, ⟨0, c.radius⟩, ⟨0, 2 * Real.pi⟩, ⟨0, c.height⟩⟩)
  | .hollowCylinder c => do
      let full ← c.fullCylinder
      pure (.cylinder ⟨full.bottom, ⟨c.innerRadius, c.outerRadius⟩, ⟨0, 2 * Real.pi⟩, ⟨0, c.height⟩⟩)
  | .other name => .thrown ("No point sample creation formula implemented for provided geometry: " ++ name)

end Frackit
