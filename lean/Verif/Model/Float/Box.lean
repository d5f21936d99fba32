import Verif.Model.Float.Vector
import Verif.Model.Geometry.Box

/-!
# Boxes in double precision

frackit/geometry/box.hh, frackit/intersection/bboxintersection.hh and frackit/precision/defaultepsilon.hh once more,
with the arithmetic of `double`.
-/

namespace Frackit.Fp
open Verif

/-- `OCCPrecision::Confusion()`, the constant 1e-7. -/
noncomputable def confusion : ℝ := rnd (1 / 10 ^ 7)

/-- `Box::volume`, frackit/geometry/box.hh:101-106. -/
noncomputable def boxVolume (b : Box) : ℝ :=
  mul (mul (sub b.xMax b.xMin) (sub b.yMax b.yMin)) (sub b.zMax b.zMin)

/-- `Box::center`, frackit/geometry/box.hh:113-118. -/
noncomputable def boxCenter (b : Box) : V3 :=
  ⟨add b.xMin (mul 0.5 (sub b.xMax b.xMin)), add b.yMin (mul 0.5 (sub b.yMax b.yMin)),
   add b.zMin (mul 0.5 (sub b.zMax b.zMin))⟩

/-- `Box::contains(p, eps)`, frackit/geometry/box.hh:189-194. -/
def boxContains (b : Box) (p : V3) (eps : ℝ) : Prop :=
  p.x > sub b.xMin eps ∧ p.x < add b.xMax eps ∧ p.y > sub b.yMin eps ∧ p.y < add b.yMax eps ∧
  p.z > sub b.zMin eps ∧ p.z < add b.zMax eps

/-- `defaultEpsilon(box)`, frackit/precision/defaultepsilon.hh:133-137, which is also the tolerance of
`Box::contains(p)`, frackit/geometry/box.hh:201-206. -/
noncomputable def boxEps (b : Box) : ℝ :=
  mul confusion (length ⟨sub b.xMax b.xMin, sub b.yMax b.yMin, sub b.zMax b.zMin⟩)

/-- `Box::contains(p)`, frackit/geometry/box.hh:201-206. -/
def boxContainsDefault (b : Box) (p : V3) : Prop := boxContains b p (boxEps b)

open Classical in
/-- `intervalsOverlap`, frackit/common/math.hh:54-67 (asserts compiled out). -/
def intervalsOverlap (i1 i2 : Interval) (eps : ℝ) : Prop :=
  if i1.hi > add i2.hi eps then i1.lo < add i2.hi eps
  else if i1.lo < sub i2.lo eps then i1.hi > sub i2.lo eps
  else True

open Classical in
/-- `doIntersect(bbox1, bbox2, eps)`, frackit/intersection/bboxintersection.hh:43-59. -/
def doIntersect (b1 b2 : Box) (eps : ℝ) : Prop :=
  if ¬ intervalsOverlap ⟨b1.xMin, b1.xMax⟩ ⟨b2.xMin, b2.xMax⟩ eps then False
  else if ¬ intervalsOverlap ⟨b1.yMin, b1.yMax⟩ ⟨b2.yMin, b2.yMax⟩ eps then False
  else intervalsOverlap ⟨b1.zMin, b1.zMax⟩ ⟨b2.zMin, b2.zMax⟩ eps

/-- `doIntersect(bbox1, bbox2)`, frackit/intersection/bboxintersection.hh:69-71. -/
def doIntersectDefault (b1 b2 : Box) : Prop :=
  doIntersect b1 b2 (mul 0.5 (add (boxEps b1) (boxEps b2)))

end Frackit.Fp
