import Verif.Spec.Planar
import Verif.Spec.Rotation
import Mathlib.Order.Bounds.Basic

/-!
# What is expected of a randomly sampled polygon
-/

namespace Spec
open Verif

/-- The values of `f` on the points range from `lo` to `hi`, and both are attained. -/
def Extent (f : V3 → ℝ) (cs : List V3) (lo hi : ℝ) : Prop :=
  IsLeast {y | ∃ p ∈ cs, f p = y} lo ∧ IsGreatest {y | ∃ p ∈ cs, f p = y} hi

/-- The center of the bounding box of the points is `c`. -/
def BoxCenter (cs : List V3) (c : V3) : Prop :=
  ∀ f ∈ [V3.x, V3.y, V3.z], ∃ lo hi, Extent f cs lo hi ∧ (lo + hi) / 2 = f c

/-- Convex planar polygon with `n` corners in a plane of the given orientation, whose bounding box is
centred at `c`, and whose sizes in dip and strike direction are between 80% and 100% of the
given lengths. -/
structure SampledPolygon (n : ℕ) (strike dip strikeLength dipLength : ℝ) (c : V3) (cs : List V3) :
    Prop where
  count : cs.length = n
  planar : ∀ p ∈ cs, PlanarPolygon (dipNormal strike dip) p cs
  centered : BoxCenter cs c
  dipExtent : ∃ lo hi, Extent (inner (dipDir strike dip)) cs lo hi ∧
    4 / 5 * dipLength ≤ hi - lo ∧ hi - lo ≤ dipLength
  strikeExtent : ∃ lo hi, Extent (inner (strikeDir strike)) cs lo hi ∧
    4 / 5 * strikeLength ≤ hi - lo ∧ hi - lo ≤ strikeLength
  convex : ConvexPolygon (dipNormal strike dip) cs ∨ ConvexPolygon (-dipNormal strike dip) cs

/-- No edge has a component in dip or strike direction that is tiny but not zero. -/
def NoTinyEdges (strike dip : ℝ) (cs : List V3) : Prop :=
  ∀ e ∈ polyEdges cs, ∀ g ∈ [dipDir strike dip, strikeDir strike],
    inner g (e.2 - e.1) = 0 ∨ 1 / 10 ^ 6 ≤ |inner g (e.2 - e.1)|

end Spec
