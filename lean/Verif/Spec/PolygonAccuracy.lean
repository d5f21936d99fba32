import Verif.Spec.Rotation
import Mathlib.Algebra.BigOperators.Group.List.Basic

/-!
# Accuracy of sampled polygons
-/

namespace Spec
open Verif

/-- The vector with the given coordinates (in the direction of the dip and along the strike) in a plane with the given strike
and dip angle. -/
noncomputable def inPlane (strike dip : ℝ) (e : ℝ × ℝ) : V3 := e.1 • dipDir strike dip + e.2 • strikeDir strike

/-- Total length of the edges with the given coordinates in the plane. -/
noncomputable def edgeSum (edges : List (ℝ × ℝ)) : ℝ := (edges.map fun e => √(e.1 ^ 2 + e.2 ^ 2)).sum

/-- Position of the `k`-th corner relative to the first one. -/
noncomputable def cornerAt (strike dip : ℝ) (edges : List (ℝ × ℝ)) (k : ℕ) : V3 :=
  ((edges.take k).map (inPlane strike dip)).sum

/-- Sum of the positive numbers of a list. -/
noncomputable def positiveSum (xs : List ℝ) : ℝ := (xs.map fun x => max 0 x).sum

end Spec
