import Mathlib.Analysis.Real.Sqrt
import Verif.Core.Vec

/-!
# The numbers of type `double`
-/

namespace Spec
open Verif

/-- The numbers with a significand of at most 53 bits (of any exponent). -/
def IsDouble (x : ℝ) : Prop := ∃ m e : ℤ, |m| ≤ 2 ^ 53 ∧ x = m * 2 ^ e

/-- The coordinates are numbers of type `double`. -/
def DoubleCoordinates (v : V3) : Prop := IsDouble v.x ∧ IsDouble v.y ∧ IsDouble v.z

end Spec
