import Verif.Spec.Double

/-!
# Numbers of moderate magnitude
-/

namespace Spec
open Verif

/-- A number of type `double` of moderate magnitude: a multiple of 2⁻²⁰⁰ not exceeding 2²⁰⁰ (1.6e60).  Zero and the
numbers of magnitude 2⁻¹⁴⁷ (5.6e-45) to 2²⁰⁰ are of this kind. -/
def Moderate (x : ℝ) : Prop := IsDouble x ∧ (∃ m : ℤ, x = m * 2 ^ (-200 : ℤ)) ∧ |x| ≤ 2 ^ (200 : ℤ)

/-- The coordinates are of moderate magnitude. -/
def ModerateCoordinates (v : V3) : Prop := Moderate v.x ∧ Moderate v.y ∧ Moderate v.z

/-- A finite number of type `double`: a significand of at most 53 bits, a multiple of 2⁻¹⁰⁷⁴ and below 2¹⁰²⁴. -/
def IsBinary64 (x : ℝ) : Prop := IsDouble x ∧ (∃ m : ℤ, x = m * 2 ^ (-1074 : ℤ)) ∧ |x| < 2 ^ (1024 : ℤ)

end Spec
