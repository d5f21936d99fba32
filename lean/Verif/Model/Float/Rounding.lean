import Mathlib.Data.Int.Log
import Mathlib.Analysis.Real.Sqrt
import Mathlib.Algebra.Order.Round
import Mathlib.Analysis.SpecialFunctions.Trigonometric.Inverse

/-!
# Arithmetic of the type `double`

The other modules model the scalar type of frackit by the real numbers.  The modules in this directory model a part of
the code a second time, with the arithmetic of IEEE 754 binary64 numbers: every operation returns the number with a
significand of 53 bits that is nearest to the exact result, ties going to the number with the even significand.

Simplified: the exponent is not bounded, that is, there is neither overflow nor underflow.  Operations are assumed to
be rounded one by one (no fused multiply-add and no extended precision).
-/

namespace Frackit.Fp

open Classical in
/-- The integer nearest to `t`, ties to even: rounding of the significand prescribed by IEEE 754 (roundTiesToEven). -/
noncomputable def nearestEven (t : ℝ) : ℤ :=
  if t - ⌊t⌋ < 1 / 2 then ⌊t⌋
  else if 1 / 2 < t - ⌊t⌋ then ⌊t⌋ + 1
  else if Even ⌊t⌋ then ⌊t⌋ else ⌊t⌋ + 1

/-- The exponent `e` of the unit in the last place of `x`, such that `2 ^ 52 ≤ |x| / 2 ^ e < 2 ^ 53`. -/
noncomputable def ulpExponent (x : ℝ) : ℤ := Int.log 2 |x| - 52

/-- The number of type `double` that is nearest to `x`. -/
noncomputable def rnd (x : ℝ) : ℝ := nearestEven (x / 2 ^ ulpExponent x) * 2 ^ ulpExponent x

/-- Operator `+` of `double`. -/
noncomputable def add (a b : ℝ) : ℝ := rnd (a + b)

/-- Operator `-` of `double`. -/
noncomputable def sub (a b : ℝ) : ℝ := rnd (a - b)

/-- Operator `*` of `double`. -/
noncomputable def mul (a b : ℝ) : ℝ := rnd (a * b)

/-- Operator `/` of `double`, used for divisors other than zero only. -/
noncomputable def div (a b : ℝ) : ℝ := rnd (a / b)

/-- `std::sqrt` of `double`, which is correctly rounded as required by IEEE 754; used for numbers that are not negative
only. -/
noncomputable def sqrt (a : ℝ) : ℝ := rnd (√a)

open Classical in
/-- `std::acos` of `double`; `none` stands for NaN, which is returned outside of [-1, 1].  Simplified: assumes that
the implementation is correctly rounded. -/
noncomputable def acos (a : ℝ) : Option ℝ := if a < -1 ∨ 1 < a then none else some (rnd (Real.arccos a))

/-- Operator `<` of `double`, which is false if an operand is NaN. -/
def less (a : Option ℝ) (b : ℝ) : Prop := match a with
  | none => False
  | some a => a < b

end Frackit.Fp
