import Verif.Model.Python.Operators

/-!
# Specification: arithmetic operators in Python

In terms of coordinates.
-/

namespace Spec
open Verif Frackit Frackit.Ops

/-- `a o b` is defined, with the result `r`. -/
inductive OpResult : Op → Obj → Obj → Obj → Prop where
  | pointPlus {n : ℕ} (p v r : Fin n → ℝ) : (∀ i, r i = p i + v i) →
      OpResult .add (.point n p) (.vector n v) (.point n r)
  | pointMinus {n : ℕ} (p v r : Fin n → ℝ) : (∀ i, r i = p i - v i) →
      OpResult .sub (.point n p) (.vector n v) (.point n r)
  | vectorPlus {n : ℕ} (v w r : Fin n → ℝ) : (∀ i, r i = v i + w i) →
      OpResult .add (.vector n v) (.vector n w) (.vector n r)
  | vectorMinus {n : ℕ} (v w r : Fin n → ℝ) : (∀ i, r i = v i - w i) →
      OpResult .sub (.vector n v) (.vector n w) (.vector n r)
  | scalarProduct {n : ℕ} (v w : Fin n → ℝ) : OpResult .mul (.vector n v) (.vector n w) (.number (∑ i, v i * w i))
  | directionTimes {n : ℕ} (d r : Fin n → ℝ) (x : ℝ) : (∀ i, r i = x * d i) →
      OpResult .mul (.direction n d) (.number x) (.vector n r)
  | sum (x y : ℝ) : OpResult .add (.number x) (.number y) (.number (x + y))
  | difference (x y : ℝ) : OpResult .sub (.number x) (.number y) (.number (x - y))
  | product (x y : ℝ) : OpResult .mul (.number x) (.number y) (.number (x * y))
  | quotient (x y : ℝ) : y ≠ 0 → OpResult .div (.number x) (.number y) (.number (x / y))

/-- Statements `x o= y` that modify the object, with the new value. -/
inductive Modified : Op → Obj → Obj → Obj → Prop where
  | pointPlus {n : ℕ} (p v r : Fin n → ℝ) : (∀ i, r i = p i + v i) →
      Modified .add (.point n p) (.vector n v) (.point n r)
  | pointMinus {n : ℕ} (p v r : Fin n → ℝ) : (∀ i, r i = p i - v i) →
      Modified .sub (.point n p) (.vector n v) (.point n r)
  | pointTimes {n : ℕ} (p r : Fin n → ℝ) (x : ℝ) : (∀ i, r i = x * p i) →
      Modified .mul (.point n p) (.number x) (.point n r)
  | pointOver {n : ℕ} (p r : Fin n → ℝ) (x : ℝ) : x ≠ 0 → (∀ i, r i = p i / x) →
      Modified .div (.point n p) (.number x) (.point n r)
  | vectorTimes {n : ℕ} (v r : Fin n → ℝ) (x : ℝ) : (∀ i, r i = x * v i) →
      Modified .mul (.vector n v) (.number x) (.vector n r)
  | vectorOver {n : ℕ} (v r : Fin n → ℝ) (x : ℝ) : x ≠ 0 → (∀ i, r i = v i / x) →
      Modified .div (.vector n v) (.number x) (.vector n r)

/-- The two objects are of the same class. -/
def SameClass : Obj → Obj → Prop
  | .number _, .number _ => True
  | .point n _, .point m _ => n = m
  | .vector n _, .vector m _ => n = m
  | .direction n _, .direction m _ => n = m
  | .other, .other => True
  | _, _ => False

end Spec
