import Verif.Spec.Euclid
import Mathlib.Analysis.SpecialFunctions.Trigonometric.Basic

/-!
# Rotations about the coordinate axes (right-hand rule)
-/

namespace Spec
open Verif

/-- Rotation about the x-axis. -/
noncomputable def rotX (a : ℝ) (v : V3) : V3 :=
  ⟨v.x, Real.cos a * v.y - Real.sin a * v.z, Real.sin a * v.y + Real.cos a * v.z⟩

/-- Rotation about the y-axis. -/
noncomputable def rotY (a : ℝ) (v : V3) : V3 :=
  ⟨Real.cos a * v.x + Real.sin a * v.z, v.y, -Real.sin a * v.x + Real.cos a * v.z⟩

/-- Rotation about the z-axis. -/
noncomputable def rotZ (a : ℝ) (v : V3) : V3 :=
  ⟨Real.cos a * v.x - Real.sin a * v.y, Real.sin a * v.x + Real.cos a * v.y, v.z⟩

/-- Rotation about the direction `e` (formula of Rodrigues). -/
noncomputable def rotAbout (e : V3) (a : ℝ) (v : V3) : V3 :=
  Real.cos a • v + Real.sin a • (⟨e.y * v.z - e.z * v.y, e.z * v.x - e.x * v.z, e.x * v.y - e.y * v.x⟩ : V3) +
    ((1 - Real.cos a) * (e.x * v.x + e.y * v.y + e.z * v.z)) • e

/-- `i` is the first position at which the stream has a value with the given property. -/
def IsFirst {α : Type} (good : α → Prop) (s : ℕ → α) (i : ℕ) : Prop :=
  good (s i) ∧ ∀ k < i, ¬ good (s k)

/-- Direction of steepest descent in a plane with given strike and dip angle (strike is measured from the
y-axis, dip is the angle between the plane and the x-y plane). -/
noncomputable def dipDir (strike dip : ℝ) : V3 :=
  ⟨Real.cos dip * Real.cos strike, Real.cos dip * Real.sin strike, -Real.sin dip⟩

/-- Horizontal direction in a plane with given strike. -/
noncomputable def strikeDir (strike : ℝ) : V3 := ⟨-Real.sin strike, Real.cos strike, 0⟩

/-- Normal of a plane with given strike and dip angle. -/
noncomputable def dipNormal (strike dip : ℝ) : V3 :=
  ⟨Real.sin dip * Real.cos strike, Real.sin dip * Real.sin strike, Real.cos dip⟩

end Spec
