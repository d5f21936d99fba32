import Mathlib.Data.List.Basic

/-!
# Specification: which constraints are registered for which ordered pair of ids
-/

namespace Spec.Matrix

variable {C : Type}

/-- Registered constraints: the ordered pair of ids and the constraints object, in the order of
registration. -/
abbrev Regs (C : Type) := List ((ℕ × ℕ) × C)

/-- The pair has constraints. -/
def Has (r : Regs C) (p : ℕ × ℕ) : Prop := ∃ c, (p, c) ∈ r

/-- Registration of one constraints object for a list of pairs: the pairs are registered one by one
until one is found that has constraints already. -/
def add (r : Regs C) (c : C) : List (ℕ × ℕ) → Regs C
  | [] => r
  | p :: t => if p ∈ r.map (·.1) then r else add (r ++ [(p, c)]) c t

/-- Registered constraints after a history of registrations. -/
def regs (calls : List (C × List (ℕ × ℕ))) : Regs C :=
  calls.foldl (fun r x => add r x.1 x.2) []

end Spec.Matrix
