import Verif.Model.EntityNetwork.Matrix
import Verif.Spec.Matrix

/-!
# Specification: Python arguments
-/

namespace Spec.PyMatrix
open Frackit

variable {C E : Type}

/-- The id pairs at the beginning of a list of items, up to the first item that is not a pair. -/
def prefixPairs : List PyItem → List (ℕ × ℕ)
  | .list [a, b] :: t => (a, b) :: prefixPairs t
  | _ => []

/-- The id pairs denoted by an argument of `addConstraints`: a single pair of ids or a list of pairs. -/
def pairsOf : List PyItem → List (ℕ × ℕ)
  | [.id a, .id b] => [(a, b)]
  | l => prefixPairs l

/-- The argument is a pair of ids or a non-empty list of pairs. -/
def WellFormed (l : List PyItem) : Prop :=
  (∃ a b, l = [.id a, .id b]) ∨ (l ≠ [] ∧ ∀ i ∈ l, ∃ a b, i = .list [a, b])

/-- Registrations after a history of Python calls. -/
def regs (calls : List (C × List PyItem)) : Spec.Matrix.Regs C :=
  Spec.Matrix.regs (calls.map (fun x => (x.1, pairsOf x.2)))

/-- The geometries denoted by an argument of `evaluate`. -/
def items : PyArg E → List E
  | .geo e => [e]
  | .list l => l

end Spec.PyMatrix
