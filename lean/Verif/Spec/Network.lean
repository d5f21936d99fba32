import Verif.Spec.Constraints

/-!
# Specification: when two entities of a network are compatible
-/

namespace Spec.Network
open Verif Frackit

variable {E : Type} (eng : Engine E)

/-- Two entities keep the distance `dist` if they do not intersect; if they do, they intersect in points
or curves, at angles of at least `angle`, in curves of length at least `mag`, and at a distance of at
least `bdist` from the boundaries of both (or on a boundary).  A computed angle that is not a number is taken to be
large enough, see `Spec.Constraints.NotLess`. -/
def Compatible (dist angle mag bdist : ℝ) (a b : E) : Prop :=
  Spec.Constraints.AcceptBy eng Spec.Constraints.NotLess ⟨some dist, some angle, some mag, some bdist, none, false⟩ a b

/-- Every entity is compatible with all later ones of the list. -/
def MutuallyCompatible (dist angle mag bdist : ℝ) (l : List E) : Prop :=
  ∀ i j (hi : i < l.length) (hj : j < l.length), i < j → Compatible eng dist angle mag bdist l[i] l[j]

/-- Each entity of one list is compatible with each one of the other, where the one that has been
created first is the first argument of the computations. -/
def CrossCompatible (dist angle mag bdist : ℝ) (l1 l2 : List E) : Prop :=
  ∀ a ∈ l1, ∀ b ∈ l2, Compatible eng dist angle mag bdist a b ∨ Compatible eng dist angle mag bdist b a

/-- The state after a number of passes of a loop, where the body is given the number of the pass. -/
def passes {σ : Type} (body : ℕ → σ → Outcome σ) (init : σ) : ℕ → Outcome σ
  | 0 => .val init
  | n + 1 => passes body init n >>= body n

/-- The number a computation returned (zero if it failed). -/
def number : Outcome ℝ → ℝ
  | .val x => x
  | _ => 0

end Spec.Network
