import Verif.Model.Sampling.Strategy
import Mathlib.Data.List.Dedup

/-!
# Registered ids and samplers of a history

Only the enumerations of the calls are shared with the model.  Histories are in chronological order.
-/

namespace Spec.Strategy
open Frackit

/-- The ids in the order of their first registration. -/
def registered (ops : List Strategy.Op) : List ℕ :=
  ((ops.filterMap fun o => match o with
    | .addId id => some id
    | .getNextId => none).reverse.dedup).reverse

/-- The samplers of a history with the ids they were first registered with: registrations with an id
that is in use are void. `seen` are the earlier ones. -/
def samplers {κ S τ : Type} (seen : List (κ × S × ℕ)) : List (MultiSampler.Op κ S τ) → List (κ × S × ℕ)
  | [] => seen
  | .add k s id :: t =>
      if id ∈ seen.map (fun x => x.2.2) then samplers seen t else samplers (seen ++ [(k, s, id)]) t
  | .call :: t => samplers seen t
  | .setStrategy _ :: t => samplers seen t

/-- The strategy is not exchanged in a history. -/
def KeepsStrategy {κ S τ : Type} (ops : List (MultiSampler.Op κ S τ)) : Prop :=
  ∀ o ∈ ops, ∀ st, o ≠ .setStrategy st

end Spec.Strategy
