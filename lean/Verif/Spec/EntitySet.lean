import Verif.Model.EntityNetwork.EntitySet

/-!
# Specification: what a history of additions stores
-/

namespace Spec.EntitySet
open Frackit.EntitySets (Call)

variable {κ E : Type} [DecidableEq κ]

/-- The ids in use with their geometry type, in the order of their first use: the type of an id is that
of the first entity added to it. -/
def types (calls : List (Call κ E)) : List (ℕ × κ) :=
  calls.foldl (fun l c => if c.id ∈ l.map (·.1) then l else l ++ [(c.id, c.kind)]) []

/-- The calls that have to succeed: those with an entity of the type of the id. -/
def stored (calls : List (Call κ E)) : List (Call κ E) :=
  calls.filter (fun c => (c.id, c.kind) ∈ types calls)

/-- The entities to be found under an id, in the order of addition. -/
def entities (calls : List (Call κ E)) (id : ℕ) : List E :=
  ((stored calls).filter (fun c => c.id = id)).map (fun c => c.entity)

end Spec.EntitySet
