import Verif.Core.Outcome
import Mathlib.Data.List.Basic
import Mathlib.Logic.Function.Basic

/-!
# Sets of entities of several geometry types

frackit/entitynetwork/multigeometryentityset.hh
-/

namespace Frackit
open Verif

/-- Data of `MultiGeometryEntitySet`, frackit/entitynetwork/multigeometryentityset.hh:267-272.  `κ`
enumerates the geometry types, `E` are the entities (of any type).  The unordered map from ids to names
is an association list; where it is traversed the order is an argument. -/
structure EntitySets (κ E : Type) where
  sets : κ → List (List E × ℕ)
  geoms : List (ℕ × String)

namespace EntitySets
variable {κ E : Type} [DecidableEq κ]

/-- A newly constructed object. -/
def init : EntitySets κ E := ⟨fun _ => [], []⟩

/-- The search for the set of an id and the insertion of the entity,
frackit/entitynetwork/multigeometryentityset.hh:91-93. -/
def pushFirst (l : List (List E × ℕ)) (e : E) (id : ℕ) : Option (List (List E × ℕ)) :=
  match l with
  | [] => none
  | p :: t => if p.2 = id then some ((p.1 ++ [e], p.2) :: t) else (pushFirst t e id).map (p :: ·)

/-- `addEntity` for an entity of type `k`, frackit/entitynetwork/multigeometryentityset.hh:69-102;
`name` gives the names of the geometry types. -/
def addEntity (name : κ → String) (s : EntitySets κ E) (k : κ) (e : E) (id : ℕ) :
    Outcome Unit × EntitySets κ E :=
  match s.geoms.find? (fun p => p.1 = id) with
  | some p =>
      if p.2 ≠ name k then (.thrown "type does not match", s)
      else match pushFirst (s.sets k) e id with
        | some l => (.val (), { s with sets := Function.update s.sets k l })
        | none => (.thrown "Could not find entity set!", s)
  | none =>
      (.val (), { sets := Function.update s.sets k (s.sets k ++ [([e], id)])
                  geoms := s.geoms ++ [(id, name k)] })

/-- `addEntity` for a pointer to the geometry interface,
frackit/entitynetwork/multigeometryentityset.hh:109-135: the first of the geometry types whose name is
that of the entity is taken.  `k` is the dynamic type of the entity; if the type found is another one,
the cast gives a null pointer, which is dereferenced
(frackit/geometryutilities/assign.hh:49-54). -/
def addPointer (name : κ → String) (types : List κ) (s : EntitySets κ E) (k : κ) (e : E) (id : ℕ) :
    Outcome Unit × EntitySets κ E :=
  match types.find? (fun k' => name k' = name k) with
  | none => (.thrown "Could not add entity from abstract base class", s)
  | some k' => if k' = k then s.addEntity name k e id else (.ub, s)

/-- Search over the geometry types in `applyOnSet`,
frackit/entitynetwork/multigeometryentityset.hh:153-164. -/
def findSet (s : EntitySets κ E) (id : ℕ) : List κ → Option (List E)
  | [] => none
  | k :: t =>
      match (s.sets k).find? (fun p => p.2 = id) with
      | some p => some p.1
      | none => findSet s id t

/-- `applyOnSet`, frackit/entitynetwork/multigeometryentityset.hh:145-168: the set the function is
applied on, `none` if false is returned. -/
def applyOnSet (types : List κ) (s : EntitySets κ E) (id : ℕ) : Option (List E) :=
  match s.geoms.find? (fun p => p.1 = id) with
  | none => none
  | some _ => s.findSet id types

/-- `numEntities(id)`, frackit/entitynetwork/multigeometryentityset.hh:174-184. -/
def numEntitiesOf (types : List κ) (s : EntitySets κ E) (id : ℕ) : ℕ :=
  match s.applyOnSet types id with
  | some l => l.length
  | none => 0

/-- `numEntities()`, frackit/entitynetwork/multigeometryentityset.hh:189-195; `order` is the order in
which the map is traversed. -/
def numEntities (types : List κ) (s : EntitySets κ E) (order : List (ℕ × String)) : ℕ :=
  order.foldl (fun n p => n + s.numEntitiesOf types p.1) 0

/-- `exportEntitySets(builder[, subDomainId])`,
frackit/entitynetwork/multigeometryentityset.hh:205-237: the entities in the order in which they are
passed to the builder. -/
def exportAll (types : List κ) (s : EntitySets κ E) : List E :=
  types.flatMap (fun k => (s.sets k).flatMap (fun p => p.1))

/-- `exportEntitySets(idList, builder, subDomainId)`,
frackit/entitynetwork/multigeometryentityset.hh:247-265. -/
def exportIds (types : List κ) (s : EntitySets κ E) (ids : List ℕ) : List E :=
  types.flatMap (fun k => (s.sets k).flatMap (fun p => if ids.count p.2 ≠ 0 then p.1 else []))

/-- A call of `addEntity`. -/
structure Call (κ E : Type) where
  kind : κ
  entity : E
  id : ℕ

/-- State after a sequence of calls (exceptions are caught by the caller). -/
def run (name : κ → String) (calls : List (Call κ E)) : EntitySets κ E :=
  calls.foldl (fun s c => (s.addEntity name c.kind c.entity c.id).2) init

end EntitySets
end Frackit
