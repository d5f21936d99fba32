import Verif.Core.Outcome
import Mathlib.Data.List.Basic

/-!
# Sampling strategies and the sampler for several geometry types

frackit/sampling/samplingstrategy.hh, frackit/sampling/sequentialsamplingstrategy.hh,
frackit/sampling/multigeometrysampler.hh
-/

namespace Frackit
open Verif

/-- A strategy: the registered ids and the data of the derived class,
frackit/sampling/samplingstrategy.hh:71, frackit/sampling/sequentialsamplingstrategy.hh:64. -/
structure Strategy (τ : Type) where
  ids : List ℕ
  st : τ

namespace Strategy
variable {τ : Type}

/-- `addId`, frackit/sampling/samplingstrategy.hh:58-62. -/
def addId (s : Strategy τ) (id : ℕ) : Strategy τ :=
  if s.ids.count id = 0 then { s with ids := s.ids ++ [id] } else s

/-- `hasId`, frackit/sampling/samplingstrategy.hh:67-68. -/
def hasId (s : Strategy τ) (id : ℕ) : Bool := decide (s.ids.count id ≠ 0)

/-- A newly constructed sequential strategy, frackit/sampling/sequentialsamplingstrategy.hh:64. -/
def sequential : Strategy ℕ := ⟨[], 0⟩

/-- `SequentialSamplingStrategy::getNextId`, frackit/sampling/sequentialsamplingstrategy.hh:48-61.
Reading beyond the end of the vector is undefined behaviour.  The new value of the index is
returned together with the id. -/
def nextSequential (ids : List ℕ) (cur : ℕ) : Outcome (ℕ × ℕ) :=
  if ids.isEmpty then .thrown "Id list is empty!"
  else match ids[cur]? with
    | none => .ub
    | some id => .val (id, if cur ≠ ids.length - 1 then cur + 1 else 0)

/-- Calls on a sequential strategy. -/
inductive Op where
  | addId (id : ℕ)
  | getNextId

/-- Effect of a call and the id it returns, if any.  A throwing call changes nothing. -/
def step (s : Strategy ℕ) : Op → Outcome (Option ℕ) × Strategy ℕ
  | .addId id => (.val none, s.addId id)
  | .getNextId =>
      match nextSequential s.ids s.st with
      | .val (id, st) => (.val (some id), { s with st := st })
      | .thrown e => (.thrown e, s)
      | .nan => (.nan, s)
      | .ub => (.ub, s)

/-- State after a sequence of calls. -/
def run (s : Strategy ℕ) (ops : List Op) : Strategy ℕ := ops.foldl (fun s o => (step s o).2) s

/-- Results of `n` consecutive calls of `getNextId`. -/
def calls (s : Strategy ℕ) : ℕ → List (Outcome (Option ℕ))
  | 0 => []
  | n + 1 => (step s .getNextId).1 :: calls (step s .getNextId).2 n

end Strategy

/-- `MultiGeometrySampler`, frackit/sampling/multigeometrysampler.hh:172-181.  `κ` enumerates the
geometry types, `S` are the samplers.  The shared pointer to the strategy is always set, since both
constructors do so. -/
structure MultiSampler (κ S τ : Type) where
  samplers : κ → List (S × ℕ)
  strategy : Strategy τ

namespace MultiSampler
variable {κ S τ Geo ω : Type} [DecidableEq κ]

/-- The constructors, frackit/sampling/multigeometrysampler.hh:72-83. -/
def init (strategy : Strategy τ) : MultiSampler κ S τ := ⟨fun _ => [], strategy⟩

/-- `setSamplingStrategy`, frackit/sampling/multigeometrysampler.hh:88-94. -/
def setSamplingStrategy (m : MultiSampler κ S τ) (strategy : Strategy τ) : MultiSampler κ S τ :=
  { m with strategy := strategy }

/-- `addGeometrySampler`, frackit/sampling/multigeometrysampler.hh:101-125.  That the geometry type is
one of those of the sampler is checked at compile time (here: by the type `κ`). -/
def addGeometrySampler (m : MultiSampler κ S τ) (k : κ) (s : S) (id : ℕ) :
    Outcome Unit × MultiSampler κ S τ :=
  if m.strategy.hasId id then (.thrown "addGeometrySampler(): Id already taken!", m)
  else (.val (), { samplers := Function.update m.samplers k (m.samplers k ++ [(s, id)])
                   strategy := m.strategy.addId id })

/-- The search for the sampler of an id, frackit/sampling/multigeometrysampler.hh:144-157: `types` is
the sequence of geometry types; within a type the first entry is taken, and further types are skipped
once a sampler has been found. -/
def search (m : MultiSampler κ S τ) (types : List κ) (id : ℕ) : Option (κ × S) :=
  match types with
  | [] => none
  | k :: t =>
      match (m.samplers k).find? (fun p => p.2 = id) with
      | some p => some (k, p.1)
      | none => search m t id

/-- `operator()(id)`, frackit/sampling/multigeometrysampler.hh:133-170: `next` is the strategy's
`getNextId`, `draw` is the call of a sampler of a geometry type, which depends on and modifies the
state `ω` (random number generator, state of the samplers).  Returned are the outcome (the id written
to the argument and the geometry), and the state after the call. -/
def call (next : List ℕ → τ → Outcome (ℕ × τ)) (draw : κ → S → ω → Outcome Geo × ω) (types : List κ)
    (m : MultiSampler κ S τ) (w : ω) : Outcome (ℕ × Geo) × MultiSampler κ S τ × ω :=
  match next m.strategy.ids m.strategy.st with
  | .thrown e => (.thrown e, m, w)
  | .nan => (.nan, m, w)
  | .ub => (.ub, m, w)
  | .val (id, st) =>
      let m' : MultiSampler κ S τ := { m with strategy := { m.strategy with st := st } }
      match m.search types id with
      | none => (.thrown "no sampler has been added for this id", m', w)
      | some (k, s) =>
          match draw k s w with
          | (.val g, w') => (.val (id, g), m', w')
          | (.thrown e, w') => (.thrown e, m', w')
          | (.nan, w') => (.nan, m', w')
          | (.ub, w') => (.ub, m', w')

/-- Calls on the sampler. -/
inductive Op (κ S τ : Type) where
  | add (k : κ) (s : S) (id : ℕ)
  | call
  | setStrategy (strategy : Strategy τ)

/-- Effect of a call. -/
def step (next : List ℕ → τ → Outcome (ℕ × τ)) (draw : κ → S → ω → Outcome Geo × ω) (types : List κ)
    (x : MultiSampler κ S τ × ω) : Op κ S τ → MultiSampler κ S τ × ω
  | .add k s id => ((x.1.addGeometrySampler k s id).2, x.2)
  | .call => (call next draw types x.1 x.2).2
  | .setStrategy st => (x.1.setSamplingStrategy st, x.2)

/-- State after a sequence of calls. -/
def run (next : List ℕ → τ → Outcome (ℕ × τ)) (draw : κ → S → ω → Outcome Geo × ω) (types : List κ)
    (x : MultiSampler κ S τ × ω) (ops : List (Op κ S τ)) : MultiSampler κ S τ × ω :=
  ops.foldl (step next draw types) x

/-- Outcomes of `n` consecutive calls of `operator()`. -/
def calls (next : List ℕ → τ → Outcome (ℕ × τ)) (draw : κ → S → ω → Outcome Geo × ω) (types : List κ)
    (x : MultiSampler κ S τ × ω) : ℕ → List (Outcome (ℕ × Geo))
  | 0 => []
  | n + 1 => (call next draw types x.1 x.2).1 :: calls next draw types (call next draw types x.1 x.2).2 n

end MultiSampler
end Frackit
