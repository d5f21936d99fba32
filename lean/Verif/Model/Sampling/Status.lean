import Verif.Core.Outcome
import Mathlib.Data.Int.Order.Basic
import Mathlib.Data.List.Basic

/-!
# Sampling status

frackit/sampling/status.hh

`std::unordered_map` is modelled by an association list.  Its iteration order is not specified in
C++; functions that iterate take the iteration order as an argument.  Counters of type
`std::size_t` are natural numbers: that they wrap around after `2^64` updates is not modelled.
Messages on the terminal are not modelled.
-/

namespace Frackit
open Verif

/-- Value of a key: `map.find(k)`. -/
def assocFind (m : List (ℕ × ℕ)) (k : ℕ) : Option ℕ :=
  match m with
  | [] => none
  | (a, b) :: t => if a = k then some b else assocFind t k

/-- `map[k] = v`. -/
def assocSet (m : List (ℕ × ℕ)) (k v : ℕ) : List (ℕ × ℕ) :=
  match m with
  | [] => [(k, v)]
  | (a, b) :: t => if a = k then (a, v) :: t else (a, b) :: assocSet t k v

/-- `SamplingStatus`, frackit/sampling/status.hh:193-196 (whether the header of the terminal output
has been printed is not modelled). -/
structure SamplingStatus where
  rejected : ℕ
  count : List (ℕ × ℕ)
  target : List (ℕ × ℕ)

namespace SamplingStatus

/-- Default construction, frackit/sampling/status.hh:193-196. -/
def init : SamplingStatus := ⟨0, [], []⟩

/-- `setTargetCount(id, targetCount)`, frackit/sampling/status.hh:53-62. -/
def setTargetCount (s : SamplingStatus) (id n : ℕ) : SamplingStatus :=
  { s with
    target := assocSet s.target id n
    count := match assocFind s.count id with
      | none => assocSet s.count id 0
      | some _ => s.count }

/-- `reset()`, frackit/sampling/status.hh:67-73. -/
def reset (_ : SamplingStatus) : SamplingStatus := ⟨0, [], []⟩

/-- `resetCounters()`, frackit/sampling/status.hh:78-81. -/
def resetCounters (s : SamplingStatus) : SamplingStatus :=
  { s with count := s.count.map fun p => (p.1, 0) }

/-- `resetCounter(id)`, frackit/sampling/status.hh:86-89. -/
def resetCounter (s : SamplingStatus) (id : ℕ) : SamplingStatus :=
  { s with count := assocSet s.count id 0 }

/-- `finished()`, frackit/sampling/status.hh:95-101, where `order` is the sequence of key-value pairs
of `count_` in iteration order. -/
def finishedOn (s : SamplingStatus) (order : List (ℕ × ℕ)) : Outcome Bool :=
  match order with
  | [] => .val true
  | (id, c) :: t =>
      match assocFind s.target id with
      | none => .thrown "std::out_of_range"
      | some n => if c < n then .val false else finishedOn s t

/-- `finished(id)`, frackit/sampling/status.hh:107-113. -/
def finishedId (s : SamplingStatus) (id : ℕ) : Outcome Bool :=
  match assocFind s.count id with
  | none => .thrown "Target count not set for given id"
  | some c =>
      match assocFind s.target id with
      | none => .thrown "std::out_of_range"
      | some n => .val (decide (n ≤ c))

/-- `operator[]` of a map: inserts zero if there is no entry. -/
def assocTouch (m : List (ℕ × ℕ)) (k : ℕ) : List (ℕ × ℕ) :=
  match assocFind m k with
  | none => assocSet m k 0
  | some _ => m

/-- `increaseCounter(id)`, frackit/sampling/status.hh:118-123.  The comparison with
`targetCount_[id]` inserts a target of zero if there is none. -/
def increaseCounter (s : SamplingStatus) (id : ℕ) : SamplingStatus :=
  { s with
    count := assocSet s.count id ((assocFind s.count id).getD 0 + 1)
    target := assocTouch s.target id }

/-- `increaseRejectedCounter()`, frackit/sampling/status.hh:128-131. -/
def increaseRejectedCounter (s : SamplingStatus) : SamplingStatus :=
  { s with rejected := s.rejected + 1 }

/-- `getCount(id)`, frackit/sampling/status.hh:136-137: inserts an entry for unknown ids. -/
def getCount (s : SamplingStatus) (id : ℕ) : ℕ × SamplingStatus :=
  ((assocFind s.count id).getD 0, { s with count := assocTouch s.count id })

/-- Conversion of an integer to `int` (32 bit, two's complement). -/
def toInt32 (z : ℤ) : ℤ := Int.bmod z (2 ^ 32)

/-- Conversion of an `int` to `std::size_t` (64 bit). -/
def toSizeT (z : ℤ) : ℕ := (z % 2 ^ 64).toNat

/-- `getCount()`, frackit/sampling/status.hh:142-149: the type of the accumulated value is that of the
initial value `0`, i.e. `int`; each partial sum is computed as `std::size_t` and converted back. -/
def getTotalCountOn (order : List (ℕ × ℕ)) : ℕ :=
  toSizeT (order.foldl (fun acc p => toInt32 ((toSizeT acc + p.2 : ℕ) : ℤ)) 0)

/-- Operations of the class; `queryCount` is `getCount(id)`. -/
inductive Op where
  | setTargetCount (id n : ℕ)
  | reset
  | resetCounters
  | resetCounter (id : ℕ)
  | increaseCounter (id : ℕ)
  | increaseRejectedCounter
  | queryCount (id : ℕ)

/-- Effect of an operation. -/
def step (s : SamplingStatus) : Op → SamplingStatus
  | .setTargetCount id n => s.setTargetCount id n
  | .reset => s.reset
  | .resetCounters => s.resetCounters
  | .resetCounter id => s.resetCounter id
  | .increaseCounter id => s.increaseCounter id
  | .increaseRejectedCounter => s.increaseRejectedCounter
  | .queryCount id => (s.getCount id).2

/-- State after a history of operations, the first one being the head of the list. -/
def run (ops : List Op) : SamplingStatus := ops.foldl step init

end SamplingStatus
end Frackit
