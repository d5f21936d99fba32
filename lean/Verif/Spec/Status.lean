import Verif.Model.Sampling.Status

/-!
# What a sampling history means

Only the enumeration of the calls (`SamplingStatus.Op`) is shared with the model.  Histories are given
with the most recent call first.
-/

namespace Spec.Status
open Frackit.SamplingStatus (Op)

/-- Number of accepted samples of `id` since its last reset. -/
def accepted (id : ℕ) : List Op → ℕ
  | [] => 0
  | .increaseCounter j :: h => (if j = id then 1 else 0) + accepted id h
  | .reset :: _ => 0
  | .resetCounters :: _ => 0
  | .resetCounter j :: h => if j = id then 0 else accepted id h
  | .setTargetCount _ _ :: h => accepted id h
  | .increaseRejectedCounter :: h => accepted id h
  | .queryCount _ :: h => accepted id h

/-- Number of rejected samples since the last full reset. -/
def rejected : List Op → ℕ
  | [] => 0
  | .increaseRejectedCounter :: h => rejected h + 1
  | .reset :: _ => 0
  | .increaseCounter _ :: h => rejected h
  | .resetCounters :: h => rejected h
  | .resetCounter _ :: h => rejected h
  | .setTargetCount _ _ :: h => rejected h
  | .queryCount _ :: h => rejected h

/-- Target set for `id` since the last full reset. -/
def target (id : ℕ) : List Op → Option ℕ
  | [] => none
  | .setTargetCount j n :: h => if j = id then some n else target id h
  | .reset :: _ => none
  | .increaseRejectedCounter :: h => target id h
  | .increaseCounter _ :: h => target id h
  | .resetCounters :: h => target id h
  | .resetCounter _ :: h => target id h
  | .queryCount _ :: h => target id h

/-- A target has been set for `id`, or a sample accepted, since the last full reset. -/
def known (id : ℕ) : List Op → Prop
  | [] => False
  | .setTargetCount j _ :: h => j = id ∨ known id h
  | .increaseCounter j :: h => j = id ∨ known id h
  | .reset :: _ => False
  | .increaseRejectedCounter :: h => known id h
  | .resetCounters :: h => known id h
  | .resetCounter _ :: h => known id h
  | .queryCount _ :: h => known id h

/-- Single counters are reset and queried for known ids only. -/
def Disciplined : List Op → Prop
  | [] => True
  | .resetCounter j :: h => known j h ∧ Disciplined h
  | .queryCount j :: h => known j h ∧ Disciplined h
  | .setTargetCount _ _ :: h => Disciplined h
  | .increaseCounter _ :: h => Disciplined h
  | .reset :: _ => True
  | .increaseRejectedCounter :: h => Disciplined h
  | .resetCounters :: h => Disciplined h

/-- All targets are reached. -/
def Done (h : List Op) : Prop := ∀ id n, target id h = some n → n ≤ accepted id h

end Spec.Status
