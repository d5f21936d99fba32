import Verif.Spec.StatusOutput
import Verif.Model.Python.Status

/-!
# What calls on the sampling status mean in Python

Only the enumeration of the methods and of the argument types is shared with the model.
-/

namespace Spec.PyStatus
open Frackit Frackit.PyStatus

/-- An argument that stands for a count: an integer from 0 to 2^64 - 1, or a truth value. -/
inductive IsCount : PyVal → ℕ → Prop
  | int (n : ℕ) : n < 2 ^ 64 → IsCount (.int n) n
  | true : IsCount (.bool true) 1
  | false : IsCount (.bool false) 0

/-- An argument with a truth value. -/
inductive HasTruth : PyVal → Bool → Prop
  | bool (b : Bool) : HasTruth (.bool b) b
  | zero : HasTruth (.int 0) false
  | int (z : ℤ) : z ≠ 0 → HasTruth (.int z) true
  | fzero : HasTruth (.float 0) false
  | float (x : ℝ) : x ≠ 0 → HasTruth (.float x) true
  | none : HasTruth .none false

/-- The documented calls that change what the status reports (or look up a single count), and the operation each of them
stands for. -/
inductive Means : Call → Console.Op → Prop
  | setTargetCount (i : ℕ) (v : PyVal) (n : ℕ) : IsCount v n →
      Means ⟨.setTargetCount, [.id i, v], []⟩ (.status (.setTargetCount i n))
  | increaseCounter (i : ℕ) : Means ⟨.increaseCounter, [.id i], []⟩ (.status (.increaseCounter i))
  | resetCounters : Means ⟨.resetCounters, [], []⟩ (.status .resetCounters)
  | resetCounter (i : ℕ) : Means ⟨.resetCounter, [.id i], []⟩ (.status (.resetCounter i))
  | reset : Means ⟨.reset, [], []⟩ (.status .reset)
  | increaseRejectedCounter : Means ⟨.increaseRejectedCounter, [], []⟩ (.status .increaseRejectedCounter)
  | getCount (i : ℕ) : Means ⟨.getCount, [.id i], []⟩ (.status (.queryCount i))
  | print : Means ⟨.print, [], []⟩ (.print false)
  | printValue (v : PyVal) (b : Bool) : HasTruth v b → Means ⟨.print, [v], []⟩ (.print b)
  | printKeyword (v : PyVal) (b : Bool) : HasTruth v b → Means ⟨.print, [], [("forceHeaderPrint", v)]⟩ (.print b)

/-- The documented calls without any effect. -/
inductive Query : Call → Prop
  | finished : Query ⟨.finished, [], []⟩
  | finishedId (i : ℕ) : Query ⟨.finished, [.id i], []⟩
  | getCount : Query ⟨.getCount, [], []⟩

/-- The operations a history of calls stands for (both with the most recent first). -/
inductive History : List Call → List Console.Op → Prop
  | nil : History [] []
  | means {k h o ops} : Means k o → History h ops → History (k :: h) (o :: ops)
  | skip {k h ops} : (∀ o, ¬ Means k o) → History h ops → History (k :: h) ops

end Spec.PyStatus
