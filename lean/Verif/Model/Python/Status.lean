import Verif.Model.Sampling.StatusOutput

/-!
# Ids and the sampling status in Python

frackit/python/common/id.hh, frackit/python/sampling/status.hh, together with the conversions of arguments and
exceptions of pybind11 2.6
-/

namespace Frackit.PyStatus
open Verif Frackit

/-- A Python object, as far as the functions below distinguish objects.  Simplified: objects of other modules that
are convertible into integers or truth values are left out. -/
inductive PyVal where
  | id (i : ℕ)
  | int (z : ℤ)
  | bool (b : Bool)
  | float (x : ℝ)
  | none
  | other

/-- Keyword arguments. -/
abbrev Kw := List (String × PyVal)

/-- The conversion of an argument into `std::size_t` (pybind11): integers that are representable, truth values, but no
floating point numbers (frackit/python/common/id.hh:34, frackit/python/sampling/status.hh:36-38). -/
def castSize : PyVal → Option ℕ
  | .int z => if 0 ≤ z ∧ z < 2 ^ 64 then some z.toNat else .none
  | .bool b => some (if b then 1 else 0)
  | _ => .none

/-- The conversion of an argument into `const Id&` (pybind11): there is no implicit conversion from numbers, and `None`
is not a reference (frackit/python/common/id.hh:33-37). -/
def castId : PyVal → Option ℕ
  | .id i => some i
  | _ => .none

open Classical in
/-- The conversion of an argument into `bool` (pybind11): truth values, and in the second pass of the overload
resolution all objects of which the type has a conversion to truth values (slot `nb_bool`), and `None`
(frackit/python/sampling/status.hh:68-71). -/
noncomputable def castBool : PyVal → Option Bool
  | .bool b => some b
  | .int z => some (decide (z ≠ 0))
  | .float x => some (decide (x ≠ 0))
  | .none => some false
  | _ => .none

/-- The constructor of `Id`, frackit/python/common/id.hh:34. -/
def newId (args : List PyVal) (kw : Kw) : Outcome PyVal :=
  match args, kw with
  | [a], [] =>
      match castSize a with
      | some n => .val (.id n)
      | .none => .thrown "TypeError"
  | _, _ => .thrown "TypeError"

/-- `Id.get()`, frackit/python/common/id.hh:35, frackit/common/id.hh:56-57. -/
def getId : PyVal → Outcome ℕ
  | .id i => .val i
  | _ => .thrown "AttributeError"

/-- `a == b` if `a` or `b` is an `Id`: the operator of pybind11 returns `NotImplemented` for an object of another
type, so that the objects are compared by identity (frackit/python/common/id.hh:36, frackit/common/id.hh:62-63). -/
def eqId : PyVal → PyVal → Bool
  | .id i, .id j => decide (i = j)
  | _, _ => false

/-- `hash(Id)`, frackit/python/common/id.hh:37, frackit/common/id.hh:71-82: the hash of libstdc++ is the number itself;
Python reduces integers that exceed `Py_ssize_t` modulo `2^61 - 1`. -/
def hashId (i : ℕ) : ℤ := if i < 2 ^ 63 then i else (i : ℤ) % (2 ^ 61 - 1)

/-- The methods of the class, frackit/python/sampling/status.hh:36-71. -/
inductive Method where
  | setTargetCount
  | finished
  | increaseCounter
  | resetCounters
  | resetCounter
  | reset
  | increaseRejectedCounter
  | getCount
  | print

/-- A call of a method of the status. -/
structure Call where
  method : Method
  args : List PyVal
  kw : Kw

/-- Values returned in Python. -/
inductive Result where
  | none
  | bool (b : Bool)
  | int (n : ℕ)

/-- The Python exception that pybind11 raises for a C++ exception. -/
def translate (e : String) : String :=
  if e = "std::out_of_range" then "IndexError"
  else if e = "std::length_error" then "ValueError"
  else "RuntimeError"

/-- The outcome of a C++ function in Python. -/
def translated {α : Type} (f : α → Result) : Outcome α → Outcome Result
  | .val a => .val (f a)
  | .thrown e => .thrown (translate e)
  | .nan => .nan
  | .ub => .ub

/-- A call for which no overload accepts the arguments. -/
def typeError (c : Console) : Outcome Result × Console := (.thrown "TypeError", c)

/-- The value of the parameter `forceHeaderPrint` of `print`, which may be passed by position or by keyword and is
`False` by default, frackit/python/sampling/status.hh:68-71. -/
noncomputable def printArgument : List PyVal → Kw → Option Bool
  | [], [] => some false
  | [a], [] => castBool a
  | [], [("forceHeaderPrint", a)] => castBool a
  | _, _ => .none

/-- A call in Python, frackit/python/sampling/status.hh:36-71.  `order` is the iteration order of the map of counts.
The parameters other than that of `print` have no names, so that they cannot be passed by keyword. -/
noncomputable def call (order : List (ℕ × ℕ) → List (ℕ × ℕ)) (c : Console) (k : Call) : Outcome Result × Console :=
  match k.method with
  | .setTargetCount =>
      match k.args, k.kw with
      | [a, b], [] =>
          match castId a, castSize b with
          | some i, some n => (.val .none, c.setTargetCount i n)
          | _, _ => typeError c
      | _, _ => typeError c
  | .finished =>
      match k.args, k.kw with
      | [], [] => (translated .bool (c.status.finishedOn (order c.status.count)), c)
      | [a], [] =>
          match castId a with
          | some i => (translated .bool (c.status.finishedId i), c)
          | .none => typeError c
      | _, _ => typeError c
  | .increaseCounter =>
      match k.args, k.kw with
      | [a], [] =>
          match castId a with
          | some i => (.val .none, c.increaseCounter i)
          | .none => typeError c
      | _, _ => typeError c
  | .resetCounters =>
      match k.args, k.kw with
      | [], [] => (.val .none, c.silent .resetCounters)
      | _, _ => typeError c
  | .resetCounter =>
      match k.args, k.kw with
      | [a], [] =>
          match castId a with
          | some i => (.val .none, c.silent (.resetCounter i))
          | .none => typeError c
      | _, _ => typeError c
  | .reset =>
      match k.args, k.kw with
      | [], [] => (.val .none, c.reset)
      | _, _ => typeError c
  | .increaseRejectedCounter =>
      match k.args, k.kw with
      | [], [] => (.val .none, c.silent .increaseRejectedCounter)
      | _, _ => typeError c
  | .getCount =>
      match k.args, k.kw with
      | [], [] => (.val (.int (SamplingStatus.getTotalCountOn (order c.status.count))), c)
      | [a], [] =>
          match castId a with
          | some i => (.val (.int (c.status.getCount i).1), c.silent (.queryCount i))
          | .none => typeError c
      | _, _ => typeError c
  | .print =>
      match printArgument k.args k.kw with
      | some f => (translated (fun _ => .none) (c.print f).1, (c.print f).2)
      | .none => typeError c

/-- Result of the last call and state after a history of calls (the latest one first); after an undefined call the
behaviour of the program is undefined, exceptions are caught. -/
noncomputable def run (order : List (ℕ × ℕ) → List (ℕ × ℕ)) : List Call → Outcome Result × Console
  | [] => (.val .none, Console.init)
  | k :: h =>
      match (run order h).1 with
      | .ub => (.ub, (run order h).2)
      | _ => call order (run order h).2 k

end Frackit.PyStatus
