import Verif.Model.Geometry.NDim

/-!
# Arithmetic operators in Python

frackit/python/geometry/{point,vector,direction}.hh

The operators are registered with `pybind11/operators.h`, which makes the methods `__add__`, `__iadd__`, … with the flag
`is_operator`: for arguments of other classes the method returns `NotImplemented`.  Python then tries

* for `a + b`: `a.__add__(b)`, then `b.__radd__(a)`,
* for `a += b`: `a.__iadd__(b)`, then as for `a + b`, and assigns the result to the variable.

No reflected method (`__radd__` …) is registered by the package, and those of numbers do not accept its objects.
Parameters of type `ctype` accept every Python number.
-/

namespace Frackit.Ops
open Verif Frackit

/-- Python objects: numbers, the points, vectors and directions of the dimensions of the package, and others.
Simplification: the other objects have no reflected operators, which excludes the arrays and numbers of NumPy. -/
inductive Obj where
  | number (x : ℝ)
  | point (n : ℕ) (p : Coords n)
  | vector (n : ℕ) (v : Coords n)
  | direction (n : ℕ) (d : Coords n)
  | other

/-- The operators `+`, `-`, `*`, `/`. -/
inductive Op where
  | add | sub | mul | div
deriving DecidableEq

/-- A function of a pair of coordinates of the same dimension; for another dimension the classes are different. -/
def sameDim {α : Type} (n m : ℕ) (p : Coords n) (v : Coords m) (f : Coords n → Coords n → α) : Option α :=
  if h : m = n then some (f p (h ▸ v)) else none

/-- Arithmetic of Python numbers; division by zero is an exception. -/
noncomputable def numbers (o : Op) (x y : ℝ) : Outcome ℝ :=
  match o with
  | .add => .val (x + y)
  | .sub => .val (x - y)
  | .mul => .val (x * y)
  | .div => if y = 0 then .thrown "ZeroDivisionError" else .val (x / y)

/-- `__add__`, `__sub__`, `__mul__`, `__truediv__`; `none` if the method does not exist or returns `NotImplemented`.
Points: frackit/python/geometry/point.hh:60,62; vectors: frackit/python/geometry/vector.hh:59-61; directions:
frackit/python/geometry/direction.hh:56. -/
noncomputable def method (o : Op) (a b : Obj) : Option (Outcome Obj) :=
  match o, a, b with
  | .add, .point n p, .vector m v => sameDim n m p v fun p v => .val (.point n (p.moveForward v))
  | .sub, .point n p, .vector m v => sameDim n m p v fun p v => .val (.point n (p.moveBackward v))
  | .mul, .vector n v, .vector m w => sameDim n m v w fun v w => .val (.number (v.scalarProduct w))
  | .add, .vector n v, .vector m w => sameDim n m v w fun v w => .val (.vector n (v.plus w))
  | .sub, .vector n v, .vector m w => sameDim n m v w fun v w => .val (.vector n (v.minus w))
  | .mul, .direction n d, .number x => some (.val (.vector n (directionTimes d x)))
  | o, .number x, .number y => some (numbers o x y >>= fun z => .val (.number z))
  | _, _, _ => none

/-- `__iadd__`, `__isub__`, `__imul__`, `__itruediv__`; the result is the new value of the first object.  Points:
frackit/python/geometry/point.hh:59,61,65-66; vectors: frackit/python/geometry/vector.hh:62-63.  The methods return a
reference to the C++ object, for which pybind11 finds the Python object. -/
noncomputable def inplaceMethod (o : Op) (a b : Obj) : Option (Outcome Obj) :=
  match o, a, b with
  | .add, .point n p, .vector m v => sameDim n m p v fun p v => .val (.point n (p.moveForward v))
  | .sub, .point n p, .vector m v => sameDim n m p v fun p v => .val (.point n (p.moveBackward v))
  | .mul, .point n p, .number x => some (.val (.point n (p.scale x)))
  | .div, .point n p, .number x => some (p.divide x >>= fun q => .val (.point n q))
  | .mul, .vector n v, .number x => some (.val (.vector n (v.scale x)))
  | .div, .vector n v, .number x => some (v.divide x >>= fun w => .val (.vector n w))
  | _, _, _ => none

/-- `a o b`. -/
noncomputable def binary (o : Op) (a b : Obj) : Outcome Obj := (method o a b).getD (.thrown "TypeError")

/-- The interpreter: the objects, and the numbers of the objects that the variables are bound to. -/
structure Env where
  objs : List Obj
  vars : ℕ → Option ℕ

/-- The value of a variable. -/
def Env.value (E : Env) (x : ℕ) : Option Obj := (E.vars x).bind fun i => E.objs[i]?

/-- A variable is bound to a new object. -/
def Env.bindNew (E : Env) (x : ℕ) (a : Obj) : Env :=
  ⟨E.objs ++ [a], fun y => if y = x then some E.objs.length else E.vars y⟩

/-- Statements: `x = …` with an object that was just made, `x = y`, `x = a o b` and `x o= y`. -/
inductive Stmt where
  | make (x : ℕ) (a : Obj)
  | rename (x y : ℕ)
  | binary (x : ℕ) (o : Op) (a b : ℕ)
  | augmented (x : ℕ) (o : Op) (y : ℕ)

/-- Execution of a statement.  If coordinates become infinite or `NaN` the outcome is `nan`. -/
noncomputable def Env.exec (E : Env) : Stmt → Outcome Env
  | .make x a => .val (E.bindNew x a)
  | .rename x y =>
      match E.vars y with
      | some i => .val ⟨E.objs, fun z => if z = x then some i else E.vars z⟩
      | none => .thrown "NameError"
  | .binary x o a b =>
      match E.value a, E.value b with
      | some u, some w => do
          let r ← Ops.binary o u w
          pure (E.bindNew x r)
      | _, _ => .thrown "NameError"
  | .augmented x o y =>
      match E.vars x, E.value x, E.value y with
      | some i, some u, some w =>
          match inplaceMethod o u w with
          | some r => do
              let r ← r
              pure ⟨E.objs.set i r, E.vars⟩
          | none => do
              let r ← Ops.binary o u w
              pure (E.bindNew x r)
      | _, _, _ => .thrown "NameError"

/-- Execution of statements one after the other. -/
noncomputable def Env.execAll (E : Env) : List Stmt → Outcome Env
  | [] => .val E
  | s :: t => do
      let E ← E.exec s
      E.execAll t

end Frackit.Ops
