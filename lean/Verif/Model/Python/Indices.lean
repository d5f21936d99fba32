import Verif.Model.Python.Constructors
import Verif.Model.Python.Contains
import Verif.Model.Distance.Distance

/-!
# Corners, edges and faces by index in Python

frackit/python/geometry/triangle.hh:58-62, frackit/python/geometry/quadrilateral.hh:59-63,
frackit/python/geometry/polygon.hh:59-63 and frackit/python/geometry/box.hh:58-66.
-/

namespace Frackit
open Verif

/-- The conversion of an argument into `unsigned int` (pybind11): integers that are representable, truth values, but
no floating point numbers (`corner`, `edge` and `face` take an `unsigned int`, frackit/geometry/box.hh:121, 143,
169). -/
def castUnsigned : PyNumber → Option ℕ
  | .int z => if 0 ≤ z ∧ z < 2 ^ 32 then some z.toNat else none
  | .bool b => some (if b then 1 else 0)
  | .float _ => none

/-- The outcome in Python: the exceptions of these functions are of type `std::runtime_error`
(frackit/geometry/box.hh:134, 161, 180, frackit/geometry/triangle.hh:133, frackit/geometry/quadrilateral.hh:142). -/
def pyRuntime {α : Type} : Outcome α → Outcome α
  | .val a => .val a
  | .thrown _ => .thrown "RuntimeError"
  | .nan => .nan
  | .ub => .ub

/-- Call of a function with a single parameter of type `unsigned int`. -/
def pyIndexed {α : Type} (name : String) (f : ℕ → Outcome α) (args : List PyNumber) (kw : KwOf PyNumber) : Outcome α :=
  match bindArguments [name] args kw with
  | some [x] => match castUnsigned x with
    | some i => pyRuntime (f i)
    | none => .thrown "TypeError"
  | _ => .thrown "TypeError"

/-- `Polygon::corner(i)`, frackit/geometry/polygon.hh:135-139 (assert compiled out). -/
def Polygon.corner (pg : Polygon) (i : ℕ) : Outcome V3 :=
  match pg.corners[i]? with
  | some p => .val p
  | none => .ub

namespace PyThing

/-- `numCorners()`, frackit/python/geometry/triangle.hh:58, frackit/python/geometry/quadrilateral.hh:59,
frackit/python/geometry/polygon.hh:59, frackit/python/geometry/box.hh:58; other objects have no such method. -/
def numCorners : PyThing → Outcome ℕ
  | triangle _ => .val 3
  | quadrilateral _ => .val 4
  | polygon p => .val p.corners.length
  | box _ => .val 8
  | _ => .thrown "AttributeError"

/-- `numEdges()`, frackit/python/geometry/triangle.hh:61, frackit/python/geometry/quadrilateral.hh:62,
frackit/python/geometry/polygon.hh:62, frackit/python/geometry/box.hh:62. -/
def numEdges : PyThing → Outcome ℕ
  | triangle _ => .val 3
  | quadrilateral q => .val q.numEdges
  | polygon p => .val p.numEdges
  | box _ => .val 12
  | _ => .thrown "AttributeError"

/-- `numFaces()`, frackit/python/geometry/box.hh:65. -/
def numFaces : PyThing → Outcome ℕ
  | box _ => .val 6
  | _ => .thrown "AttributeError"

/-- `corner(cornerIdx)`, frackit/python/geometry/triangle.hh:59, frackit/python/geometry/quadrilateral.hh:60,
frackit/python/geometry/polygon.hh:60, frackit/python/geometry/box.hh:59. -/
def corner (g : PyThing) (args : List PyNumber) (kw : KwOf PyNumber) : Outcome V3 :=
  match g with
  | triangle t => pyIndexed "cornerIdx" t.corner args kw
  | quadrilateral q => pyIndexed "cornerIdx" q.corner args kw
  | polygon p => pyIndexed "cornerIdx" p.corner args kw
  | box b => pyIndexed "cornerIdx" b.corner args kw
  | _ => .thrown "AttributeError"

/-- `edge(edgeIdx)`, frackit/python/geometry/triangle.hh:62, frackit/python/geometry/quadrilateral.hh:63,
frackit/python/geometry/polygon.hh:63, frackit/python/geometry/box.hh:63. -/
def edge (g : PyThing) (args : List PyNumber) (kw : KwOf PyNumber) : Outcome Segment :=
  match g with
  | triangle t => pyIndexed "edgeIdx" t.edge args kw
  | quadrilateral q => pyIndexed "edgeIdx" q.edge args kw
  | polygon p => pyIndexed "edgeIdx" p.edge args kw
  | box b => pyIndexed "edgeIdx" b.edge args kw
  | _ => .thrown "AttributeError"

/-- `face(faceIdx)`, frackit/python/geometry/box.hh:66. -/
noncomputable def face (g : PyThing) (args : List PyNumber) (kw : KwOf PyNumber) : Outcome Quadrilateral :=
  match g with
  | box b => pyIndexed "faceIdx" b.face args kw
  | _ => .thrown "AttributeError"

/-- A list comprehension `[f(x) for x in l]` in Python, with an exception at the first call that fails. -/
def comprehension {α : Type} (f : PyNumber → Outcome α) : List PyNumber → Outcome (List α)
  | [] => .val []
  | x :: r => do
    let a ← f x
    let t ← comprehension f r
    pure (a :: t)

/-- The loop `[f(i) for i in range(n)]` in Python. -/
def listOf {α : Type} (n : Outcome ℕ) (f : PyNumber → Outcome α) : Outcome (List α) :=
  n >>= fun n => comprehension f ((List.range n).map fun i => PyNumber.int i)

end PyThing
end Frackit
