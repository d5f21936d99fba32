import Verif.Model.Occ.SubShapes

/-!
# Shapes in `.brep` files

`readShape`, `write` in Python and the first part of example 3, in which the domain is read.

Simplifications: a file either contains the BRep data of a single shape or nothing that OpenCascade can read; the
format itself (`BRepTools::Read`, `BRepTools::Write`) is not modelled.
-/

namespace Frackit
open Verif

/-- The files: the shape whose BRep data a file contains (`none` if there is no such file or its content cannot be
read) and the names under which a file can be opened for writing. -/
structure ShapeFiles where
  content : List Char → Option TopoShape
  writable : List Char → Bool

/-- `readShape(fileName)`, frackit/occ/breputilities.hh:109-115.  The stream is not checked, and neither is the result
of `BRepTools::Read`, which leaves the shape null (`none`) if there is nothing to be read. -/
def readShape (fs : ShapeFiles) (fileName : List Char) : Option TopoShape := fs.content fileName

/-- The getters of breputilities.hh:366-441 for a shape that may be null: `TopExp_Explorer::Init` finds nothing in a
null shape. -/
def exploreOrNull (k : TopAbs) : Option TopoShape → List TopoShape
  | none => []
  | some s => s.explore k

/-- `write(wrappedShape, fileName)` in Python, frackit/python/occutilities/breputilities.hh:241-245, registered for
`ShapeWrapper` only (:390).  The result of `BRepTools::Write`, false if the file cannot be opened, is not used.  Null
shapes are not considered. -/
def pyWrite (fs : ShapeFiles) (w : Wrapped) (fileName : List Char) : Outcome Unit × ShapeFiles :=
  if w.cls = .shape then
    if fs.writable fileName = true then
      (.val (), { fs with content := fun n => if n = fileName then some w.shape else fs.content n })
    else (.val (), fs)
  else (.thrown "TypeError", fs)

/-- Constructors of `ShapeWrapper` from the other wrapper classes, frackit/python/geometry/brepwrapper.hh:62-63. -/
def Wrapped.toShapeWrapper (w : Wrapped) : Wrapped := ⟨.shape, w.shape⟩

/-- `getBoundingBox(wrappedShape)` in Python, frackit/python/occutilities/breputilities.hh:190-192, registered for
`ShapeWrapper` only (:352).  `box`: the bounding box OpenCascade computes. -/
def pyShapeBox {B : Type} (box : TopoShape → B) (w : Wrapped) : Outcome B :=
  if w.cls = .shape then .val (box w.shape) else .thrown "TypeError"

namespace Appl

/-- What example 3 takes from the file. -/
structure Domain3 (B : Type) where
  domain : TopoShape
  boundary : List TopoShape
  box : B

/-- appl/example3/example3.cc:51-66, 80 (`computeMagnitude(networkDomain)` is left out here). -/
def domain3 {B : Type} (box : TopoShape → B) (fs : ShapeFiles) (file : List Char) : Outcome (Domain3 B) :=
  let domainShape := readShape fs file
  let solids := exploreOrNull .solid domainShape
  if solids.length ≠ 3 then .thrown "Expected the .brep file to contain 3 solids"
  else match solids[1]? with
    | none => .ub
    | some networkDomain =>
      let shells := networkDomain.getShells
      if shells.length ≠ 1 then .thrown "Expected a single shell bounding the domain"
      else match shells[0]? with
        | none => .ub
        | some shell => .val ⟨networkDomain, shell.getFaces, box networkDomain⟩

/-- `getSolids(readShape(…))` in Python, frackit/python/occutilities/breputilities.hh:177-188, 238-239. -/
def pySolidsOf (fs : ShapeFiles) (file : List Char) : Outcome (List Wrapped) :=
  match readShape fs file with
  | none => .val []
  | some s => (Wrapped.mk .shape s).get .solid

/-- appl/example3/example3.py:14-42. -/
def domain3Py {B : Type} (box : TopoShape → B) (fs : ShapeFiles) (file : List Char) : Outcome (Domain3 B) := do
  let solids ← pySolidsOf fs file
  if solids.length ≠ 3 then .thrown "Expected the .brep file to contain 3 solids"
  else match solids[1]? with
    | none => .thrown "IndexError"
    | some networkDomain => do
      let shells ← networkDomain.get .shell
      if shells.length ≠ 1 then .thrown "Expected a single shell bounding the domain"
      else match shells[0]? with
        | none => .thrown "IndexError"
        | some shell => do
          let faces ← shell.get .face
          if faces.length ≠ 6 then .thrown "Expected 6 faces to bound the domain"
          else do
            let b ← pyShapeBox box networkDomain.toShapeWrapper
            .val ⟨networkDomain.shape, faces.map Wrapped.shape, b⟩

end Appl

end Frackit
