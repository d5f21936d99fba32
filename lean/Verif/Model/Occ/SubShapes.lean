import Verif.Model.Geometry.Planar

/-!
# Sub-shapes and translation of shapes

frackit/occ/breputilities.hh, frackit/python/occutilities/breputilities.hh,
frackit/python/geometry/{brepwrapper,brepwrappers}.hh

The functions call OpenCASCADE, of which the following is modelled: shapes refer to an object that is
possibly shared (`TShape`) and have a location and an orientation of their own; `TopExp_Explorer`;
`BRepBuilderAPI_Transform` without copy, which for translations only changes the location of a shape.
Locations are restricted to translations, orientations to forward and reversed.
-/

namespace Frackit
open Verif

/-- `TopAbs_ShapeEnum`. -/
inductive TopAbs where
  | compound
  | compsolid
  | solid
  | shell
  | face
  | wire
  | edge
  | vertex
deriving DecidableEq

/-- Position in the enumeration, which goes from complex to simple shapes. -/
def TopAbs.rank : TopAbs → ℕ
  | .compound => 0
  | .compsolid => 1
  | .solid => 2
  | .shell => 3
  | .face => 4
  | .wire => 5
  | .edge => 6
  | .vertex => 7

/-- `TopoDS_Shape`: the number of the object it refers to, with the content of that object (class, point of
a vertex, sub-shapes), location and orientation. -/
inductive TopoShape where
  | mk (object : ℕ) (kind : TopAbs) (pnt : V3) (subs : List TopoShape) (loc : V3) (forward : Bool)

namespace TopoShape

def object : TopoShape → ℕ
  | .mk i _ _ _ _ _ => i

def kind : TopoShape → TopAbs
  | .mk _ k _ _ _ _ => k

def subs : TopoShape → List TopoShape
  | .mk _ _ _ s _ _ => s

def loc : TopoShape → V3
  | .mk _ _ _ _ l _ => l

def forward : TopoShape → Bool
  | .mk _ _ _ _ _ f => f

/-- `BRep_Tool::Pnt(vertex)`, as used in `point(vertex)`, frackit/occ/breputilities.hh:122-123. -/
def point : TopoShape → V3
  | .mk _ _ p _ l _ => l + p

/-- A sub-shape as seen from the shape it belongs to: `TopoDS_Iterator` composes the locations and the
orientations. -/
def within (loc : V3) (forward : Bool) : TopoShape → TopoShape
  | .mk i k p s l f => .mk i k p s (loc + l) (forward == f)

/-- `Moved`: the shape at another location. -/
def moved (v : V3) (s : TopoShape) : TopoShape := s.within v true

mutual
/-- `TopExp_Explorer(shape, type)`: the shapes of the given type, in depth. Shapes of this type are not
entered, simpler shapes neither.  `loc`, `forward`: those of the shapes the search has entered. -/
def exploreIn (k : TopAbs) (loc : V3) (forward : Bool) : TopoShape → List TopoShape
  | .mk i kd p s l f =>
    if kd = k then [.mk i kd p s (loc + l) (forward == f)]
    else if kd.rank < k.rank then exploreList k (loc + l) (forward == f) s
    else []

def exploreList (k : TopAbs) (loc : V3) (forward : Bool) : List TopoShape → List TopoShape
  | [] => []
  | c :: cs => exploreIn k loc forward c ++ exploreList k loc forward cs
end

/-- The loop over the explorer. -/
def explore (k : TopAbs) (s : TopoShape) : List TopoShape := exploreIn k 0 true s

/-- frackit/occ/breputilities.hh:366-374. -/
def getVertices : TopoShape → List TopoShape := explore .vertex

/-- frackit/occ/breputilities.hh:380-388. -/
def getEdges : TopoShape → List TopoShape := explore .edge

/-- frackit/occ/breputilities.hh:394-402. -/
def getFaces : TopoShape → List TopoShape := explore .face

/-- frackit/occ/breputilities.hh:408-415. -/
def getWires : TopoShape → List TopoShape := explore .wire

/-- frackit/occ/breputilities.hh:421-428. -/
def getShells : TopoShape → List TopoShape := explore .shell

/-- frackit/occ/breputilities.hh:434-441. -/
def getSolids : TopoShape → List TopoShape := explore .solid

/-- `translate(shape, vector)`, frackit/occ/breputilities.hh:462-475. -/
def translate (s : TopoShape) (v : V3) : TopoShape := s.moved v

/-! ## Faces of quadrilaterals and polygons -/

/-- The vertex made for a corner; `n` is the number of the new object. -/
def mkVertex (n : ℕ) (p : V3) : TopoShape := .mk n .vertex p [] 0 true

/-- `BRepBuilderAPI_MakeEdge(v1, v2)`: the second vertex is reversed. -/
def mkEdge (n : ℕ) (v1 v2 : TopoShape) : TopoShape :=
  .mk n .edge 0 [v1.within 0 true, v2.within 0 false] 0 true

/-- `getShape(quadrilateral)`, frackit/occ/breputilities.hh:260-275; new objects get the numbers from `n`
on. -/
def quadFaceTopo (n : ℕ) (q : Quadrilateral) : TopoShape :=
  let v1 := mkVertex n q.p0
  let v2 := mkVertex (n + 1) q.p1
  let v3 := mkVertex (n + 2) q.p2
  let v4 := mkVertex (n + 3) q.p3
  let e1 := mkEdge (n + 4) v1 v2
  let e2 := mkEdge (n + 5) v2 v4
  let e3 := mkEdge (n + 6) v4 v3
  let e4 := mkEdge (n + 7) v3 v1
  let wire := .mk (n + 8) .wire 0 [e1, e2, e3, e4] 0 true
  .mk (n + 9) .face 0 [wire] 0 true

/-- `getShape(polygon)`, frackit/occ/breputilities.hh:281-302 (for two or more corners, see
`Frackit.polygonShape`): the edge from each corner to the next one, from the last one to the first. -/
def polygonFaceTopo (n : ℕ) (corners : List V3) : TopoShape :=
  let k := corners.length
  let vertex (i : ℕ) : TopoShape := mkVertex (n + i) (corners.getD i 0)
  let edges := (List.range k).map fun i => mkEdge (n + k + i) (vertex i) (vertex ((i + 1) % k))
  let wire := .mk (n + 2 * k) .wire 0 edges 0 true
  .mk (n + 2 * k + 1) .face 0 [wire] 0 true

end TopoShape

/-! ## Wrapped shapes -/

/-- The wrapper classes, frackit/python/geometry/brepwrapper.hh:122-129: `shape` wraps shapes of any class. -/
inductive WrapperClass where
  | shape
  | vertex
  | edge
  | wire
  | face
  | shell
  | solid
  | compound
deriving DecidableEq

/-- An instance of a wrapper class, frackit/python/geometry/brepwrapper.hh:39-119. -/
structure Wrapped where
  cls : WrapperClass
  shape : TopoShape

namespace WrapperClass

/-- The class of the wrapped shape; any for `TopoDS_Shape`. -/
def kind : WrapperClass → Option TopAbs
  | .shape => none
  | .vertex => some .vertex
  | .edge => some .edge
  | .wire => some .wire
  | .face => some .face
  | .shell => some .shell
  | .solid => some .solid
  | .compound => some .compound

/-- `TranslatedShape`, frackit/python/occutilities/breputilities.hh:56-59. -/
def translated : WrapperClass → WrapperClass
  | .compound => .shape
  | c => c

end WrapperClass

/-- `getSingleEntity`, frackit/python/occutilities/breputilities.hh:61-67. -/
def getSingleEntity : List TopoShape → Outcome TopoShape
  | [] => .ub
  | [s] => .val s
  | _ => .thrown "Expected a single entity of desired type"

/-- `parseShape<ResultShape>`, frackit/python/occutilities/breputilities.hh:69-94.  Compounds are excluded by
a static assertion. -/
def parseShape (c : WrapperClass) (s : TopoShape) : Outcome TopoShape :=
  match c with
  | .shape => .val s
  | .vertex => getSingleEntity s.getVertices
  | .edge => getSingleEntity s.getEdges
  | .wire => getSingleEntity s.getWires
  | .face => getSingleEntity s.getFaces
  | .shell => getSingleEntity s.getShells
  | .solid => getSingleEntity s.getSolids
  | .compound => .ub

/-- `translate(wrappedShape, v)` in Python, frackit/python/occutilities/breputilities.hh:194-203, registered
for all wrapper classes (:355-362). -/
def Wrapped.translate (w : Wrapped) (v : V3) : Outcome Wrapped := do
  let s ← parseShape w.cls.translated (w.shape.translate v)
  pure ⟨w.cls.translated, s⟩

/-- The wrapper classes the getters are registered for, frackit/python/occutilities/breputilities.hh:267-308. -/
def getterRegistered : WrapperClass → WrapperClass → Bool
  | .vertex, _ => true
  | .edge, c => c ∈ [.shape, .edge, .wire, .face, .shell, .solid, .compound]
  | .wire, c => c ∈ [.shape, .wire, .face, .shell, .solid, .compound]
  | .face, c => c ∈ [.shape, .face, .shell, .solid, .compound]
  | .shell, c => c ∈ [.shape, .shell, .solid, .compound]
  | .solid, c => c ∈ [.shape, .solid, .compound]
  | _, _ => false

/-- `getVertices(wrapper)`, …, `getSolids(wrapper)` in Python,
frackit/python/occutilities/breputilities.hh:112-187, selected by the class of the results; pybind11 raises
an error if there is no overload for the class of the argument. -/
def Wrapped.get (c : WrapperClass) (w : Wrapped) : Outcome (List Wrapped) :=
  if getterRegistered c w.cls = true then
    match c with
    | .vertex => .val (w.shape.getVertices.map (Wrapped.mk .vertex))
    | .edge => .val (w.shape.getEdges.map (Wrapped.mk .edge))
    | .wire => .val (w.shape.getWires.map (Wrapped.mk .wire))
    | .face => .val (w.shape.getFaces.map (Wrapped.mk .face))
    | .shell => .val (w.shape.getShells.map (Wrapped.mk .shell))
    | .solid => .val (w.shape.getSolids.map (Wrapped.mk .solid))
    | _ => .ub
  else .thrown "TypeError"

end Frackit
