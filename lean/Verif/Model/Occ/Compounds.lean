import Verif.Model.Occ.SubShapes

/-!
# Compounds in Python

frackit/python/geometry/{brepwrapper,brepwrappers}.hh

A wrapper of a compound refers to an object of OpenCASCADE; copies of the wrapper, and wrappers made from it,
refer to the same object.  `BRep_Builder::Add(compound, shape)` marks the object of the shape as not free (it
must not be edited any more), then raises `TopoDS_FrozenShape` if the object of the compound is not free.
-/

namespace Frackit
open Verif

/-- What wrappers in Python refer to: a shape that can not be edited any more, or an object made by
`OCCCompoundWrapper()`, at a location. -/
inductive CompItem where
  | leaf (s : TopoShape)
  | comp (object : ℕ) (loc : V3)

/-- The objects made by `OCCCompoundWrapper()`: the constituents and whether the object is free.  Objects
that are not created yet are empty and free. -/
structure Compounds where
  subs : ℕ → List CompItem
  free : ℕ → Bool

namespace Compounds

/-- Nothing has been added to any compound, frackit/python/geometry/brepwrapper.hh:82-87. -/
def init : Compounds where
  subs _ := []
  free _ := true

/-- The object of a shape must not be edited any more. -/
def freeze (st : Compounds) : CompItem → Compounds
  | .leaf _ => st
  | .comp i _ => { st with free := fun j => if j = i then false else st.free j }

/-- `compound.add(shape)`, frackit/python/geometry/brepwrapper.hh:109-114, registered for wrappers of general
shapes and of shapes of all classes other than compounds (brepwrappers.hh:66-73): a compound has to be wrapped
as general shape first. -/
def add (c : ℕ) (h : CompItem) (st : Compounds) : Outcome Unit × Compounds :=
  let st1 := st.freeze h
  if st1.free c = true then
    (.val (), { st1 with subs := fun j => if j = c then st1.subs c ++ [h] else st1.subs j })
  else (.thrown "TopoDS_FrozenShape", st1)

/-- `OCCShapeWrapper(compound)` and `getShape(compound)`, frackit/python/geometry/brepwrapper.hh:62-63: the
same object. -/
def wrap (c : ℕ) : CompItem := .comp c 0

/-- `translate(wrapper, v)`, frackit/python/occutilities/breputilities.hh:194-203: the same object at another
location. -/
def translate (v : V3) : CompItem → CompItem
  | .leaf s => .leaf (s.translate v)
  | .comp i l => .comp i (v + l)

/-- The sub-shape getters (vertices to solids): the search of `TopExp_Explorer` for a shape at the given
location, up to the given depth; `none` if it gets deeper than that. -/
def explore (st : Compounds) (k : TopAbs) : ℕ → V3 → CompItem → Option (List TopoShape)
  | _, l, .leaf s => some (TopoShape.exploreIn k l true s)
  | 0, _, .comp _ _ => none
  | n + 1, l, .comp i l' =>
      ((st.subs i).mapM fun c => explore st k n (l + l') c).map List.flatten

/-- A history of additions. -/
def run (ops : List (ℕ × CompItem)) (st : Compounds) : Compounds :=
  ops.foldl (fun st op => (add op.1 op.2 st).2) st

end Compounds
end Frackit
