import Verif.Model.Distance.Shapes

/-!
# Boolean operators

frackit/occ/breputilities.hh:478-561, frackit/python/occutilities/breputilities.hh:203-238,
python/frackit/occutilities/__init__.py
-/

namespace Frackit
open Verif

/-- Algorithms of OpenCASCADE (`none`: `IsDone()` is false).

* `cut`: `BRepAlgoAPI_Cut` of object and tool;
* `common`: `BRepAlgoAPI_Common` of two objects;
* `fuse`: `BRepAlgoAPI_Fuse` of arguments and tools;
* `general`: `BRepAlgoAPI_BuilderAlgo` of arguments. -/
structure BoolKernel where
  cut : Shape → Shape → ℝ → Option Shape
  common : Shape → Shape → ℝ → Option Shape
  fuse : List Shape → List Shape → ℝ → Option Shape
  general : List Shape → ℝ → Option Shape

variable (K : ShapeKernel) (B : BoolKernel)

/-- frackit/occ/breputilities.hh:482-493. -/
def occCut (object tool : Shape) (eps : ℝ) : Outcome Shape :=
  doneOr "Could not perform cut operation" (B.cut object tool eps)

/-- frackit/occ/breputilities.hh:500-511. -/
def occIntersect (object1 object2 : Shape) (eps : ℝ) : Outcome Shape :=
  doneOr "Common operation failed" (B.common object1 object2 eps)

/-- frackit/occ/breputilities.hh:518-534. -/
def occFragment (objects : List Shape) (eps : ℝ) : Outcome Shape :=
  doneOr "Could not perform fragmentation" (B.general objects eps)

/-- frackit/occ/breputilities.hh:541-558: the objects are arguments and tools. -/
def occFuse (objects : List Shape) (eps : ℝ) : Outcome Shape :=
  doneOr "Could not perform union" (B.fuse objects objects eps)

/-- Arguments of the Python functions: geometries, lines and wrapped shapes, or anything else. -/
inductive PyShapeArg where
  | arg (a : DistArg)
  | other

/-- `_getShapeWrapper(object)`, python/frackit/occutilities/__init__.py:15-17: every error, also one of the
kernel, becomes a `TypeError`.  There is no `getShape` for other objects. -/
noncomputable def pyGetShapeWrapper : PyShapeArg → Outcome Shape
  | .other => .thrown "TypeError"
  | .arg a =>
      match pyGetShape K a with
      | .val s => .val s
      | .thrown _ => .thrown "TypeError"
      | .nan => .nan
      | .ub => .ub

/-- The wrappers of a list of objects, python/frackit/occutilities/__init__.py:52, 63. -/
noncomputable def pyGetShapeWrappers : List PyShapeArg → Outcome (List Shape)
  | [] => .val []
  | a :: t => do
      let s ← pyGetShapeWrapper K a
      let l ← pyGetShapeWrappers t
      pure (s :: l)

/-- `cut(object, tool, eps)`, python/frackit/occutilities/__init__.py:20-29 with
frackit/python/occutilities/breputilities.hh:204-208. -/
noncomputable def pyShapeCut (object tool : PyShapeArg) (eps : ℝ) : Outcome Shape := do
  let s ← pyGetShapeWrapper K object
  let t ← pyGetShapeWrapper K tool
  occCut B s t eps

/-- `intersect(object, tool, eps)`, python/frackit/occutilities/__init__.py:32-41 with
frackit/python/occutilities/breputilities.hh:210-214. -/
noncomputable def pyShapeIntersect (object tool : PyShapeArg) (eps : ℝ) : Outcome Shape := do
  let s ← pyGetShapeWrapper K object
  let t ← pyGetShapeWrapper K tool
  occIntersect B s t eps

/-- `fragment(shapeList, eps)`, python/frackit/occutilities/__init__.py:44-52 with
frackit/python/occutilities/breputilities.hh:216-225. -/
noncomputable def pyShapeFragment (objects : List PyShapeArg) (eps : ℝ) : Outcome Shape := do
  let l ← pyGetShapeWrappers K objects
  occFragment B l eps

/-- `fuse(shapeList, eps)`, python/frackit/occutilities/__init__.py:55-63 with
frackit/python/occutilities/breputilities.hh:227-236. -/
noncomputable def pyShapeFuse (objects : List PyShapeArg) (eps : ℝ) : Outcome Shape := do
  let l ← pyGetShapeWrappers K objects
  occFuse B l eps

/-- Nested calls of the Python functions. -/
inductive BoolExpr where
  | object (a : PyShapeArg)
  | cut (a b : BoolExpr) (eps : ℝ)
  | intersect (a b : BoolExpr) (eps : ℝ)
  | fragment (l : List BoolExpr) (eps : ℝ)
  | fuse (l : List BoolExpr) (eps : ℝ)

mutual
/-- Evaluation of nested calls: the results are wrapped shapes. -/
noncomputable def BoolExpr.eval : BoolExpr → Outcome PyShapeArg
  | .object a => .val a
  | .cut a b eps => do
      let x ← a.eval
      let y ← b.eval
      let r ← pyShapeCut K B x y eps
      pure (.arg (.shape r))
  | .intersect a b eps => do
      let x ← a.eval
      let y ← b.eval
      let r ← pyShapeIntersect K B x y eps
      pure (.arg (.shape r))
  | .fragment l eps => do
      let xs ← evalAll l
      let r ← pyShapeFragment K B xs eps
      pure (.arg (.shape r))
  | .fuse l eps => do
      let xs ← evalAll l
      let r ← pyShapeFuse K B xs eps
      pure (.arg (.shape r))

noncomputable def BoolExpr.evalAll : List BoolExpr → Outcome (List PyShapeArg)
  | [] => .val []
  | e :: t => do
      let x ← e.eval
      let xs ← evalAll t
      pure (x :: xs)
end

end Frackit
