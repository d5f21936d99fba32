import Verif.Model.Distance.Shapes
import Verif.Model.Geometry.NDimLine

/-!
# Shapes and distances of points, lines and segments in one and two dimensions

frackit/occ/{gputilities,breputilities}.hh, frackit/distance/distance.hh, frackit/python/occutilities/breputilities.hh,
python/frackit/geometry/__init__.py
-/

namespace Frackit
open Verif

/-- `computeDistance(point, point)` of any dimension, frackit/distance/distance.hh:154-157. -/
noncomputable def distPointPointN {n : ℕ} (p1 p2 : Coords n) : ℝ := (vectorBetween p1 p2).length

/-- `computeDistance(point, line)` of any dimension, frackit/distance/distance.hh:165-168. -/
noncomputable def distPointLineN {n : ℕ} (p : Coords n) (l : LineN n) : ℝ := (vectorBetween p (l.projection p)).length

open Classical in
/-- `computeDistance(point, segment)` of any dimension, frackit/distance/distance.hh:187-202.  For a segment of zero
length the projection is `NaN`, and `contains` is false for it. -/
noncomputable def distPointSegmentN {n : ℕ} (p : Coords n) (s : SegmentN n) : ℝ :=
  let d1 := (vectorBetween p s.source).length
  let d2 := (vectorBetween p s.target).length
  match s.supportingLine with
  | .val line =>
      let proj := line.projection p
      if s.containsDefault proj then (vectorBetween p proj).length else min d1 d2
  | _ => min d1 d2

/-- The dimension of the space: `0` stands for one dimension, `1` for two; see `NArg`. -/
abbrev LowDim := Fin 2

/-- `OCCUtilities::point(p)` for one and two dimensions, frackit/occ/gputilities.hh:47-54. -/
def occPoint : (d : LowDim) → Coords (d + 1) → V3
  | 0, p => ⟨p 0, 0, 0⟩
  | 1, p => ⟨p 0, p 1, 0⟩

/-- Arguments of the distance functions: points, segments and lines in one or two dimensions, and everything in three
dimensions. -/
inductive NArg where
  | point (d : LowDim) (p : Coords (d + 1))
  | segment (d : LowDim) (s : SegmentN (d + 1))
  | line (d : LowDim) (l : LineN (d + 1))
  | space (a : DistArg)

variable (K : ShapeKernel)

/-- `getShape(geo)`, frackit/occ/breputilities.hh:131-141, 147-171. -/
noncomputable def getShapeN : NArg → Outcome Shape
  | .point d p => doneOr "Could not create vertex shape" (K.vertex (occPoint d p))
  | .segment d s => doneOr "Could not create segment edge" (K.edge (occPoint d s.source) (occPoint d s.target))
  | .line _ _ => .thrown "getShape() not implemented for Line"
  | .space a => getShape K a

/-- The general template of `computeDistance`, frackit/distance/distance.hh:97-111, 122-146. -/
noncomputable def shapeDistanceN (a b : NArg) : Outcome ℝ := do
  let s ← getShapeN K a
  let t ← getShapeN K b
  distShapes K s t

/-- `computeDistance(geo1, geo2)`, frackit/distance/distance.hh:97-213: the overloads for points, lines and segments
require the same dimension of both arguments. -/
noncomputable def computeDistanceN (a b : NArg) : Outcome ℝ :=
  match a, b with
  | .point d p, .point e q =>
      if h : e = d then .val (distPointPointN p (h ▸ q)) else shapeDistanceN K a b
  | .point d p, .line e l =>
      if h : e = d then .val (distPointLineN p (h ▸ l)) else shapeDistanceN K a b
  | .line d l, .point e p =>
      if h : e = d then .val (distPointLineN (h ▸ p) l) else shapeDistanceN K a b
  | .point d p, .segment e s =>
      if h : e = d then .val (distPointSegmentN p (h ▸ s)) else shapeDistanceN K a b
  | .segment d s, .point e p =>
      if h : e = d then .val (distPointSegmentN (h ▸ p) s) else shapeDistanceN K a b
  | .space a', .space b' => computeDistance K a' b'
  | _, _ => shapeDistanceN K a b

/-- The class in Python, frackit/python/geometry/{point,segment,line}.hh. -/
def lowClass : NArg → Option PyClass
  | .point d _ => some (.point (d + 1))
  | .segment d _ => some (.segment (d + 1))
  | .line d _ => some (.line (d + 1))
  | .space _ => none

/-- `getShape(object)` in Python, frackit/python/occutilities/breputilities.hh:97-112, 318-343.  An overload for another
class cannot be called with the object. -/
noncomputable def pyGetShapeN (a : NArg) : Outcome Shape :=
  match a with
  | .space a => pyGetShape K a
  | a =>
      match lowClass a with
      | some c =>
          match resolve shapeOverloads c with
          | some o => if o = c then getShapeN K a else .ub
          | none => .thrown "TypeError"
      | none => .thrown "TypeError"

/-- `computeDistance(geo1, geo2)` in Python, python/frackit/geometry/__init__.py:150-155: there are no overloads for
arguments in lower dimensions, their shapes are used. -/
noncomputable def pyComputeDistanceN (a b : NArg) : Outcome ℝ :=
  match a, b with
  | .space a', .space b' => pyComputeDistance K a' b'
  | a, b => do
      let s ← pyGetShapeN K a
      let t ← pyGetShapeN K b
      computeDistance K (.shape s) (.shape t)

end Frackit
