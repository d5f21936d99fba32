import Verif.Model.Python.Objects
import Verif.Model.Sampling.PolygonSamplerPy

/-!
# The samplers of the Python package as sequences of calls on objects

python/frackit/sampling/__init__.py.  Python objects are numbered in the order in which they are made, see
`Verif.Model.Python.Objects`; within the body of a function they are counted from zero, `PyStep.shift` makes the numbers
relative to the objects there are when the function is called.  Numbers are values, functions that return numbers
(`x()`, `y()`, `z()`) make no objects: they are part of the function that uses them.
-/

namespace Frackit
open Verif

/-- The numbers of the objects of a modification relative to `n` existing objects. -/
def Change.shift (n : ℕ) : Change → Change
  | .add v => .add (n + v)
  | .subtract v => .subtract (n + v)
  | .scale c => .scale c
  | .divide c => .divide c
  | .invert => .invert
  | .rotate axis angle => .rotate (n + axis) angle

/-- The numbers of the objects of a call relative to `n` existing objects. -/
def PyStep.shift (n : ℕ) : PyStep → PyStep
  | .make v => .make v
  | .query f args => .query f (args.map (n + ·))
  | .get h f => .get (n + h) f
  | .base h second shared => .base (n + h) second shared
  | .supportingEllipse h => .supportingEllipse (n + h)
  | .change h m => .change (n + h) (m.shift n)

/-- A function with the given body is called. -/
noncomputable def PyHeap.call (H : PyHeap) (body : List PyStep) : Outcome PyHeap :=
  H.run (body.map (PyStep.shift H.refs.length))

/-! ## Constructors -/

/-- `Vector_3(direction)`, frackit/python/geometry/vector.hh:83. -/
def vectorOfDirection : List PyVal → Outcome PyVal
  | [.direction d] => .val (.vector d)
  | _ => .thrown "TypeError"

/-- `Direction_3(vector)`, frackit/python/geometry/direction.hh:46. -/
noncomputable def directionOfVector : List PyVal → Outcome PyVal
  | [.vector v] => do
      let d ← mkDirection v
      pure (.direction d)
  | _ => .thrown "TypeError"

/-- `Ellipse_3(center, majorAxis, minorAxis, majorAxisLength, minorAxisLength)`, frackit/python/geometry/ellipse.hh:49-50. -/
noncomputable def ellipseOf (a b : ℝ) : List PyVal → Outcome PyVal
  | [.point c, .direction maj, .direction min] => do
      let e ← Elliptical.make c maj min a b
      pure (.elliptical .ellipse e)
  | _ => .thrown "TypeError"

/-- `Disk(ellipse)`, frackit/python/geometry/disk.hh:44. -/
def diskOfEllipse : List PyVal → Outcome PyVal
  | [.elliptical .ellipse e] => .val (.elliptical .disk e)
  | _ => .thrown "TypeError"

/-- `point + vector`, frackit/python/geometry/point.hh:63. -/
def pointPlusVector : List PyVal → Outcome PyVal
  | [.point p, .vector v] => .val (.point (p + v))
  | _ => .thrown "TypeError"

/-- `Vector(p, q)`, frackit/python/geometry/vector.hh:82. -/
def vectorFromTo : List PyVal → Outcome PyVal
  | [.point p, .point q] => .val (.vector (q - p))
  | _ => .thrown "TypeError"

/-- A new object with the coordinates of another one, as `Point_3(c.x(), c.y(), c.z())`. -/
def copyOf : List PyVal → Outcome PyVal
  | [v] => .val v
  | _ => .thrown "TypeError"

/-! ## Cylinder point sampler -/

/-- `CylinderPointSampler.__call__`, python/frackit/sampling/__init__.py:49-71.  `bottomFace()` returns a copy of the disk
(frackit/python/geometry/cylinder.hh:58 with the default policy), its `majorAxis()`, `minorAxis()`, `normal()` and
`center()` refer to this copy.  Objects: 0, 3, 6, 9 the disks, 2, 5, 8 the vectors `a`, `b`, `n`, 10 the result. -/
noncomputable def cylinderSamplerCall (bottom : Elliptical) (r phi z : ℝ) : List PyStep :=
  [.make (.elliptical .disk bottom), .get 0 .majorAxis, .query vectorOfDirection [1],
   .make (.elliptical .disk bottom), .get 3 .minorAxis, .query vectorOfDirection [4],
   .make (.elliptical .disk bottom), .get 6 .normal, .query vectorOfDirection [7],
   .change 2 (.scale (r * Real.cos phi)), .change 5 (.scale (r * Real.sin phi)), .change 8 (.scale z),
   .make (.elliptical .disk bottom), .get 9 .center,
   .change 10 (.add 2), .change 10 (.add 5), .change 10 (.add 8)]

/-! ## Disk sampler -/

/-- `DiskSampler.__call__`, python/frackit/sampling/__init__.py:175-200, for the accepted lengths `a`, `b`, the angles and
the point returned by the point sampler.  Objects: 0, 1 the list `axes`, 2, 3, 5 the directions `e1`, `e2`, `e3`, 6 the
centre, 7, 8 the axes, 9 the ellipse, 10 the result. -/
noncomputable def diskSamplerCall (a b alpha beta gamma : ℝ) (center : V3) : List PyStep :=
  [.make (.vector ⟨1, 0, 0⟩), .make (.vector ⟨0, 1, 0⟩),
   .query directionOfVector [0], .query directionOfVector [1],
   .make (.vector ⟨0, 0, 1⟩), .query directionOfVector [4],
   .change 1 (.rotate 2 alpha), .change 0 (.rotate 3 beta), .change 1 (.rotate 3 beta),
   .change 0 (.rotate 5 gamma), .change 1 (.rotate 5 gamma),
   .make (.point center), .query directionOfVector [0], .query directionOfVector [1],
   .query (ellipseOf a b) [6, 7, 8], .query diskOfEllipse [9]]

/-! ## Quadrilateral sampler -/

/-- `QuadrilateralSampler.__call__` if made in the deprecated way, python/frackit/sampling/__init__.py:424-455, up to the
four corners, for the accepted lengths.  Objects: 0, 1 the list `axes`, 3, 5, 6 the axes of rotation, 7 to 10 the vectors
`dxVec1`, `dxVec2`, `dyVec1`, `dyVec2`, 11 the point `c`, 12 to 15 the corners. -/
noncomputable def quadSamplerCall (strike dip dx1 dx2 dy1 dy2 : ℝ) (center : V3) : List PyStep :=
  [.make (.vector ⟨1, 0, 0⟩), .make (.vector ⟨0, 1, 0⟩),
   .make (.vector ⟨0, 0, 1⟩), .query directionOfVector [2], .change 0 (.rotate 3 strike),
   .make (.vector ⟨0, 0, 1⟩), .query directionOfVector [4], .change 1 (.rotate 5 strike),
   .query directionOfVector [1], .change 0 (.rotate 6 dip),
   .query copyOf [0], .change 7 (.scale (dx1 / 2)), .query copyOf [0], .change 8 (.scale (dx2 / 2)),
   .query copyOf [1], .change 9 (.scale (dy1 / 2)), .query copyOf [1], .change 10 (.scale (dy2 / 2)),
   .make (.point center),
   .query copyOf [11], .change 12 (.subtract 7), .change 12 (.subtract 9),
   .query copyOf [11], .change 13 (.add 8), .change 13 (.subtract 10),
   .query copyOf [11], .change 14 (.subtract 7), .change 14 (.add 9),
   .query copyOf [11], .change 15 (.add 8), .change 15 (.add 10)]

/-! ## Polygon sampler -/

/-- The coordinates of points. -/
def coordinates : List PyVal → Option (List V3)
  | [] => some []
  | .point p :: t => (coordinates t).map (p :: ·)
  | _ => none

/-- `bboxCenter`, python/frackit/sampling/__init__.py:344-349 and 360-362, for the list `vertices`. -/
noncomputable def bboxCenterOf (l : List PyVal) : Outcome PyVal :=
  match coordinates l with
  | some ps => .val (.point (bboxCenter ps))
  | none => .thrown "TypeError"

open Classical in
/-- `vertices[-1] + edgeVectors[-1]` and the comparison with `vertices[0]`, python/frackit/sampling/__init__.py:352-356. -/
noncomputable def closingPoint : List PyVal → Outcome PyVal
  | [.point last, .vector e, .point first] =>
      if pointIsEqual (last + e) first confusion then .val (.point (last + e))
      else .thrown "Past last and first vertex of polygon are not equal!"
  | _ => .thrown "TypeError"

/-- Turning the edges around the vertical axis, python/frackit/sampling/__init__.py:336: a new direction is made for each
of them.  `m` edges, `i` of which have been turned. -/
noncomputable def strikeCalls (m : ℕ) (strike : ℝ) (i : ℕ) : List PyStep :=
  [.make (.vector ⟨0, 0, 1⟩), .query directionOfVector [m + 2 + 2 * i], .change i (.rotate (m + 3 + 2 * i) strike)]

/-- The end of `PolygonSampler.sampleCorners`, python/frackit/sampling/__init__.py:331-366, for the sorted edges, the drawn
angles and the point returned by the point sampler.  With `m` edges, the objects are 0 to m-1 the list `edgeVectors`, m+1
the direction `strikeDir`, 3m+2 to 4m+1 the list `vertices`, 4m+3 the point `c`, 4m+4 `bboxCenter`, 4m+5 `dispVector`. -/
noncomputable def polygonSamplerCall (edges : List V3) (strike dip : ℝ) (center : V3) : List PyStep :=
  let m := edges.length
  edges.map (fun e => .make (.vector e))
    ++ [.make (.vector ⟨-Real.sin strike, Real.cos strike, 0⟩), .query directionOfVector [m]]
    ++ (List.range m).flatMap (strikeCalls m strike)
    ++ (List.range m).map (fun i => .change i (.rotate (m + 1) dip))
    ++ [.make (.point ⟨0, 0, 0⟩)]
    ++ (List.range (m - 1)).map (fun i => .query pointPlusVector [3 * m + 2 + i, i])
    ++ [.query closingPoint [4 * m + 1, m - 1, 3 * m + 2], .make (.point center),
        .query bboxCenterOf ((List.range m).map (3 * m + 2 + ·)), .query vectorFromTo [4 * m + 4, 4 * m + 3]]
    ++ (List.range m).map (fun i => .change (3 * m + 2 + i) (.add (4 * m + 5)))

end Frackit
