import Verif.Model.Common.Math

/-!
# Points, vectors, directions, lines, planes, segments

frackit/geometry/{point,vector,direction,line,plane,segment}.hh (3d versions).
-/

namespace Frackit
open Verif

/-! ## Vectors and directions -/

/-- `PointBase::isEqual(other, eps)`, frackit/geometry/point.hh:83-84. -/
def pointIsEqual (p q : V3) (eps : ℝ) : Prop := (q - p).sqLen < eps * eps

/-- `VectorBase::isParallel`, frackit/geometry/vector.hh:123-135.  For a vector of zero length the
quotient is `NaN`, whose comparison is false. -/
def isParallel (a b : V3) (angularEps : ℝ) : Prop :=
  (a.len ≠ 0 ∧ b.len ≠ 0 ∧ |Real.arccos (a.dot b / a.len / b.len)| < angularEps)
    ∨ |angularEps - Real.pi| < angularEps

/-- `Direction(const Vector&)` in 3d, frackit/geometry/direction.hh:195-202.  Dividing the zero
vector by its length gives `NaN` coordinates. -/
noncomputable def mkDirection (v : V3) : Outcome V3 :=
  if v.len = 0 then .nan else .val (v.sdiv v.len)

/-- `Direction::invert`, frackit/geometry/direction.hh:225-229. -/
def invertDirection (d : V3) : V3 := (-1 : ℝ) • d

/-- `makeOrthogonalVector`, frackit/geometry/vector.hh:380-386. -/
noncomputable def makeOrthogonalVector (v : V3) : V3 :=
  if v.x = 0 then ⟨1, 0, 0⟩
  else if v.y = 0 then ⟨0, 1, 0⟩
  else if v.z = 0 then ⟨0, 0, 1⟩
  else ⟨v.y, -v.x, 0⟩

/-! ## Lines -/

/-- `Line<CT,3>`, frackit/geometry/line.hh:117-119; `dir` are the coordinates of a `Direction`. -/
structure Line where
  supp : V3
  dir : V3

/-- `Line::projection`, frackit/geometry/line.hh:87-96. -/
def Line.projection (l : Line) (p : V3) : V3 :=
  l.supp + l.dir.dot (p - l.supp) • l.dir

/-- `Line::contains(p, eps)`, frackit/geometry/line.hh:103-104. -/
def Line.contains (l : Line) (p : V3) (eps : ℝ) : Prop :=
  (l.projection p - p).sqLen < eps * eps

/-! ## Planes -/

/-- `Plane<CT,3>`, frackit/geometry/plane.hh:186-189. -/
@[ext] structure Plane where
  supp : V3
  base1 : V3
  base2 : V3
  normal : V3

/-- `Plane(p, normal)`, frackit/geometry/plane.hh:84-91; `normal` is a `Direction`. -/
noncomputable def Plane.ofNormal (p normal : V3) : Outcome Plane := do
  let b1 ← mkDirection (makeOrthogonalVector normal)
  let b2 ← mkDirection (normal.cross b1)
  pure ⟨p, b1, b2, normal⟩

/-- `Plane(p1, p2, p3)`, frackit/geometry/plane.hh:99-105. -/
noncomputable def Plane.ofPoints (p1 p2 p3 : V3) : Outcome Plane := do
  let b1 ← mkDirection (p2 - p1)
  let n ← mkDirection (b1.cross (p3 - p1))
  let b2 ← mkDirection (n.cross b1)
  pure ⟨p1, b1, b2, n⟩

/-- `Plane(p, base1, base2, normal)`, frackit/geometry/plane.hh:115-126 (asserts compiled out). -/
def Plane.ofBasis (p base1 base2 normal : V3) : Plane := ⟨p, base1, base2, normal⟩

/-- `Plane::projection(const Point&)`, frackit/geometry/plane.hh:141-150. -/
def Plane.projection (pl : Plane) (p : V3) : V3 :=
  p + (-1 : ℝ) • (pl.normal.dot (p - pl.supp) • pl.normal)

open Classical in
/-- `Plane::projection(const Line&)`, frackit/geometry/plane.hh:153-165 (assert compiled out). -/
noncomputable def Plane.projectionLine (pl : Plane) (l : Line) : Outcome Line := do
  let newSupport := pl.projection l.supp
  let p2 := l.supp + l.dir
  let p2 := if pointIsEqual p2 newSupport confusion then p2 + l.dir else p2
  let d ← mkDirection (pl.projection p2 - newSupport)
  pure ⟨newSupport, d⟩

/-- `Plane::contains(p, eps)`, frackit/geometry/plane.hh:179-183. -/
def Plane.contains (pl : Plane) (p : V3) (eps : ℝ) : Prop :=
  |(p - pl.supp).dot pl.normal| < eps

/-! ## Segments -/

/-- `Segment<CT,3>`, frackit/geometry/segment.hh:162-163. -/
@[ext] structure Segment where
  source : V3
  target : V3

/-- `Plane::projection(const Segment&)`, frackit/geometry/plane.hh:168-172. -/
def Plane.projectionSegment (pl : Plane) (s : Segment) : Segment :=
  ⟨pl.projection s.source, pl.projection s.target⟩

/-- `Segment::direction`, frackit/geometry/segment.hh:93. -/
noncomputable def Segment.direction (s : Segment) : Outcome V3 := mkDirection (s.target - s.source)

/-- `Segment::length`, frackit/geometry/segment.hh:95. -/
noncomputable def Segment.length (s : Segment) : ℝ := (s.target - s.source).len

/-- `Segment::supportingLine`, frackit/geometry/segment.hh:99-100. -/
noncomputable def Segment.supportingLine (s : Segment) : Outcome Line := do
  let d ← s.direction
  pure ⟨s.source, d⟩

/-- `Segment::contains(p, eps, checkIfOnLine)`, frackit/geometry/segment.hh:110-132.
`std::signbit(x)` is `x < 0`.  For a degenerate segment the direction is `NaN`: the check on the
line is then false, and the sign bits of the two scalar products are those of the same `NaN`. -/
def Segment.contains (s : Segment) (p : V3) (eps : ℝ) (checkIfOnLine : Bool := true) : Prop :=
  let d1 := p - s.source
  let d2 := p - s.target
  let atEnd := d1.sqLen < eps * eps ∨ d2.sqLen < eps * eps
  match s.supportingLine with
  | .val line =>
      (checkIfOnLine = true → line.contains p eps) ∧
      (((line.dir.dot d1 < 0) ↔ ¬ (line.dir.dot d2 < 0)) ∨ atEnd)
  | _ => checkIfOnLine = false ∧ atEnd

/-- `Segment::contains(p, checkIfOnLine)` with the default tolerance,
frackit/geometry/segment.hh:142-143. -/
def Segment.containsDefault (s : Segment) (p : V3) (checkIfOnLine : Bool := true) : Prop :=
  s.contains p (confusion * s.length) checkIfOnLine

/-- `Segment::getPoint(param)`, frackit/geometry/segment.hh:148-156 (assert compiled out). -/
def Segment.getPoint (s : Segment) (param : ℝ) : V3 :=
  s.source + param • (s.target - s.source)

/-- `Segment::getReversed`, frackit/geometry/segment.hh:159. -/
def Segment.getReversed (s : Segment) : Segment := ⟨s.target, s.source⟩

end Frackit
