import Verif.Model.Geometry.NDim
import Verif.Model.Geometry.Basic

/-!
# Lines and segments of any dimension

frackit/geometry/{line,segment}.hh for the template parameter `wd`, which is 1, 2 or 3 in the code.
-/

namespace Frackit
open Verif

/-- `Line<ctype, wd>`, frackit/geometry/line.hh:49-118. -/
structure LineN (n : ℕ) where
  support : Coords n
  dir : Coords n

/-- `Line::projection`, frackit/geometry/line.hh:87-96. -/
def LineN.projection {n : ℕ} (l : LineN n) (p : Coords n) : Coords n :=
  l.support.moveForward (l.dir.scale (l.dir.scalarProduct (vectorBetween l.support p)))

/-- `Line::contains(p, eps)`, frackit/geometry/line.hh:103-104. -/
def LineN.contains {n : ℕ} (l : LineN n) (p : Coords n) (eps : ℝ) : Prop :=
  (vectorBetween p (l.projection p)).squaredLength < eps * eps

/-- `Line::contains(p)`, frackit/geometry/line.hh:111-112. -/
noncomputable def LineN.containsDefault {n : ℕ} (l : LineN n) (p : Coords n) : Prop := l.contains p confusion

/-- `Segment<ctype, wd>`, frackit/geometry/segment.hh:53-166. -/
structure SegmentN (n : ℕ) where
  source : Coords n
  target : Coords n

/-- `Segment::direction`, frackit/geometry/segment.hh:93. -/
noncomputable def SegmentN.direction {n : ℕ} (s : SegmentN n) : Outcome (Coords n) :=
  directionOf (vectorBetween s.source s.target)

/-- `Segment::length`, frackit/geometry/segment.hh:95. -/
noncomputable def SegmentN.length {n : ℕ} (s : SegmentN n) : ℝ := (vectorBetween s.source s.target).length

/-- `Segment::squaredLength`, frackit/geometry/segment.hh:97. -/
def SegmentN.squaredLength {n : ℕ} (s : SegmentN n) : ℝ := (vectorBetween s.source s.target).squaredLength

/-- `Segment::supportingLine`, frackit/geometry/segment.hh:99-100. -/
noncomputable def SegmentN.supportingLine {n : ℕ} (s : SegmentN n) : Outcome (LineN n) := do
  let d ← s.direction
  pure ⟨s.source, d⟩

/-- `Segment::contains(p, eps, checkIfOnLine)`, frackit/geometry/segment.hh:110-132.  `std::signbit(x)` is `x < 0`.  For
a segment of zero length the direction is `NaN`: the check on the line is then false, and the sign bits of the two scalar
products are those of the same `NaN`. -/
def SegmentN.contains {n : ℕ} (s : SegmentN n) (p : Coords n) (eps : ℝ) (checkIfOnLine : Bool := true) : Prop :=
  let d1 := vectorBetween s.source p
  let d2 := vectorBetween s.target p
  let atEnd := d1.squaredLength < eps * eps ∨ d2.squaredLength < eps * eps
  match s.supportingLine with
  | .val line =>
      (checkIfOnLine = true → line.contains p eps) ∧
      (((line.dir.scalarProduct d1 < 0) ↔ ¬ (line.dir.scalarProduct d2 < 0)) ∨ atEnd)
  | _ => checkIfOnLine = false ∧ atEnd

/-- `Segment::contains(p, checkIfOnLine)`, frackit/geometry/segment.hh:142-143. -/
noncomputable def SegmentN.containsDefault {n : ℕ} (s : SegmentN n) (p : Coords n) (checkIfOnLine : Bool := true) : Prop :=
  s.contains p (confusion * s.length) checkIfOnLine

/-- `Segment::getPoint(param)`, frackit/geometry/segment.hh:148-156 (assert compiled out). -/
def SegmentN.getPoint {n : ℕ} (s : SegmentN n) (param : ℝ) : Coords n :=
  s.source.moveForward ((vectorBetween s.source s.target).scale param)

/-- `Segment::center`, frackit/geometry/segment.hh:90. -/
noncomputable def SegmentN.center {n : ℕ} (s : SegmentN n) : Coords n := s.getPoint (1 / 2)

/-- `Segment::getReversed`, frackit/geometry/segment.hh:159. -/
def SegmentN.getReversed {n : ℕ} (s : SegmentN n) : SegmentN n := ⟨s.target, s.source⟩

end Frackit
