import Verif.Model.Geometry.Basic
import Mathlib.Analysis.SpecialFunctions.Trigonometric.Arctan

/-!
# Elliptical geometries: circles, ellipses, arcs, disks

frackit/geometry/{ellipticalgeometry,circle,ellipse,ellipsearc,disk}.hh
-/

namespace Frackit
open Verif

/-- `EllipticalGeometry<CT,3>`, frackit/geometry/ellipticalgeometry.hh:125-132: base class and only
data of `Circle`, `Ellipse` and `Disk`. -/
structure Elliptical where
  center : V3
  major : V3
  minor : V3
  normal : V3
  majLen : ℝ
  minLen : ℝ

/-- `EllipticalGeometry(center, majAxis, minAxis, majAxisLength, minAxisLength)`,
frackit/geometry/ellipticalgeometry.hh:84-98 (assert compiled out).  This is also the (inherited)
constructor of `Ellipse` and `Disk`, frackit/geometry/ellipse.hh:72, frackit/geometry/disk.hh:66. -/
noncomputable def Elliptical.make (center major minor : V3) (majLen minLen : ℝ) :
    Outcome Elliptical := do
  let n ← mkDirection (major.cross minor)
  pure ⟨center, major, minor, n, majLen, minLen⟩

/-- `EllipticalGeometry::supportingPlane`, frackit/geometry/ellipticalgeometry.hh:116-122. -/
def Elliptical.supportingPlane (e : Elliptical) : Plane :=
  Plane.ofBasis e.center e.major e.minor e.normal

/-! ## Circle -/

/-- `Circle(center, normal, radius)`, frackit/geometry/circle.hh:78-82 with `makeBaseGeometry_`,
frackit/geometry/circle.hh:157-164 (the minor axis vector is converted to a `Direction` by the call
of the base class constructor). -/
noncomputable def Circle.make (center normal : V3) (radius : ℝ) : Outcome Elliptical := do
  let majAxis ← mkDirection (makeOrthogonalVector normal)
  let minAxis ← mkDirection (normal.cross majAxis)
  Elliptical.make center majAxis minAxis radius radius

/-- `Circle::contains(p, eps)`, frackit/geometry/circle.hh:99-106. -/
def Circle.contains (c : Elliptical) (p : V3) (eps : ℝ) : Prop :=
  c.supportingPlane.contains p eps ∧ |(c.center - p).len - c.majLen| < eps

/-- `Circle::contains(p)`, frackit/geometry/circle.hh:113-114. -/
def Circle.containsDefault (c : Elliptical) (p : V3) : Prop :=
  Circle.contains c p (confusion * c.majLen)

/-- `Circle::getPointFromAngle(angle)`, frackit/geometry/circle.hh:137-153 (assert compiled out). -/
noncomputable def Circle.getPointFromAngle (c : Elliptical) (angle : ℝ) : V3 :=
  let x := Real.cos angle * c.majLen
  let y := Real.sin angle * c.majLen
  c.center + x • c.major + y • c.minor

/-- `Circle::getPoint(param)`, frackit/geometry/circle.hh:124-128 (assert compiled out). -/
noncomputable def Circle.getPoint (c : Elliptical) (param : ℝ) : V3 :=
  Circle.getPointFromAngle c (2 * Real.pi * param)

/-! ## Ellipse -/

/-- `Ellipse::contains(p, eps, checkIfOnPlane)`, frackit/geometry/ellipse.hh:87-102.  If a squared
axis length is zero, the quotient is infinite or `NaN` and the comparison is false. -/
def Ellipse.contains (e : Elliptical) (p : V3) (eps : ℝ) (checkIfOnPlane : Bool := true) : Prop :=
  (checkIfOnPlane = true → e.supportingPlane.contains p eps) ∧
  let a := e.majLen
  let b := e.minLen
  let x := (p - e.center).dot e.major
  let y := (p - e.center).dot e.minor
  a * a ≠ 0 ∧ b * b ≠ 0 ∧ |x * x / (a * a) + y * y / (b * b) - 1| < eps

/-- `Ellipse::contains(p, checkIfOnPlane)`, frackit/geometry/ellipse.hh:111-112. -/
def Ellipse.containsDefault (e : Elliptical) (p : V3) (checkIfOnPlane : Bool := true) : Prop :=
  Ellipse.contains e p confusion checkIfOnPlane

/-- `Ellipse::getPointFromAngle(angle)`, frackit/geometry/ellipse.hh:135-151 (assert compiled
out). -/
noncomputable def Ellipse.getPointFromAngle (e : Elliptical) (angle : ℝ) : V3 :=
  let x := Real.cos angle * e.majLen
  let y := Real.sin angle * e.minLen
  e.center + x • e.major + y • e.minor

/-- `Ellipse::getPoint(param)`, frackit/geometry/ellipse.hh:122-126 (assert compiled out). -/
noncomputable def Ellipse.getPoint (e : Elliptical) (param : ℝ) : V3 :=
  Ellipse.getPointFromAngle e (2 * Real.pi * param)

open Classical in
/-- `Ellipse::getAngle(p, checkIfOnEllipse)`, frackit/geometry/ellipse.hh:174-198.
Simplification: a division by zero in the argument of `atan` (possible only if an axis length is
not positive) is the outcome `nan`. -/
noncomputable def Ellipse.getAngle (e : Elliptical) (p : V3) (checkIfOnEllipse : Bool := true) :
    Outcome ℝ :=
  if checkIfOnEllipse = true ∧ ¬ Ellipse.containsDefault e p then .thrown "Point not on ellipse!"
  else
    let d := p - e.center
    let x := d.dot e.major
    let y := d.dot e.minor
    if |x| < e.majLen * confusion then
      .val (if y < 0 then 3 * Real.pi / 2 else Real.pi / 2)
    else if |y| < e.minLen * confusion then
      .val (if x < 0 then Real.pi else 0)
    else if e.minLen = 0 ∨ x = 0 then .nan
    else
      let ratio := e.majLen / e.minLen
      if ¬ y < 0 ∧ ¬ x < 0 then .val (Real.arctan (y * ratio / x))
      else if y < 0 ∧ ¬ x < 0 then .val (2 * Real.pi + Real.arctan (y * ratio / x))
      else .val (Real.pi + Real.arctan (y * ratio / x))

/-- `Ellipse::getParam(p, checkIfOnEllipse)`, frackit/geometry/ellipse.hh:163-164. -/
noncomputable def Ellipse.getParam (e : Elliptical) (p : V3) (checkIfOnEllipse : Bool := true) :
    Outcome ℝ := do
  let angle ← Ellipse.getAngle e p checkIfOnEllipse
  pure (angle / (2 * Real.pi))

/-! ## Ellipse arc -/

/-- `EllipseArc<CT,3>`, frackit/geometry/ellipsearc.hh:169-174. -/
structure EllipseArc where
  ellipse : Elliptical
  source : V3
  target : V3
  sourceAngle : ℝ
  targetAngle : ℝ
  isFullEllipse : Prop

open Classical in
/-- `EllipseArc(ellipse, source, target)`, frackit/geometry/ellipsearc.hh:77-101 (asserts compiled
out). -/
noncomputable def EllipseArc.make (e : Elliptical) (source target : V3) : Outcome EllipseArc :=
  let eps := e.majLen * confusion
  if pointIsEqual source target eps then do
    let sa ← Ellipse.getAngle e source
    let ta := if sa < angular then 2 * Real.pi else sa
    pure ⟨e, source, target, sa, ta, True⟩
  else do
    let sa ← Ellipse.getAngle e source
    let ta ← Ellipse.getAngle e target
    pure ⟨e, source, target, sa, ta, False⟩

open Classical in
/-- `EllipseArc::contains(p, eps, checkIfOnEllipse)`, frackit/geometry/ellipsearc.hh:130-141.
`getAngle` may throw if the given tolerance is larger than its own. -/
noncomputable def EllipseArc.contains (arc : EllipseArc) (p : V3) (eps : ℝ)
    (checkIfOnEllipse : Bool := true) : Outcome Prop :=
  if checkIfOnEllipse = true ∧ ¬ Ellipse.contains arc.ellipse p eps then .val False
  else do
    let angle ← Ellipse.getAngle arc.ellipse p checkIfOnEllipse
    pure (if arc.sourceAngle > arc.targetAngle then
        angle ≥ arc.sourceAngle - eps ∨ angle ≤ arc.targetAngle + eps
      else
        angle ≥ arc.sourceAngle - eps ∧ angle ≤ arc.targetAngle + eps)

/-- `EllipseArc::contains(p, checkIfOnEllipse)`, frackit/geometry/ellipsearc.hh:150-151. -/
noncomputable def EllipseArc.containsDefault (arc : EllipseArc) (p : V3)
    (checkIfOnEllipse : Bool := true) : Outcome Prop :=
  arc.contains p angular checkIfOnEllipse

/-- `EllipseArc::getPoint(param)`, frackit/geometry/ellipsearc.hh:156-166: the value assigned for a
full ellipse (line 161) is always overwritten by the following `if`/`else`. -/
noncomputable def EllipseArc.getPoint (arc : EllipseArc) (param : ℝ) : V3 :=
  let deltaAngle :=
    if arc.sourceAngle < arc.targetAngle then arc.targetAngle - arc.sourceAngle
    else 2 * Real.pi - arc.sourceAngle + arc.targetAngle
  Ellipse.getPointFromAngle arc.ellipse (arc.sourceAngle + deltaAngle * param)

/-- `EllipseArc::getParam`: the class does not define the function and inherits it from `Ellipse`,
frackit/geometry/ellipsearc.hh:51-53 and frackit/geometry/ellipse.hh:163-164; the Python class is derived from the one
for ellipses as well, frackit/python/geometry/ellipsearc.hh:44. -/
noncomputable def EllipseArc.getParam (arc : EllipseArc) (p : V3) (checkIfOnEllipse : Bool := true) : Outcome ℝ :=
  Ellipse.getParam arc.ellipse p checkIfOnEllipse

/-! ## Disk -/

/-- `Disk::area`, frackit/geometry/disk.hh:82-86. -/
noncomputable def Disk.area (d : Elliptical) : ℝ := Real.pi * d.majLen * d.minLen

/-- `Disk::contains(p, eps, checkIfOnPlane)`, frackit/geometry/disk.hh:98-112.  If a squared axis
length is zero, the quotient is infinite or `NaN` and the comparison is false. -/
def Disk.contains (d : Elliptical) (p : V3) (eps : ℝ) (checkIfOnPlane : Bool := true) : Prop :=
  (checkIfOnPlane = true → d.supportingPlane.contains p eps) ∧
  let a := d.majLen
  let b := d.minLen
  let x := (p - d.center).dot d.major
  let y := (p - d.center).dot d.minor
  a * a ≠ 0 ∧ b * b ≠ 0 ∧ x * x / (a * a) + y * y / (b * b) ≤ 1 + eps * eps

/-- `Disk::contains(p, checkIfOnPlane)`, frackit/geometry/disk.hh:121-122. -/
def Disk.containsDefault (d : Elliptical) (p : V3) (checkIfOnPlane : Bool := true) : Prop :=
  Disk.contains d p confusion checkIfOnPlane

/-- `Disk::boundingEllipse`, frackit/geometry/disk.hh:141-148. -/
noncomputable def Disk.boundingEllipse (d : Elliptical) : Outcome Elliptical :=
  Elliptical.make d.center d.major d.minor d.majLen d.minLen

/-- `Disk::getPoint(param1, param2)`, frackit/geometry/disk.hh:129-138 (asserts compiled out). -/
noncomputable def Disk.getPoint (d : Elliptical) (param1 param2 : ℝ) : Outcome V3 := do
  let e ← Disk.boundingEllipse d
  let p := Ellipse.getPoint e param1
  let v := param2 • (p - d.center)
  pure (p + v)

end Frackit
