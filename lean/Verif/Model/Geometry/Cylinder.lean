import Verif.Model.Geometry.Elliptical
import Verif.Model.Geometry.Box

/-!
# Cylinders, cylinder surfaces, hollow cylinders, spheres

frackit/geometry/{cylinder,cylindersurface,hollowcylinder,sphere}.hh
-/

namespace Frackit
open Verif

/-- A query on a possibly invalid object: comparisons with `NaN` are false. -/
def holdsIfVal {α : Type} (o : Outcome α) (P : α → Prop) : Prop :=
  match o with
  | .val a => P a
  | _ => False

/-! ## Cylinder -/

/-- `Cylinder<CT>`, frackit/geometry/cylinder.hh:200-203. -/
structure Cylinder where
  height : ℝ
  top : Elliptical
  bottom : Elliptical

/-- `Cylinder(radius, height, zOffset)`, frackit/geometry/cylinder.hh:83-95. -/
noncomputable def Cylinder.axisAligned (radius height : ℝ) (zOffset : ℝ := 0) : Outcome Cylinder := do
  let e1 ← mkDirection ⟨1, 0, 0⟩
  let e2 ← mkDirection ⟨0, 1, 0⟩
  let top ← Elliptical.make ⟨0, 0, zOffset + height⟩ e1 e2 radius radius
  let bottom ← Elliptical.make ⟨0, 0, zOffset⟩ e1 e2 radius radius
  pure ⟨height, top, bottom⟩

/-- `Cylinder::makeTopDisk_`, frackit/geometry/cylinder.hh:186-197. -/
noncomputable def makeTopDisk (bottom : Elliptical) (height : ℝ) : Outcome Elliptical :=
  Elliptical.make (bottom.center + height • bottom.normal) bottom.major bottom.minor
    bottom.majLen bottom.minLen

/-- `Cylinder(disk, height)`, frackit/geometry/cylinder.hh:114-123. -/
noncomputable def Cylinder.ofDisk (bottom : Elliptical) (height : ℝ) : Outcome Cylinder := do
  let top ← makeTopDisk bottom height
  let eps := bottom.majLen * confusion
  if |bottom.majLen - bottom.minLen| > eps then
    .thrown "Cylinder requires circular disks as base"
  else pure ⟨height, top, bottom⟩

/-- `Cylinder(circle, height)`, frackit/geometry/cylinder.hh:103-107. -/
noncomputable def Cylinder.ofCircle (bottom : Elliptical) (height : ℝ) : Outcome Cylinder := do
  let disk ← Elliptical.make bottom.center bottom.major bottom.minor bottom.majLen bottom.majLen
  Cylinder.ofDisk disk height

/-- `Cylinder::radius`, frackit/geometry/cylinder.hh:156. -/
def Cylinder.radius (c : Cylinder) : ℝ := c.bottom.majLen

/-- `Cylinder::volume`, frackit/geometry/cylinder.hh:158. -/
noncomputable def Cylinder.volume (c : Cylinder) : ℝ := Real.pi * c.radius * c.radius * c.height

/-- `Cylinder::centerSegment`, frackit/geometry/cylinder.hh:150-151. -/
def Cylinder.centerSegment (c : Cylinder) : Segment := ⟨c.bottom.center, c.top.center⟩

/-- `Cylinder::contains(p, eps)`, frackit/geometry/cylinder.hh:165-174. -/
def Cylinder.contains (c : Cylinder) (p : V3) (eps : ℝ) : Prop :=
  holdsIfVal c.centerSegment.supportingLine fun line =>
    let proj := line.projection p
    c.centerSegment.contains proj eps ∧ (p - proj).sqLen ≤ c.radius * c.radius + eps * eps

/-- `Cylinder::contains(p)`, frackit/geometry/cylinder.hh:181-182. -/
def Cylinder.containsDefault (c : Cylinder) (p : V3) : Prop :=
  c.contains p (confusion * 0.5 * (c.radius + c.height))

/-! ## Cylinder surface -/

/-- `CylinderSurface<CT>`, frackit/geometry/cylindersurface.hh:190-193. -/
structure CylinderSurface where
  height : ℝ
  top : Elliptical
  bottom : Elliptical

/-- `CylinderSurface(radius, height)`, frackit/geometry/cylindersurface.hh:83-87. -/
noncomputable def CylinderSurface.axisAligned (radius height : ℝ) : Outcome CylinderSurface := do
  let e3 ← mkDirection ⟨0, 0, 1⟩
  let top ← Circle.make ⟨0, 0, height⟩ e3 radius
  let bottom ← Circle.make ⟨0, 0, 0⟩ e3 radius
  pure ⟨height, top, bottom⟩

/-- `CylinderSurface(circle, height)`, frackit/geometry/cylindersurface.hh:95-99 with
`makeTopCircle_`, frackit/geometry/cylindersurface.hh:178-187. -/
noncomputable def CylinderSurface.ofCircle (bottom : Elliptical) (height : ℝ) :
    Outcome CylinderSurface := do
  let top ← Circle.make (bottom.center + height • bottom.normal) bottom.normal bottom.majLen
  pure ⟨height, top, bottom⟩

/-- `CylinderSurface::radius`, frackit/geometry/cylindersurface.hh:116. -/
def CylinderSurface.radius (c : CylinderSurface) : ℝ := c.bottom.majLen

/-- `CylinderSurface::area`, frackit/geometry/cylindersurface.hh:118. -/
noncomputable def CylinderSurface.area (c : CylinderSurface) : ℝ :=
  2 * Real.pi * c.radius * c.height

/-- `CylinderSurface::centerSegment`, frackit/geometry/cylindersurface.hh:126-127. -/
def CylinderSurface.centerSegment (c : CylinderSurface) : Segment := ⟨c.bottom.center, c.top.center⟩

/-- `CylinderSurface::cylinder`, frackit/geometry/cylindersurface.hh:130-131. -/
noncomputable def CylinderSurface.cylinder (c : CylinderSurface) : Outcome Cylinder :=
  Cylinder.ofCircle c.bottom c.height

/-- `Cylinder::lateralFace`, frackit/geometry/cylinder.hh:142-147. -/
noncomputable def Cylinder.lateralFace (c : Cylinder) : Outcome CylinderSurface := do
  let circle ← Circle.make c.bottom.center c.bottom.normal c.bottom.majLen
  CylinderSurface.ofCircle circle c.height

/-- `CylinderSurface::getTangentPlane(p)`, frackit/geometry/cylindersurface.hh:144-149 (assert
compiled out). -/
noncomputable def CylinderSurface.getTangentPlane (c : CylinderSurface) (p : V3) : Outcome Plane := do
  let line ← c.centerSegment.supportingLine
  let n ← mkDirection (p - line.projection p)
  Plane.ofNormal p n

/-- `CylinderSurface::contains(p, eps)`, frackit/geometry/cylindersurface.hh:156-166. -/
def CylinderSurface.contains (c : CylinderSurface) (p : V3) (eps : ℝ) : Prop :=
  holdsIfVal c.centerSegment.supportingLine fun line =>
    let proj := line.projection p
    c.centerSegment.contains proj eps ∧ |(p - proj).len - c.radius| < eps

/-- `CylinderSurface::contains(p)`, frackit/geometry/cylindersurface.hh:173-174. -/
def CylinderSurface.containsDefault (c : CylinderSurface) (p : V3) : Prop :=
  c.contains p (confusion * 0.5 * (c.radius + c.height))

/-! ## Hollow cylinder -/

/-- `HollowCylinder<CT>`, frackit/geometry/hollowcylinder.hh:216-228.  The cached members are
computed from the others on demand and are not part of the state here. -/
structure HollowCylinder where
  bottomInner : Elliptical
  topInner : Elliptical
  outerRadius : ℝ
  height : ℝ

/-- `HollowCylinder(bottomCenter, axis, innerRadius, outerRadius, height)`,
frackit/geometry/hollowcylinder.hh:96-112. -/
noncomputable def HollowCylinder.make (bottomCenter axis : V3) (innerRadius outerRadius height : ℝ) :
    Outcome HollowCylinder := do
  let b ← Circle.make bottomCenter axis innerRadius
  let t ← Circle.make (bottomCenter + height • axis) axis innerRadius
  if outerRadius < innerRadius then .thrown "Outer radius must be greater than inner radius"
  else pure ⟨b, t, outerRadius, height⟩

/-- `HollowCylinder(innerRadius, outerRadius, height)`, frackit/geometry/hollowcylinder.hh:83-87. -/
noncomputable def HollowCylinder.axisAligned (innerRadius outerRadius height : ℝ) :
    Outcome HollowCylinder := do
  let e3 ← mkDirection ⟨0, 0, 1⟩
  HollowCylinder.make ⟨0, 0, 0⟩ e3 innerRadius outerRadius height

/-- `HollowCylinder::innerRadius`, frackit/geometry/hollowcylinder.hh:179. -/
def HollowCylinder.innerRadius (c : HollowCylinder) : ℝ := c.bottomInner.majLen

/-- `HollowCylinder::bottomOuterCircle`, frackit/geometry/hollowcylinder.hh:132-137. -/
noncomputable def HollowCylinder.bottomOuterCircle (c : HollowCylinder) : Outcome Elliptical :=
  Circle.make c.bottomInner.center c.bottomInner.normal c.outerRadius

/-- `HollowCylinder::topOuterCircle`, frackit/geometry/hollowcylinder.hh:140-145. -/
noncomputable def HollowCylinder.topOuterCircle (c : HollowCylinder) : Outcome Elliptical :=
  Circle.make c.topInner.center c.bottomInner.normal c.outerRadius

/-- `HollowCylinder::innerLateralFace`, frackit/geometry/hollowcylinder.hh:148-153. -/
noncomputable def HollowCylinder.innerLateralFace (c : HollowCylinder) : Outcome CylinderSurface :=
  CylinderSurface.ofCircle c.bottomInner c.height

/-- `HollowCylinder::outerLateralFace`, frackit/geometry/hollowcylinder.hh:156-161. -/
noncomputable def HollowCylinder.outerLateralFace (c : HollowCylinder) : Outcome CylinderSurface := do
  let circle ← c.bottomOuterCircle
  CylinderSurface.ofCircle circle c.height

/-- `HollowCylinder::centerSegment`, frackit/geometry/hollowcylinder.hh:164-165. -/
def HollowCylinder.centerSegment (c : HollowCylinder) : Segment :=
  ⟨c.bottomInner.center, c.topInner.center⟩

/-- `HollowCylinder::fullCylinder`, frackit/geometry/hollowcylinder.hh:168-174. -/
noncomputable def HollowCylinder.fullCylinder (c : HollowCylinder) : Outcome Cylinder := do
  let bottom ← Circle.make c.bottomInner.center c.bottomInner.normal c.outerRadius
  Cylinder.ofCircle bottom c.height

/-- `HollowCylinder::volume`, frackit/geometry/hollowcylinder.hh:183-187. -/
noncomputable def HollowCylinder.volume (c : HollowCylinder) : ℝ :=
  Real.pi * c.height * (c.outerRadius * c.outerRadius - c.innerRadius * c.innerRadius)

/-- `HollowCylinder::contains(p, eps)`, frackit/geometry/hollowcylinder.hh:194-206. -/
def HollowCylinder.contains (c : HollowCylinder) (p : V3) (eps : ℝ) : Prop :=
  holdsIfVal c.centerSegment.supportingLine fun line =>
    let proj := line.projection p
    c.centerSegment.contains proj eps ∧
      (p - proj).sqLen ≤ c.outerRadius * c.outerRadius + eps * eps ∧
      (p - proj).sqLen ≥ c.innerRadius * c.innerRadius - eps * eps

/-- `HollowCylinder::contains(p)`, frackit/geometry/hollowcylinder.hh:213-214. -/
def HollowCylinder.containsDefault (c : HollowCylinder) (p : V3) : Prop :=
  c.contains p (confusion * 0.5 * (c.outerRadius + c.height))

/-! ## Sphere -/

/-- `Sphere<CT>`, frackit/geometry/sphere.hh:98-99. -/
structure Sphere where
  center : V3
  radius : ℝ

/-- `Sphere::volume`, frackit/geometry/sphere.hh:76. -/
noncomputable def Sphere.volume (s : Sphere) : ℝ :=
  4 / 3 * Real.pi * s.radius * s.radius * s.radius

/-- `Sphere::contains(p, eps)`, frackit/geometry/sphere.hh:83-87. -/
def Sphere.contains (s : Sphere) (p : V3) (eps : ℝ) : Prop :=
  (p - s.center).sqLen - s.radius * s.radius < eps * eps

/-- `Sphere::contains(p)`, frackit/geometry/sphere.hh:94-95. -/
def Sphere.containsDefault (s : Sphere) (p : V3) : Prop := s.contains p (s.radius * confusion)

end Frackit
