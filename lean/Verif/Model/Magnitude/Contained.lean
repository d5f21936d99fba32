import Verif.Model.Distance.Shapes
import Verif.Model.EntityNetwork.Constraints

/-!
# Magnitude of the part of a geometry contained in a domain

frackit/magnitude/containedmagnitude.hh, frackit/geometryutilities/{applyongeometry,assign,name}.hh,
frackit/python/geometry/magnitude.hh
-/

namespace Frackit
open Verif

/-- Algorithms of OpenCASCADE used for the parts of a shape in another one.

* `common`: `BRepAlgoAPI_Common` of two shapes with the given fuzzy value (`none`: `IsDone()` is false);
* `edges`, `faces`: the edges and faces of a shape, visited by a `TopExp_Explorer`;
* `edgeLength`: the length of the (trimmed) curve of an edge, frackit/magnitude/length.hh:62-77;
* `faceArea`: the area of a face (`BRepGProp::SurfaceProperties`) with the given tolerance and location. -/
structure CommonKernel where
  common : Shape → Shape → ℝ → Option Shape
  edges : Shape → List Shape
  faces : Shape → List Shape
  edgeLength : Shape → ℝ
  faceArea : Shape → ℝ → V3 → ℝ

/-- `DimensionalityTraits<T>::geometryDimension()`, frackit/geometry/dimension.hh:50-126: not defined for
general shapes and compounds. -/
def DistArg.dimension : DistArg → Option ℕ
  | .geom g => some g.dimension
  | .line _ => some 1
  | .shape s =>
      match s.kind with
      | .vertex => some 0
      | .edge => some 1
      | .wire => some 1
      | .face => some 2
      | .shell => some 2
      | .solid => some 3
      | .compound => none

/-- `computeArea(face, eps, loc)` as called for the faces of the result,
frackit/magnitude/containedmagnitude.hh:101-110: tolerance and location given for internal geometries, the
default values of frackit/magnitude/area.hh:60-63 for faces.  Cylinder surfaces and shells have no
`center()`, the call does not compile (`ub`). -/
noncomputable def containedFaceArea (K : ShapeKernel) (C : CommonKernel) (g domain : DistArg) :
    Outcome (Shape → ℝ) :=
  match g with
  | .shape s => if s.kind = .face then .val fun f => C.faceArea f confusion 0 else .ub
  | .geom (.triangle t) => do
      let eps ← defaultEpsilon K domain
      pure fun f => C.faceArea f eps t.center
  | .geom (.quadrilateral q) => do
      let eps ← defaultEpsilon K domain
      let center ← q.center
      pure fun f => C.faceArea f eps center
  | .geom (.polygon pg) => do
      let eps ← defaultEpsilon K domain
      let center ← pg.center
      pure fun f => C.faceArea f eps center
  | .geom (.disk d) => do
      let eps ← defaultEpsilon K domain
      pure fun f => C.faceArea f eps d.center
  | _ => .ub

/-- The shape of the common part of the geometry and the domain,
frackit/magnitude/containedmagnitude.hh:65-67, 91-93, with `OCCUtilities::intersect` of
frackit/occ/breputilities.hh:500-511. -/
noncomputable def commonShape (K : ShapeKernel) (C : CommonKernel) (g domain : DistArg) : Outcome Shape := do
  let s ← getShape K g
  let t ← getShape K domain
  let eps ← defaultEpsilon K domain
  doneOr "Common operation failed" (C.common s t eps)

/-- `computeContainedMagnitude(geometry, domain)`, frackit/magnitude/containedmagnitude.hh:49-113: the
overload for the dimension of the geometry.  There is none for three dimensions, and none for types without
dimension: the call does not compile (`ub`). -/
noncomputable def computeContainedMagnitude (K : ShapeKernel) (C : CommonKernel) (g domain : DistArg) :
    Outcome ℝ :=
  match g.dimension with
  | some 0 => .val 0
  | some 1 => do
      let is ← commonShape K C g domain
      if (C.edges is).isEmpty = true then pure 0
      else pure ((C.edges is).foldl (fun size e => size + C.edgeLength e) 0)
  | some 2 =>
      match g with
      | .geom (.cylinderSurface _) => .ub
      | _ => do
        let is ← commonShape K C g domain
        let area ← containedFaceArea K C g domain
        if (C.faces is).isEmpty = true then pure 0
        else pure ((C.faces is).foldl (fun size f => size + area f) 0)
  | _ => .ub

/-! ## Pointers to the base class -/

/-- `Geometry::name()` of the classes: frackit/geometry/{point,segment,circle,ellipse,ellipsearc,triangle,
quadrilateral,polygon,disk,cylindersurface,box,sphere,cylinder,hollowcylinder}.hh. -/
def AnyGeometry.name : AnyGeometry → String
  | .point _ => "Point_3d"
  | .segment _ => "Segment_3d"
  | .circle _ => "Circle_3d"
  | .ellipse _ => "Ellipse_3d"
  | .arc _ _ => "EllipseArc_3d"
  | .triangle _ => "Triangle_3d"
  | .quadrilateral _ => "Quadrilateral_3d"
  | .polygon _ => "Polygon_3d"
  | .disk _ => "Disk"
  | .cylinderSurface _ => "CylinderSurface"
  | .box _ => "Box"
  | .sphere _ => "Sphere"
  | .cylinder _ => "Cylinder"
  | .hollowCylinder _ => "HollowCylinder"

/-- `assign(geoPtr, disk)`, frackit/geometryutilities/assign.hh:42-56, with the default constructed disk of
frackit/geometryutilities/applyongeometry.hh:62: nothing is assigned if the names differ; a failed
`dynamic_cast` is dereferenced. -/
def assignDisk (g : AnyGeometry) : Outcome (Option Elliptical) :=
  if "Disk" = g.name then
    match g with
    | .disk d => .val (some d)
    | _ => .ub
  else .val none

/-- `assign(geoPtr, quadrilateral)`, frackit/geometryutilities/assign.hh:42-56. -/
def assignQuadrilateral (g : AnyGeometry) : Outcome (Option Quadrilateral) :=
  if "Quadrilateral_3d" = g.name then
    match g with
    | .quadrilateral q => .val (some q)
    | _ => .ub
  else .val none

/-- `applyOnGeometry(applyFunc, geoPtr)`, frackit/geometryutilities/applyongeometry.hh:57-90: the argument is
the object the pointer refers to. -/
def applyOnGeometry {α : Type} (f : AnyGeometry → Outcome α) (g : AnyGeometry) : Outcome α :=
  if g.name = "Disk" then do
    match ← assignDisk g with
    | some d => f (.disk d)
    | none => .thrown "applyOnGeometry(): could not assign disk"
  else if g.name = "Quadrilateral_3d" then do
    match ← assignQuadrilateral g with
    | some q => f (.quadrilateral q)
    | none => .thrown "applyOnGeometry(): could not assign 3d quadrilateral"
  else
    .thrown ("applyOnGeometry() function not implemented for geometry with name \"" ++ g.name ++ "\"\n")

/-- `computeContainedMagnitude(geometryPtr, domain)`, frackit/magnitude/containedmagnitude.hh:120-132. -/
noncomputable def computeContainedMagnitudePtr (K : ShapeKernel) (C : CommonKernel) (g : AnyGeometry)
    (domain : DistArg) : Outcome ℝ :=
  applyOnGeometry (fun geo => computeContainedMagnitude K C (.geom geo) domain) g

/-- `evaluate(geo1, geo2)` of constraints for pointers to the base class,
frackit/entitynetwork/constraints.hh:196-213: the first, the second, or both arguments are pointers. -/
noncomputable def evaluatePtr (eng : Engine AnyGeometry) (c : Constraints) (ptr1 ptr2 : Bool)
    (a b : AnyGeometry) : Outcome Bool :=
  match ptr1, ptr2 with
  | true, false => applyOnGeometry (fun a' => Constraints.evaluate eng c a' b) a
  | false, true => applyOnGeometry (fun b' => Constraints.evaluate eng c a b') b
  | true, true => applyOnGeometry (fun a' => applyOnGeometry (fun b' => Constraints.evaluate eng c a' b') b) a
  | false, false => Constraints.evaluate eng c a b

/-! ## Python -/

/-- The types registered for `computeContainedMagnitude`, frackit/python/geometry/magnitude.hh:107-126. -/
def pyContainedRegistered (g domain : DistArg) : Bool :=
  (match g with
    | .geom (.segment _) => true
    | .geom (.disk _) => true
    | .geom (.quadrilateral _) => true
    | .shape s => decide (s.kind = .face)
    | _ => false) &&
  (match domain with
    | .geom (.box _) => true
    | .geom (.cylinder _) => true
    | .shape s => decide (s.kind = .solid)
    | _ => false)

/-- `computeContainedMagnitude` in Python, frackit/python/geometry/magnitude.hh:52-56, 72-78. -/
noncomputable def pyComputeContainedMagnitude (K : ShapeKernel) (C : CommonKernel) (g domain : DistArg) :
    Outcome ℝ :=
  if pyContainedRegistered g domain = true then computeContainedMagnitude K C g domain
  else .thrown "incompatible function arguments"

end Frackit
