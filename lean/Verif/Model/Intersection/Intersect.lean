import Verif.Model.Intersection.CylinderPlanar
import Verif.Model.Intersection.FaceFace
import Verif.Model.Distance.Shapes
import Verif.Model.Geometry.Box

/-!
# The function `intersect`

frackit/intersection/intersect.hh, frackit/geometryutilities/getboundingbox.hh,
frackit/python/geometry/intersect.hh
-/

namespace Frackit
open Verif

/-- Arguments of `intersect`: geometries, lines, planes and shapes. -/
inductive IsArg where
  | geom (g : AnyGeometry)
  | line (l : Line)
  | plane (p : Plane)
  | shape (s : Shape)

/-- Algorithms of OpenCASCADE used by `intersect`: the functions of `Kernel` and `ShapeKernel`, and the
results of boolean operations between the shapes of the arguments. -/
structure IsKernel where
  algo : Kernel
  shapes : ShapeKernel
  ops : AnyGeometry → ShapeOps
  cylOps : CylinderSurface → AnyGeometry → ℝ → CylPlanarOps
  faceOps : Shape → Shape → ℝ → FaceFaceOps
  ends : ℕ → V3 × V3

/-- Return types of the overloads, frackit/intersection/intersectiontraits.hh:66-330. -/
inductive Intersected where
  | geoms (r : IsResult)
  | planes (r : PlanePlaneIs)
  | planeLine (r : PlaneLineIs)

variable (I : IsKernel)

open Classical in
/-- The check of the bounding boxes in front of an algorithm, e.g.
frackit/intersection/intersect.hh:105-106, 206-207. -/
noncomputable def preChecked {α : Type} (a b : DistArg) (eps : ℝ) (empty : α) (algo : Outcome α) :
    Outcome α := do
  let b1 ← getBoundingBox I.shapes a
  let b2 ← getBoundingBox I.shapes b
  if ¬ doIntersect b1 b2 eps then pure empty else algo

/-- Result that is a single geometry (`std::variant`). -/
def singleResult (o : Outcome IsGeom) : Outcome Intersected := do
  let g ← o
  pure (.geoms (.single g))

/-- Result that is a list of geometries (`std::vector<std::variant>`). -/
def listResult (o : Outcome (List IsGeom)) : Outcome Intersected := do
  let gs ← o
  pure (.geoms (.list gs))

/-- The empty intersections returned by the pre-check. -/
def emptySingle : Intersected := .geoms (.single .empty)
def emptyList : Intersected := .geoms (.list [.empty])

/-- Exception of the general template, frackit/intersection/intersect.hh:81-92. -/
def notImplemented {α : Type} : Outcome α := .thrown "Intersection algorithm not implemented"

/-- `intersect(face1, face2, eps)`, frackit/intersection/intersect.hh:419-426. -/
noncomputable def intersectFaces (f1 f2 : Shape) (eps : ℝ) : Outcome Intersected :=
  preChecked I (.shape f1) (.shape f2) eps emptyList
    (listResult (.val (intersectFaceFace (I.faceOps f1 f2 eps) I.ends eps)))

/-- `intersect(cylSurface, face, eps)`, frackit/intersection/intersect.hh:390-397, and
`intersect_cylinderSurface_face`,
frackit/intersection/algorithms/algo_cylsurface_face.hh:44-49. -/
noncomputable def intersectSurfaceFace (c : CylinderSurface) (f : Shape) (eps : ℝ) :
    Outcome Intersected :=
  preChecked I (.geom (.cylinderSurface c)) (.shape f) eps emptyList (do
    let s ← getShape I.shapes (.geom (.cylinderSurface c))
    listResult (.val (intersectFaceFace (I.faceOps s f eps) I.ends eps)))

/-- `intersect(disk/quad/polygon, face, eps)`, frackit/intersection/intersect.hh:435-438, 459-462,
483-486. -/
noncomputable def intersectPlanarFace (g : AnyGeometry) (f : Shape) (eps : ℝ) : Outcome Intersected := do
  let s ← getShape I.shapes (.geom g)
  intersectFaces I s f eps

/-- `intersect(geo1, geo2, eps)`: the overload for the types of the arguments; the general template for
the others.  frackit/intersection/intersect.hh:81-498. -/
noncomputable def intersect (a b : IsArg) (eps : ℝ) : Outcome Intersected :=
  match a, b with
  -- lines 101-108
  | .geom (.segment s1), .geom (.segment s2) =>
      preChecked I (.geom (.segment s1)) (.geom (.segment s2)) eps emptySingle
        (singleResult (intersectSegmentSegment I.algo s1 s2 eps))
  -- lines 117-120
  | .plane p1, .plane p2 => do
      let r ← intersectPlanePlane I.algo p1 p2 eps
      pure (.planes r)
  -- lines 129-132, 141-144
  | .plane p, .line l => do
      let r ← intersectPlaneLine I.algo p l eps
      pure (.planeLine r)
  | .line l, .plane p => do
      let r ← intersectPlaneLine I.algo p l eps
      pure (.planeLine r)
  -- lines 153-156, 165-168
  | .geom (.disk d), .line l => singleResult (intersectDiskLine I.algo d (I.ops (.disk d)) l eps)
  | .line l, .geom (.disk d) => singleResult (intersectDiskLine I.algo d (I.ops (.disk d)) l eps)
  -- lines 177-180, 190-193
  | .geom (.quadrilateral q), .line l =>
      singleResult (intersectQuadLine I.algo q (I.ops (.quadrilateral q)) l eps)
  | .line l, .geom (.quadrilateral q) =>
      singleResult (intersectQuadLine I.algo q (I.ops (.quadrilateral q)) l eps)
  -- lines 202-209
  | .geom (.disk d1), .geom (.disk d2) =>
      preChecked I (.geom (.disk d1)) (.geom (.disk d2)) eps emptySingle
        (singleResult (intersectDiskDisk I.algo d1 d2 (I.ops (.disk d1)) (I.ops (.disk d2)) eps))
  -- lines 218-225
  | .geom (.quadrilateral q1), .geom (.quadrilateral q2) =>
      preChecked I (.geom (.quadrilateral q1)) (.geom (.quadrilateral q2)) eps emptySingle
        (singleResult (intersectQuadQuad I.algo q1 q2 (I.ops (.quadrilateral q1))
          (I.ops (.quadrilateral q2)) eps))
  -- lines 234-241
  | .geom (.polygon p1), .geom (.polygon p2) =>
      preChecked I (.geom (.polygon p1)) (.geom (.polygon p2)) eps emptySingle
        (singleResult (intersectPolygonPolygon I.algo p1 p2 (I.ops (.polygon p1)) (I.ops (.polygon p2)) eps))
  -- lines 250-257, 266-269
  | .geom (.quadrilateral q), .geom (.disk d) =>
      preChecked I (.geom (.quadrilateral q)) (.geom (.disk d)) eps emptySingle
        (singleResult (intersectQuadDisk I.algo q d (I.ops (.quadrilateral q)) (I.ops (.disk d)) eps))
  | .geom (.disk d), .geom (.quadrilateral q) =>
      preChecked I (.geom (.quadrilateral q)) (.geom (.disk d)) eps emptySingle
        (singleResult (intersectQuadDisk I.algo q d (I.ops (.quadrilateral q)) (I.ops (.disk d)) eps))
  -- lines 278-285, 294-297
  | .geom (.polygon p), .geom (.disk d) =>
      preChecked I (.geom (.polygon p)) (.geom (.disk d)) eps emptySingle
        (singleResult (intersectPolygonDisk I.algo p d (I.ops (.polygon p)) (I.ops (.disk d)) eps))
  | .geom (.disk d), .geom (.polygon p) =>
      preChecked I (.geom (.polygon p)) (.geom (.disk d)) eps emptySingle
        (singleResult (intersectPolygonDisk I.algo p d (I.ops (.polygon p)) (I.ops (.disk d)) eps))
  -- lines 306-313, 322-325
  | .geom (.cylinderSurface c), .geom (.disk d) =>
      preChecked I (.geom (.cylinderSurface c)) (.geom (.disk d)) eps emptyList
        (listResult (intersectCylinderDisk I.algo c d (I.ops (.disk d)) (I.cylOps c (.disk d) eps) eps))
  | .geom (.disk d), .geom (.cylinderSurface c) =>
      preChecked I (.geom (.cylinderSurface c)) (.geom (.disk d)) eps emptyList
        (listResult (intersectCylinderDisk I.algo c d (I.ops (.disk d)) (I.cylOps c (.disk d) eps) eps))
  -- lines 334-341, 350-353
  | .geom (.cylinderSurface c), .geom (.quadrilateral q) =>
      preChecked I (.geom (.cylinderSurface c)) (.geom (.quadrilateral q)) eps emptyList
        (listResult (intersectCylinderQuad I.algo c q (I.ops (.quadrilateral q))
          (I.cylOps c (.quadrilateral q) eps) eps))
  | .geom (.quadrilateral q), .geom (.cylinderSurface c) =>
      preChecked I (.geom (.cylinderSurface c)) (.geom (.quadrilateral q)) eps emptyList
        (listResult (intersectCylinderQuad I.algo c q (I.ops (.quadrilateral q))
          (I.cylOps c (.quadrilateral q) eps) eps))
  -- lines 362-369, 378-381
  | .geom (.cylinderSurface c), .geom (.polygon p) =>
      preChecked I (.geom (.cylinderSurface c)) (.geom (.polygon p)) eps emptyList
        (listResult (intersectCylinderPolygon I.algo c p (I.ops (.polygon p))
          (I.cylOps c (.polygon p) eps) eps))
  | .geom (.polygon p), .geom (.cylinderSurface c) =>
      preChecked I (.geom (.cylinderSurface c)) (.geom (.polygon p)) eps emptyList
        (listResult (intersectCylinderPolygon I.algo c p (I.ops (.polygon p))
          (I.cylOps c (.polygon p) eps) eps))
  -- lines 390-397, 406-409
  | .geom (.cylinderSurface c), .shape f =>
      if f.kind = .face then intersectSurfaceFace I c f eps else notImplemented
  | .shape f, .geom (.cylinderSurface c) =>
      if f.kind = .face then intersectSurfaceFace I c f eps else notImplemented
  -- lines 419-426
  | .shape f1, .shape f2 =>
      if f1.kind = .face ∧ f2.kind = .face then intersectFaces I f1 f2 eps else notImplemented
  -- lines 435-438, 447-450
  | .geom (.disk d), .shape f =>
      if f.kind = .face then intersectPlanarFace I (.disk d) f eps else notImplemented
  | .shape f, .geom (.disk d) =>
      if f.kind = .face then intersectPlanarFace I (.disk d) f eps else notImplemented
  -- lines 459-462, 471-474
  | .geom (.quadrilateral q), .shape f =>
      if f.kind = .face then intersectPlanarFace I (.quadrilateral q) f eps else notImplemented
  | .shape f, .geom (.quadrilateral q) =>
      if f.kind = .face then intersectPlanarFace I (.quadrilateral q) f eps else notImplemented
  -- lines 483-486, 495-498
  | .geom (.polygon p), .shape f =>
      if f.kind = .face then intersectPlanarFace I (.polygon p) f eps else notImplemented
  | .shape f, .geom (.polygon p) =>
      if f.kind = .face then intersectPlanarFace I (.polygon p) f eps else notImplemented
  -- lines 81-92
  | _, _ => notImplemented

/-- `defaultEpsilon(geo)` of an argument, frackit/precision/defaultepsilon.hh:56-157; the general template
for lines and planes. -/
noncomputable def isArgEpsilon : IsArg → Outcome ℝ
  | .geom g => defaultEpsilon I.shapes (.geom g)
  | .line l => defaultEpsilon I.shapes (.line l)
  | .plane _ => .val confusion
  | .shape s => defaultEpsilon I.shapes (.shape s)

/-- `intersect(geo1, geo2)` with the default tolerance, frackit/intersection/intersect.hh:508-514. -/
noncomputable def intersectDefault (a b : IsArg) : Outcome Intersected := do
  let eps1 ← isArgEpsilon I a
  let eps2 ← isArgEpsilon I b
  intersect I a b (min eps1 eps2)

/-- The pairs of types registered in Python, frackit/python/geometry/intersect.hh:167-198. -/
def pyIntersectRegistered : IsArg → IsArg → Bool
  | .geom (.segment _), .geom (.segment _) => true
  | .geom (.quadrilateral _), .geom (.quadrilateral _) => true
  | .geom (.polygon _), .geom (.polygon _) => true
  | .geom (.disk _), .geom (.disk _) => true
  | .shape f1, .shape f2 => decide (f1.kind = .face ∧ f2.kind = .face)
  | .geom (.quadrilateral _), .geom (.disk _) => true
  | .geom (.disk _), .geom (.quadrilateral _) => true
  | .geom (.polygon _), .geom (.disk _) => true
  | .geom (.disk _), .geom (.polygon _) => true
  | .shape f, .geom (.disk _) => decide (f.kind = .face)
  | .geom (.disk _), .shape f => decide (f.kind = .face)
  | .shape f, .geom (.quadrilateral _) => decide (f.kind = .face)
  | .geom (.quadrilateral _), .shape f => decide (f.kind = .face)
  | .shape f, .geom (.polygon _) => decide (f.kind = .face)
  | .geom (.polygon _), .shape f => decide (f.kind = .face)
  | .geom (.cylinderSurface _), .geom (.disk _) => true
  | .geom (.disk _), .geom (.cylinderSurface _) => true
  | .geom (.cylinderSurface _), .geom (.quadrilateral _) => true
  | .geom (.quadrilateral _), .geom (.cylinderSurface _) => true
  | .geom (.cylinderSurface _), .geom (.polygon _) => true
  | .geom (.polygon _), .geom (.cylinderSurface _) => true
  | .geom (.cylinderSurface _), .shape f => decide (f.kind = .face)
  | .shape f, .geom (.cylinderSurface _) => decide (f.kind = .face)
  | _, _ => false

/-- `intersect(geo1, geo2[, eps])` in Python, frackit/python/geometry/intersect.hh:110-148: the registered
function unwraps shapes, calls the C++ function and wraps the shapes of the result (wrappers are not
distinguished from shapes here); other arguments are a `TypeError`. -/
noncomputable def pyIntersect (a b : IsArg) (eps : Option ℝ) : Outcome Intersected :=
  if pyIntersectRegistered a b = true then
    match eps with
    | some e => intersect I a b e
    | none => intersectDefault I a b
  else .thrown "incompatible function arguments"

end Frackit
