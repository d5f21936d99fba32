import Verif.Model.Intersection.Result
import Verif.Model.Geometry.Cylinder

/-!
# Functions of the geometry kernel used by the intersection algorithms

The results of OpenCASCADE algorithms are parameters of the model (`Kernel`); elementary functions on
vectors are modelled by their documented meaning.
-/

namespace Frackit
open Verif

/-- `gp_Vec::Angle` and `gp_Dir::Angle` of OpenCASCADE: the angle in `[0, π]` between two vectors
(only called for directions, i.e. vectors of length one).  OpenCASCADE evaluates it from the scalar
product or the length of the cross product, whichever is more accurate in floating point; over the
reals both give the same number. -/
noncomputable def gpAngle (a b : V3) : ℝ := Real.arccos (a.dot b / (a.len * b.len))

/-- `gp_Vec::IsParallel(other, tol)` of OpenCASCADE. -/
def gpIsParallel (a b : V3) (tol : ℝ) : Prop := gpAngle a b ≤ tol ∨ Real.pi - gpAngle a b ≤ tol

/-- `gp_Vec::IsNormal(other, tol)` and `gp_Dir::IsNormal(other, tol)` of OpenCASCADE. -/
def gpIsNormal (a b : V3) (tol : ℝ) : Prop := |Real.pi / 2 - gpAngle a b| ≤ tol

/-- Algorithms of OpenCASCADE which are not modelled.

* `planePlane`: `GeomAPI_IntSS` of two planes (`none`: `IsDone()` is false), point and derivative of
  the line for the parameter zero,
  frackit/intersection/algorithms/algo_plane_plane.hh:73-87;
* `planeLine`: `GeomAPI_IntCS` of a plane and a line (`none`: `IsDone()` is false),
  frackit/intersection/algorithms/algo_plane_line.hh:69-79;
* `fragmentEdges`: edges of the fragmentation of two segments, each with its vertices,
  frackit/intersection/algorithms/algo_segment_segment.hh:94-100. -/
structure Kernel where
  planePlane : Plane → Plane → ℝ → Option (V3 × V3)
  planeLine : Plane → Line → Option V3
  fragmentEdges : Segment → Segment → ℝ → List (List V3)

/-- `Intersection<Plane, Plane>`, frackit/intersection/intersectiontraits.hh:77-84. -/
inductive PlanePlaneIs where
  | line (l : Line)
  | plane (p : Plane)
  | empty

/-- `Intersection<Plane, Line>`, frackit/intersection/intersectiontraits.hh:87-93. -/
inductive PlaneLineIs where
  | point (p : V3)
  | line (l : Line)
  | empty

open Classical in
/-- `intersect_plane_plane`, frackit/intersection/algorithms/algo_plane_plane.hh:49-93.
`OCCUtilities::direction(dir)` normalises the derivative (conversion from `gp_Vec` to `gp_Dir`, then frackit/occ/gputilities.hh:80-87). -/
noncomputable def intersectPlanePlane (K : Kernel) (plane1 plane2 : Plane) (eps : ℝ) :
    Outcome PlanePlaneIs :=
  if gpIsParallel plane1.normal plane2.normal angular then
    if plane1.contains plane2.supp eps then .val (.plane plane1) else .val .empty
  else
    match K.planePlane plane1 plane2 eps with
    | none => .thrown "Could not perform plane-plane intersection"
    | some (sp, dir) => do
        let d ← mkDirection dir
        pure (.line ⟨sp, d⟩)

open Classical in
/-- `intersect_plane_line`, frackit/intersection/algorithms/algo_plane_line.hh:52-94. -/
noncomputable def intersectPlaneLine (K : Kernel) (plane : Plane) (line : Line) (eps : ℝ) :
    Outcome PlaneLineIs :=
  if ¬ gpIsNormal line.dir plane.normal angular then
    match K.planeLine plane line with
    | none => .thrown "Could not perform disk-line intersection"
    | some p => if plane.contains p eps then .val (.point p) else .val .empty
  else
    let d := plane.projection line.supp - line.supp
    if d.len > eps then .val .empty else .val (.line line)

end Frackit
