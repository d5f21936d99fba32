import Verif.Model.Intersection.Kernel

/-!
# Intersection of two faces of the geometry kernel

frackit/intersection/algorithms/algo_face_face_3d.hh
-/

namespace Frackit
open Verif

/-- Results of the boolean operations used by the algorithm.  Edges and faces are numbers; two edges
are the same number if `IsSame` holds.

* `commonFaces`: faces of the intersection of the two faces (lines 68-71);
* `edgesOnFace`: edges of the intersections of the wires of the cut first face with the second face,
  wire by wire (lines 74-84);
* `edgeOnCommonFace e f`: the intersection of edge and face has an edge (lines 90-92);
* `edgeVertices`, `faceVertices`: vertices of an edge, of a face (lines 113-118, 122-123);
* `wireCut1`, `wireCut2`: vertices of the wires of one face cut by the other face (lines 127-132);
* `onFace1`, `onFace2`: the point is on the face (lines 137-138). -/
structure FaceFaceOps where
  commonFaces : List ℕ
  edgesOnFace : List ℕ
  edgeOnCommonFace : ℕ → ℕ → Bool
  edgeVertices : ℕ → List V3
  faceVertices : ℕ → List V3
  wireCut1 : List V3
  wireCut2 : List V3
  onFace1 : V3 → Bool
  onFace2 : V3 → Bool

/-- Edges added to the result, frackit/intersection/algorithms/algo_face_face_3d.hh:84-104. -/
def edgeIntersections (ops : FaceFaceOps) : List ℕ :=
  ops.edgesOnFace.foldl (fun found e =>
    if ops.commonFaces.any (ops.edgeOnCommonFace e) then found
    else if found.any (· = e) then found
    else found ++ [e]) []

/-- Points of the intersections found so far,
frackit/intersection/algorithms/algo_face_face_3d.hh:121-123. -/
def curIsPoints (ops : FaceFaceOps) : List V3 :=
  ops.commonFaces.flatMap ops.faceVertices ++ (edgeIntersections ops).flatMap ops.edgeVertices

/-- Candidates for touching points, frackit/intersection/algorithms/algo_face_face_3d.hh:140-144. -/
def faceCandidates (ops : FaceFaceOps) : List V3 :=
  ops.wireCut1.filter ops.onFace2 ++ ops.wireCut2.filter ops.onFace1

open Classical in
/-- Touching points added to the result,
frackit/intersection/algorithms/algo_face_face_3d.hh:147-153. -/
noncomputable def pointIntersections (ops : FaceFaceOps) (eps : ℝ) : List V3 :=
  (faceCandidates ops).foldl (fun found p =>
    if ¬ (∃ q ∈ curIsPoints ops, pointIsEqual q p eps) ∧ ¬ (∃ q ∈ found, pointIsEqual q p eps) then
      found ++ [p]
    else found) []

/-- `intersect_face_face_3d`, frackit/intersection/algorithms/algo_face_face_3d.hh:54-163.
`intersect_cylinderSurface_face` calls it with the face of the cylinder surface
(frackit/intersection/algorithms/algo_cylsurface_face.hh).  The first and last vertex kept with an
edge are irrelevant here. -/
noncomputable def intersectFaceFace (ops : FaceFaceOps) (ends : ℕ → V3 × V3) (eps : ℝ) :
    List IsGeom :=
  let result := (pointIntersections ops eps).map IsGeom.point
    ++ (edgeIntersections ops).map (fun e => IsGeom.edge e (ends e).1 (ends e).2)
    ++ ops.commonFaces.map IsGeom.face
  if result.isEmpty then [.empty] else result

end Frackit
