import Verif.Model.Geometry.Planar

/-!
# Boxes and the bounding box pre-check

frackit/geometry/box.hh, frackit/intersection/bboxintersection.hh
-/

namespace Frackit
open Verif

/-- `Box<CT>`, frackit/geometry/box.hh:209-211. -/
structure Box where
  xMin : ℝ
  xMax : ℝ
  yMin : ℝ
  yMax : ℝ
  zMin : ℝ
  zMax : ℝ

/-- `Box(xmin, ymin, zmin, xmax, ymax, zmax)`, frackit/geometry/box.hh:66-75. -/
noncomputable def Box.make (xmin ymin zmin xmax ymax zmax : ℝ) : Outcome Box :=
  if xmax < xmin then .thrown "Could not construct box: xMax < xMin!"
  else if ymax < ymin then .thrown "Could not construct box: ymax < ymin!"
  else if zmax < zmin then .thrown "Could not construct box: zmax < zMin!"
  else .val ⟨xmin, xmax, ymin, ymax, zmin, zmax⟩

/-- `Box(pMin, pMax)`, frackit/geometry/box.hh:80-83. -/
noncomputable def Box.ofCorners (pMin pMax : V3) : Outcome Box :=
  Box.make pMin.x pMin.y pMin.z pMax.x pMax.y pMax.z

/-- `Box::volume`, frackit/geometry/box.hh:101-106. -/
def Box.volume (b : Box) : ℝ := (b.xMax - b.xMin) * (b.yMax - b.yMin) * (b.zMax - b.zMin)

/-- `Box::center`, frackit/geometry/box.hh:113-118. -/
noncomputable def Box.center (b : Box) : V3 :=
  ⟨b.xMin + 0.5 * (b.xMax - b.xMin), b.yMin + 0.5 * (b.yMax - b.yMin),
   b.zMin + 0.5 * (b.zMax - b.zMin)⟩

/-- `Box::corner(cornerIdx)`, frackit/geometry/box.hh:121-136 (assert compiled out). -/
def Box.corner (b : Box) (i : ℕ) : Outcome V3 :=
  match i with
  | 0 => .val ⟨b.xMin, b.yMin, b.zMin⟩
  | 1 => .val ⟨b.xMax, b.yMin, b.zMin⟩
  | 2 => .val ⟨b.xMin, b.yMax, b.zMin⟩
  | 3 => .val ⟨b.xMax, b.yMax, b.zMin⟩
  | 4 => .val ⟨b.xMin, b.yMin, b.zMax⟩
  | 5 => .val ⟨b.xMax, b.yMin, b.zMax⟩
  | 6 => .val ⟨b.xMin, b.yMax, b.zMax⟩
  | 7 => .val ⟨b.xMax, b.yMax, b.zMax⟩
  | _ => .thrown "Box: Invalid corner index!"

/-- `Segment(corner(i), corner(j))`. -/
def Box.mkEdge (b : Box) (i j : ℕ) : Outcome Segment := do
  let p ← b.corner i
  let q ← b.corner j
  pure ⟨p, q⟩

/-- `Box::edge(edgeIdx)`, frackit/geometry/box.hh:143-162 (assert compiled out). -/
def Box.edge (b : Box) (i : ℕ) : Outcome Segment :=
  match i with
  | 0 => b.mkEdge 0 1
  | 1 => b.mkEdge 0 2
  | 2 => b.mkEdge 1 3
  | 3 => b.mkEdge 2 3
  | 4 => b.mkEdge 0 4
  | 5 => b.mkEdge 1 5
  | 6 => b.mkEdge 2 6
  | 7 => b.mkEdge 3 7
  | 8 => b.mkEdge 4 5
  | 9 => b.mkEdge 4 6
  | 10 => b.mkEdge 5 7
  | 11 => b.mkEdge 6 7
  | _ => .thrown "Box: Invalid edge index!"

/-- `Quadrilateral(corner(i), corner(j), corner(k), corner(l))`. -/
noncomputable def Box.mkFace (b : Box) (i j k l : ℕ) : Outcome Quadrilateral := do
  let p ← b.corner i
  let q ← b.corner j
  let r ← b.corner k
  let s ← b.corner l
  pure (Quadrilateral.make p q r s)

/-- `Box::face(faceIdx)`, frackit/geometry/box.hh:169-182 (assert compiled out). -/
noncomputable def Box.face (b : Box) (i : ℕ) : Outcome Quadrilateral :=
  match i with
  | 0 => b.mkFace 0 1 2 3
  | 1 => b.mkFace 0 1 4 5
  | 2 => b.mkFace 0 2 4 6
  | 3 => b.mkFace 1 3 5 7
  | 4 => b.mkFace 2 3 6 7
  | 5 => b.mkFace 4 5 6 7
  | _ => .thrown "Box: Invalid face index!"

/-- `Box::contains(p, eps)`, frackit/geometry/box.hh:189-194. -/
def Box.contains (b : Box) (p : V3) (eps : ℝ) : Prop :=
  p.x > b.xMin - eps ∧ p.x < b.xMax + eps ∧ p.y > b.yMin - eps ∧ p.y < b.yMax + eps ∧
  p.z > b.zMin - eps ∧ p.z < b.zMax + eps

/-- Default tolerance of a box: `defaultEpsilon(box)`, frackit/precision/defaultepsilon.hh:133-137,
also used by `Box::contains(p)`, frackit/geometry/box.hh:201-206. -/
noncomputable def Box.defaultEps (b : Box) : ℝ :=
  confusion * ((⟨b.xMax, b.yMax, b.zMax⟩ : V3) - ⟨b.xMin, b.yMin, b.zMin⟩).len

/-- `Box::contains(p)`, frackit/geometry/box.hh:201-206. -/
def Box.containsDefault (b : Box) (p : V3) : Prop := b.contains p b.defaultEps

open Classical in
/-- `doIntersect(bbox1, bbox2, eps)`, frackit/intersection/bboxintersection.hh:43-59. -/
def doIntersect (b1 b2 : Box) (eps : ℝ) : Prop :=
  if ¬ intervalsOverlap ⟨b1.xMin, b1.xMax⟩ ⟨b2.xMin, b2.xMax⟩ eps then False
  else if ¬ intervalsOverlap ⟨b1.yMin, b1.yMax⟩ ⟨b2.yMin, b2.yMax⟩ eps then False
  else intervalsOverlap ⟨b1.zMin, b1.zMax⟩ ⟨b2.zMin, b2.zMax⟩ eps

/-- `doIntersect(bbox1, bbox2)`, frackit/intersection/bboxintersection.hh:69-71. -/
def doIntersectDefault (b1 b2 : Box) : Prop :=
  doIntersect b1 b2 (0.5 * (b1.defaultEps + b2.defaultEps))

end Frackit
