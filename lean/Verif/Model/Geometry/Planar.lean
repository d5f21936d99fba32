import Verif.Model.Geometry.Basic
import Mathlib.Algebra.BigOperators.Group.Finset.Basic

/-!
# Triangles, quadrilaterals and polygons

frackit/geometry/{triangle,triangulation,quadrilateral,polygon}.hh

A supporting plane or a centre that the C++ code computes as `NaN` (degenerate corners) is kept as
the outcome `nan` within the object, as the C++ object is constructed nevertheless.
-/

namespace Frackit
open Verif

/-! ## Triangle -/

/-- `Triangle<CT,3>`, frackit/geometry/triangle.hh:177-180. -/
structure Triangle where
  c0 : V3
  c1 : V3
  c2 : V3
  center : V3
  normal : Outcome V3
  area : ℝ

/-- `Triangle(p1, p2, p3)`, frackit/geometry/triangle.hh:85-100. -/
noncomputable def Triangle.make (p1 p2 p3 : V3) : Triangle where
  c0 := p1
  c1 := p2
  c2 := p3
  center := ⟨1 / 3 * (p1.x + p2.x + p3.x), 1 / 3 * (p1.y + p2.y + p3.y),
    1 / 3 * (p1.z + p2.z + p3.z)⟩
  normal := mkDirection ((p2 - p1).cross (p3 - p1))
  area := 0.5 * ((p2 - p1).cross (p3 - p1)).len

/-- `Triangle::corner(i)`, frackit/geometry/triangle.hh:116-120.  The assert is compiled out; access
beyond the three-element array is undefined behaviour. -/
def Triangle.corner (t : Triangle) (i : ℕ) : Outcome V3 :=
  match i with
  | 0 => .val t.c0
  | 1 => .val t.c1
  | 2 => .val t.c2
  | _ => .ub

/-- `Triangle::edge(i)`, frackit/geometry/triangle.hh:125-135. -/
def Triangle.edge (t : Triangle) (i : ℕ) : Outcome Segment :=
  match i with
  | 0 => .val ⟨t.c0, t.c1⟩
  | 1 => .val ⟨t.c1, t.c2⟩
  | 2 => .val ⟨t.c2, t.c0⟩
  | _ => .thrown "Invalid edge index"

/-- `Triangle::supportingPlane`, frackit/geometry/triangle.hh:111. -/
noncomputable def Triangle.supportingPlane (t : Triangle) : Outcome Plane := do
  let n ← t.normal
  Plane.ofNormal t.c0 n

/-- A query `plane.contains(p, eps)` on a possibly invalid plane: comparisons with `NaN` are false. -/
def planeContains (pl : Outcome Plane) (p : V3) (eps : ℝ) : Prop :=
  match pl with
  | .val pl => pl.contains p eps
  | _ => False

/-- `Triangle::contains(p, eps, checkIfOnPlane)`, frackit/geometry/triangle.hh:145-159. -/
def Triangle.contains (t : Triangle) (p : V3) (eps : ℝ) (checkIfOnPlane : Bool := true) : Prop :=
  (checkIfOnPlane = true → planeContains t.supportingPlane p eps) ∧
  |t.area - ((Triangle.make t.c0 t.c1 p).area + (Triangle.make t.c1 t.c2 p).area
    + (Triangle.make t.c2 t.c0 p).area)| < eps * eps

/-- `Triangle::contains(p, checkIfOnPlane)` with default tolerance,
frackit/geometry/triangle.hh:169-174: computes the tolerance from `corner(0)` and `corner(3)`, and
calls the other overload without passing `checkIfOnPlane`. -/
noncomputable def Triangle.containsDefault (t : Triangle) (p : V3) (_checkIfOnPlane : Bool := true) :
    Outcome Prop := do
  let c0 ← t.corner 0
  let c3 ← t.corner 3
  let eps := confusion * (c3 - c0).len
  pure (t.contains p eps)

/-! ## Triangulation -/

/-- `triangulate(corners)`, frackit/geometry/triangulation.hh:43-60.  Indices are in bounds as the
only caller checks that there are at least three corners. -/
noncomputable def triangulate (cs : List V3) : List Triangle :=
  Triangle.make (cs.getD 0 0) (cs.getD 1 0) (cs.getD 2 0) ::
    (List.range' 2 (cs.length - 1 - 2)).map fun i =>
      Triangle.make (cs.getD 0 0) (cs.getD i 0) (cs.getD (i + 1) 0)

/-! ## Quadrilateral -/

/-- `Quadrilateral<CT,3>`, frackit/geometry/quadrilateral.hh:223-227. -/
structure Quadrilateral where
  p0 : V3
  p1 : V3
  p2 : V3
  p3 : V3
  plane : Outcome Plane
  center : Outcome V3
  area : ℝ
  isConvex : Prop

/-- `Quadrilateral::determineConvexity_`, frackit/geometry/quadrilateral.hh:201-221. -/
def quadConvexity (p0 p1 p2 p3 : V3) : Prop :=
  let v1 := p1 - p0
  let v2 := p3 - p1
  let v4 := p0 - p2
  let n1 := v4.cross v1
  let v3 := p2 - p3
  ¬ (n1.dot (v1.cross v2) < 0) ∧ ¬ (n1.dot (v2.cross v3) < 0) ∧ ¬ (n1.dot (v3.cross v4) < 0)

/-- `Quadrilateral(p0, p1, p2, p3)`, frackit/geometry/quadrilateral.hh:94-117. -/
noncomputable def Quadrilateral.make (p0 p1 p2 p3 : V3) : Quadrilateral :=
  let t1 := Triangle.make p0 p1 p3
  let t2 := Triangle.make p0 p3 p2
  let area := t1.area + t2.area
  { p0 := p0, p1 := p1, p2 := p2, p3 := p3
    plane := Plane.ofPoints p0 p1 p2
    center := if area = 0 then .nan else
      .val ((t1.area • t1.center + t2.area • t2.center).sdiv area)
    area := area
    isConvex := quadConvexity p0 p1 p2 p3 }

/-- `Quadrilateral::corner(i)`, frackit/geometry/quadrilateral.hh:124-128. -/
def Quadrilateral.corner (q : Quadrilateral) (i : ℕ) : Outcome V3 :=
  match i with
  | 0 => .val q.p0
  | 1 => .val q.p1
  | 2 => .val q.p2
  | 3 => .val q.p3
  | _ => .ub

/-- `Quadrilateral::edge(i)`, frackit/geometry/quadrilateral.hh:133-144. -/
def Quadrilateral.edge (q : Quadrilateral) (i : ℕ) : Outcome Segment :=
  match i with
  | 0 => .val ⟨q.p0, q.p1⟩
  | 1 => .val ⟨q.p1, q.p3⟩
  | 2 => .val ⟨q.p0, q.p2⟩
  | 3 => .val ⟨q.p2, q.p3⟩
  | _ => .thrown "Invalid edge index"

/-- `Quadrilateral::contains(p, eps, checkIfOnPlane)`, frackit/geometry/quadrilateral.hh:161-177. -/
def Quadrilateral.contains (q : Quadrilateral) (p : V3) (eps : ℝ) (checkIfOnPlane : Bool := true) :
    Prop :=
  (checkIfOnPlane = true → planeContains q.plane p eps) ∧
  |q.area - ((Triangle.make q.p0 q.p1 p).area + (Triangle.make q.p1 q.p3 p).area
    + (Triangle.make q.p3 q.p2 p).area + (Triangle.make q.p2 q.p0 p).area)| < eps * eps

/-- `Quadrilateral::contains(p, checkIfOnPlane)`, frackit/geometry/quadrilateral.hh:187-192. -/
def Quadrilateral.containsDefault (q : Quadrilateral) (p : V3) (checkIfOnPlane : Bool := true) :
    Prop :=
  q.contains p (confusion * (q.p3 - q.p0).len) checkIfOnPlane

/-! ## Polygon -/

/-- `Polygon<CT,3>`, frackit/geometry/polygon.hh:246-250. -/
structure Polygon where
  corners : List V3
  plane : Outcome Plane
  center : Outcome V3
  area_ : ℝ
  isConvex : Prop

/-- End points of `Polygon::edge(i)`, frackit/geometry/polygon.hh:144-148 (valid for `i` below the
number of corners). -/
def polygonEdge (cs : List V3) (i : ℕ) : Segment :=
  ⟨cs.getD i 0, cs.getD ((i + 1) % cs.length) 0⟩

/-- `Vector(edge(i).direction())`. -/
noncomputable def polygonEdgeDir (cs : List V3) (i : ℕ) : V3 :=
  let e := polygonEdge cs i
  (e.target - e.source).sdiv (e.target - e.source).len

/-- `Polygon::determineConvexity_`, frackit/geometry/polygon.hh:226-244: the test vector is the
normal over corner 0 and the loop runs over `1 ≤ i < numEdges - 1`, i.e. over the corners `i + 1`.
Simplification: if an edge has zero length the directions are `NaN`; this is the outcome `nan`. -/
noncomputable def polygonConvexity (cs : List V3) : Outcome Prop :=
  let n := cs.length
  open Classical in
  if ∃ i < n, (polygonEdge cs i).source = (polygonEdge cs i).target then .nan
  else
    let testVector := (polygonEdgeDir cs (n - 1)).cross (polygonEdgeDir cs 0)
    .val (∀ i, 1 ≤ i → i < n - 1 →
      ¬ ((polygonEdgeDir cs i).cross (polygonEdgeDir cs (i + 1))).dot testVector < 0)

/-- `Polygon(corners)`, frackit/geometry/polygon.hh:94-128 (asserts compiled out). -/
noncomputable def Polygon.make (cs : List V3) : Outcome Polygon :=
  if cs.length < 3 then .thrown "At least 3 corners are required!"
  else do
    let conv ← polygonConvexity cs
    let ts := triangulate cs
    let area := (ts.map (·.area)).sum
    let sum := (ts.map fun t => t.area • t.center).sum
    pure {
      corners := cs
      plane := Plane.ofPoints (cs.getD 0 0) (cs.getD 1 0) (cs.getD 2 0)
      center := if area = 0 then .nan else .val (sum.sdiv area)
      area_ := area
      isConvex := conv }

open Classical in
/-- `Polygon::area`, frackit/geometry/polygon.hh:157-162. -/
noncomputable def Polygon.area (pg : Polygon) : Outcome ℝ :=
  if pg.isConvex then .val pg.area_
  else .thrown "area() for non-convex polygons not implemented"

/-- Sum of the areas of the sub-triangles, frackit/geometry/polygon.hh:207-210. -/
noncomputable def subTriangleAreas (cs : List V3) (p : V3) : ℝ :=
  (∑ i ∈ Finset.range (cs.length - 1),
    (Triangle.make (cs.getD i 0) (cs.getD (i + 1) 0) p).area)
  + (Triangle.make (cs.getD (cs.length - 1) 0) (cs.getD 0 0) p).area

/-- `Polygon::convexContains`, frackit/geometry/polygon.hh:200-215. -/
def Polygon.convexContains (pg : Polygon) (p : V3) (eps : ℝ) (checkIfOnPlane : Bool) : Prop :=
  (checkIfOnPlane = true → planeContains pg.plane p eps) ∧
  |pg.area_ - subTriangleAreas pg.corners p| < eps * eps

open Classical in
/-- `Polygon::contains(p, eps, checkIfOnPlane)`, frackit/geometry/polygon.hh:172-178. -/
noncomputable def Polygon.contains (pg : Polygon) (p : V3) (eps : ℝ) (checkIfOnPlane : Bool := true) :
    Outcome Prop :=
  if pg.isConvex then .val (pg.convexContains p eps checkIfOnPlane)
  else .thrown "contains() query for non-convex polygons"

open Classical in
/-- `Polygon::contains(p, checkIfOnPlane)` with the default tolerance, frackit/geometry/polygon.hh:188-193.
If the centre is `NaN` so is the tolerance, and the comparisons are false. -/
noncomputable def Polygon.containsDefault (pg : Polygon) (p : V3) (checkIfOnPlane : Bool := true) :
    Outcome Prop :=
  match pg.center with
  | .val c => pg.contains p (confusion * (c - pg.corners.getD 0 0).len) checkIfOnPlane
  | _ => if pg.isConvex then .val False else .thrown "contains() query for non-convex polygons"

end Frackit
