import Verif.Spec.Euclid

/-!
# Planar figures in 3d space

A planar figure is given by a unit normal `n` and its corners in cyclic order.
-/

namespace Spec
open Verif

/-- Twice the signed area of the triangle `a b c` in a plane with unit normal `n`: positive if
the triangle is passed counter-clockwise when looking against `n`. -/
def turn (n a b c : V3) : ℝ :=
  det n ⟨b.x - a.x, b.y - a.y, b.z - a.z⟩ ⟨c.x - a.x, c.y - a.y, c.z - a.z⟩

/-- `p` is a convex combination of the three points. -/
def InTriangle (a b c p : V3) : Prop :=
  ∃ r s t : ℝ, 0 ≤ r ∧ 0 ≤ s ∧ 0 ≤ t ∧ r + s + t = 1 ∧
    p.x = r * a.x + s * b.x + t * c.x ∧
    p.y = r * a.y + s * b.y + t * c.y ∧
    p.z = r * a.z + s * b.z + t * c.z

/-- The edges of a closed polygon: pairs of consecutive corners, and last to first. -/
def polyEdges (cs : List V3) : List (V3 × V3) := cs.zip (cs.tail ++ cs.take 1)

/-- All corners lie in the plane through `q` with normal `n`. -/
def PlanarPolygon (n q : V3) (cs : List V3) : Prop := ∀ c ∈ cs, OnPlane q n c

/-- Convex polygon passed counter-clockwise: every corner is on the left of (or on) every edge. -/
def ConvexPolygon (n : V3) (cs : List V3) : Prop :=
  ∀ e ∈ polyEdges cs, ∀ c ∈ cs, 0 ≤ turn n e.1 e.2 c

/-- A point of a (convex, counter-clockwise) polygon: on the left of (or on) every edge, in the
plane of the polygon. -/
def InPolygon (n q : V3) (cs : List V3) (p : V3) : Prop :=
  OnPlane q n p ∧ ∀ e ∈ polyEdges cs, 0 ≤ turn n e.1 e.2 p

/-- Shoelace formula: twice the signed area enclosed by a closed polygon. -/
def shoelace (n : V3) (cs : List V3) : ℝ :=
  ((polyEdges cs).map fun e => det n e.1 e.2).sum

/-- `p` is a convex combination of the corners. -/
def InHull (cs : List V3) (p : V3) : Prop :=
  ∃ w : List ℝ, w.length = cs.length ∧ (∀ r ∈ w, 0 ≤ r) ∧ w.sum = 1 ∧
    p.x = (List.zipWith (fun r c => r * c.x) w cs).sum ∧
    p.y = (List.zipWith (fun r c => r * c.y) w cs).sum ∧
    p.z = (List.zipWith (fun r c => r * c.z) w cs).sum

/-- The signed turn of the boundary at corner `i` (from the previous to the next corner). -/
def cornerTurn (n : V3) (cs : List V3) (i : ℕ) : ℝ :=
  turn n (cs.getD ((i + cs.length - 1) % cs.length) 0) (cs.getD i 0)
    (cs.getD ((i + 1) % cs.length) 0)

/-- The boundary turns the same way at each of its corners. -/
def TurnsSameWay (n : V3) (cs : List V3) : Prop :=
  (∀ i < cs.length, 0 ≤ cornerTurn n cs i) ∨ (∀ i < cs.length, cornerTurn n cs i ≤ 0)

end Spec
