import Verif.Spec.TriangleArea

/-!
# Triangles of a fan
-/

namespace Spec
open Verif

/-- The triangles between the first corner and the edges that do not touch it. -/
def fan : List V3 → List (V3 × V3 × V3)
  | [] => []
  | p :: rest => (rest.zip rest.tail).map fun e => (p, e.1, e.2)

/-- The sum of a quantity over triangles. -/
def total (f : V3 → V3 → V3 → ℝ) (l : List (V3 × V3 × V3)) : ℝ := (l.map fun t => f t.1 t.2.1 t.2.2).sum

/-- The product of the sides of a triangle at its first corner. -/
noncomputable def sides (p q r : V3) : ℝ := dist p q * dist p r

/-- The triangles between a point and the edges of a polygon. -/
def around (cs : List V3) (p : V3) : List (V3 × V3 × V3) := (cs.zip (cs.rotate 1)).map fun e => (e.1, e.2, p)

end Spec
