import Verif.Model.Appl.Example4
import Verif.Model.EntityNetwork.LibraryEngine
import Verif.Model.Occ.Boolean


/-!
# Domain and geometric computations of example 4

appl/example4/example4.cc: the domain is the part of a layer inside of a sphere, cut by a tunnel; the computations left
open in `TunnelModel` are those of the library.
-/

namespace Frackit
open Verif
namespace Appl

/-- Algorithms of OpenCASCADE used by the example: those of the library (`lib`), boolean operations (`bool`), the subshapes of
a shape found by `TopExp_Explorer` (frackit/occ/breputilities.hh:366-441; vertices are given
by their points), the shapes of edges and faces in the result of an intersection, and the area of a face
(`BRepGProp::SurfaceProperties`). -/
structure TunnelKernel where
  lib : LibraryKernel
  bool : BoolKernel
  solids : Shape → List Shape
  faces : Shape → List Shape
  vertices : Shape → List V3
  edgeShape : ℕ → Shape
  faceShape : ℕ → Shape
  area : Shape → ℝ

/-- `layer`, appl/example4/example4.cc:81, appl/example4/example4.py:23. -/
noncomputable def layer4 : Outcome Box := Box.make (-50) (-50) (-20) 50 50 20

/-- `domainSphere`, appl/example4/example4.cc:82, appl/example4/example4.py:24. -/
def sphere4 : Sphere := ⟨⟨0, 0, 0⟩, 25⟩

/-- `tunnel`, appl/example4/example4.cc:85-88, appl/example4/example4.py:27-30. -/
noncomputable def tunnel4 : Outcome Cylinder := do
  let direction ← mkDirection ⟨1, 0, 0⟩
  let base ← Circle.make ⟨-25, 0, 0⟩ direction 5
  Cylinder.ofCircle base 50

/-- The checks of the number of subshapes, appl/example4/example4.cc:95, 99, 106. -/
def onlyOne (msg : String) : List Shape → Outcome Shape
  | [s] => .val s
  | _ => .thrown msg

variable (T : TunnelKernel)

/-- `domain`, appl/example4/example4.cc:91-102, appl/example4/example4.py:35-41. -/
noncomputable def domain4 : Outcome Shape := do
  let layer ← layer4
  let tunnel ← tunnel4
  let layerShape ← getShape T.lib.isk.shapes (.geom (.box layer))
  let sphereShape ← getShape T.lib.isk.shapes (.geom (.sphere sphere4))
  let layerSphereCut ← occIntersect T.bool layerShape sphereShape 1e-6
  let solid ← onlyOne "Intersection operation with domainSphere should yield a single solid" (T.solids layerSphereCut)
  let tunnelShape ← getShape T.lib.isk.shapes (.geom (.cylinder tunnel))
  let tunnelCut ← occCut T.bool solid tunnelShape 1e-6
  onlyOne "Cut operation with tunnel should yield a single solid" (T.solids tunnelCut)

/-- `sphereSurfaceShape`, appl/example4/example4.cc:105-107, appl/example4/example4.py:43-45. -/
noncomputable def sphereSurface4 : Outcome Shape := do
  let s ← getShape T.lib.isk.shapes (.geom (.sphere sphere4))
  onlyOne "We expect the sphere to consist of a single face" (T.faces s)

/-- A part of an intersection as argument of `computeDistance`; `getShape` of an empty intersection throws,
frackit/occ/breputilities.hh:147-149. -/
def partArg : IsGeom → Outcome DistArg
  | .point p => .val (.geom (.point p))
  | .segment s => .val (.geom (.segment s))
  | .arc a => .val (.geom (.arc a (T.lib.arcLength a)))
  | .ellipse e => .val (.geom (.ellipse e))
  | .polygon p => .val (.geom (.polygon p))
  | .edge k _ _ => .val (.shape (T.edgeShape k))
  | .face k => .val (.shape (T.faceShape k))
  | .empty => .thrown "getShape() not implemented"

/-- `computeDistance(v, part)` of a vertex and a part of an intersection, frackit/distance/distance.hh:118-130, 220-226. -/
noncomputable def vertexDistance (v : V3) (part : IsGeom) : Outcome ℝ := do
  let a ← partArg T part
  computeDistance T.lib.isk.shapes (.shape ⟨.vertex, {v}, ∅⟩) a

/-- The computations of the example with the functions of the library, given the domain, the surfaces of tunnel and sphere
and `tunnel.lateralFace()`: appl/example4/example4.cc:110, 187-195, 229, 240-241, 250-251, 299.  (`getShape` of a polygon has
succeeded in `intersect` when its vertices are asked for; no vertices otherwise.) -/
noncomputable def tunnelModel (domain tunnelSurface sphereSurface : Shape) (lateral : CylinderSurface) :
    TunnelModel Polygon DistArg where
  tunnel := .shape tunnelSurface
  sphere := .shape sphereSurface
  isTunnel c := do
    let r ← intersectDefault T.lib.isk (.geom (.cylinderSurface lateral)) (.geom (.polygon c))
    r.toResult
  isEntity c e := do
    let r ← intersectDefault T.lib.isk (.geom (.polygon c)) e.toIs
    r.toResult
  vertices c := match getShape T.lib.isk.shapes (.geom (.polygon c)) with
    | .val s => T.vertices s
    | _ => []
  verticesOf e := match e with
    | .shape s => T.vertices s
    | _ => []
  distance v is := match is with
    | .single g => vertexDistance T v g
    | .list gs => distVector (vertexDistance T v) gs
  contained c := do
    let s ← getShape T.lib.isk.shapes (.geom (.polygon c))
    let r ← occIntersect T.bool s domain 1e-6
    pure ((T.faces r).map .shape)
  faceArea e := match e with
    | .shape s => .val (T.area s)
    | _ => .ub
  area c := c.area

/-- The example with the functions of the library, appl/example4/example4.cc:81-412, with target count `n` for the first set
and at most `max` tries for the others. -/
noncomputable def tunnelNetwork (order : SamplingStatus → List (ℕ × ℕ)) (ops2 ops3 : List Constraints.Op)
    (draw1 : ℕ → Outcome Polygon) (draw2 draw3 : ℕ → DistArg → ℕ → Outcome Polygon) (n max fuel : ℕ) :
    Outcome (Option (Network4 DistArg)) := do
  let domain ← domain4 T
  let sphereSurface ← sphereSurface4 T
  let tunnel ← tunnel4
  let lateral ← tunnel.lateralFace
  let tunnelSurface ← getShape T.lib.isk.shapes (.geom (.cylinderSurface lateral))
  network4 (libraryEngine T.lib) (tunnelModel T domain tunnelSurface sphereSurface lateral) order ops2 ops3
    draw1 draw2 draw3 n max fuel

end Appl
end Frackit
