import Verif.Model.Python.Constructors
import Verif.Props.PyFactories

/-!
# The documented ways to construct geometries in Python

The enumeration gives the names of the parameters, the values that are passed, and the C++ constructor that is meant.
-/

namespace Spec
open Verif Frackit

/-- A way to construct a geometry, with the values of its parameters. -/
inductive Form where
  | segment (source target : V3)
  | line (supp dir : V3)
  | ellipticalDefault
  | elliptical (center major minor : V3) (majLen minLen : ℝ)
  | ellipse (center major minor : V3) (majLen minLen : ℝ)
  | arc (e : Elliptical) (source target : V3)
  | arcOfArc (a : EllipseArc) (source target : V3)
  | circle (center normal : V3) (radius : ℝ)
  | planeDefault
  | planeNormal (p normal : V3)
  | planePoints (p1 p2 p3 : V3)
  | planeBasis (p base1 base2 normal : V3)
  | triangle (p1 p2 p3 : V3)
  | quadrilateral (p1 p2 p3 p4 : V3)
  | polygon (corners : List V3)
  | diskOfEllipse (e : Elliptical)
  | diskOfArc (a : EllipseArc)
  | surface (radius height : ℝ)
  | surfaceOfCircle (k : Elliptical) (height : ℝ)
  | cylinder (radius height zOffset : ℝ)
  | cylinderAtOrigin (radius height : ℝ)
  | cylinderOfCircle (k : Elliptical) (height : ℝ)
  | cylinderOfDisk (d : Elliptical) (height : ℝ)
  | hollow (inner outer height : ℝ)
  | hollowWithAxis (center axis : V3) (inner outer height : ℝ)
  | boxLimits (xmin ymin zmin xmax ymax zmax : ℝ)
  | boxCorners (lo hi : V3)
  | sphere (center : V3) (radius : ℝ)

namespace Form

/-- The class. -/
def cls : Form → PyClass
  | segment .. => .segment 3
  | line .. => .line 3
  | ellipticalDefault => .elliptical
  | elliptical .. => .elliptical
  | ellipse .. => .ellipse
  | arc .. => .ellipseArc
  | arcOfArc .. => .ellipseArc
  | circle .. => .circle
  | planeDefault => .plane
  | planeNormal .. => .plane
  | planePoints .. => .plane
  | planeBasis .. => .plane
  | triangle .. => .triangle
  | quadrilateral .. => .quadrilateral
  | polygon .. => .polygon
  | diskOfEllipse .. => .disk
  | diskOfArc .. => .disk
  | surface .. => .cylinderSurface
  | surfaceOfCircle .. => .cylinderSurface
  | cylinder .. => .cylinder
  | cylinderAtOrigin .. => .cylinder
  | cylinderOfCircle .. => .cylinder
  | cylinderOfDisk .. => .cylinder
  | hollow .. => .hollowCylinder
  | hollowWithAxis .. => .hollowCylinder
  | boxLimits .. => .box
  | boxCorners .. => .box
  | sphere .. => .sphere

/-- The parameters with their values. -/
def params : Form → List (String × PyThing)
  | segment p q => [("source", .point p), ("target", .point q)]
  | line p d => [("supportPoint", .point p), ("direction", .direction d)]
  | ellipticalDefault => []
  | elliptical c u v a b => [("center", .point c), ("majorAxis", .direction u), ("minorAxis", .direction v),
      ("majorAxisLength", .num a), ("minorAxisLength", .num b)]
  | ellipse c u v a b => [("center", .point c), ("majorAxis", .direction u), ("minorAxis", .direction v),
      ("majorAxisLength", .num a), ("minorAxisLength", .num b)]
  | arc e p q => [("supportingEllipse", .ellipse e), ("source", .point p), ("target", .point q)]
  | arcOfArc a p q => [("supportingEllipse", .arc a), ("source", .point p), ("target", .point q)]
  | circle c n r => [("center", .point c), ("normal", .direction n), ("radius", .num r)]
  | planeDefault => []
  | planeNormal p n => [("supportPoint", .point p), ("normal", .direction n)]
  | planePoints p q r => [("p1", .point p), ("p2", .point q), ("p3", .point r)]
  | planeBasis p a b n => [("supportPoint", .point p), ("base1", .direction a), ("base2", .direction b),
      ("normal", .direction n)]
  | triangle p q r => [("p1", .point p), ("p2", .point q), ("p3", .point r)]
  | quadrilateral p q r s => [("p1", .point p), ("p2", .point q), ("p3", .point r), ("p4", .point s)]
  | polygon l => [("corners", .list (l.map some))]
  | diskOfEllipse e => [("ellipse", .ellipse e)]
  | diskOfArc a => [("ellipse", .arc a)]
  | surface r h => [("radius", .num r), ("height", .num h)]
  | surfaceOfCircle k h => [("bottomCircle", .circle k), ("height", .num h)]
  | cylinder r h z => [("radius", .num r), ("height", .num h), ("zOffset", .num z)]
  | cylinderAtOrigin r h => [("radius", .num r), ("height", .num h)]
  | cylinderOfCircle k h => [("bottomCircle", .circle k), ("height", .num h)]
  | cylinderOfDisk d h => [("bottom", .disk d), ("height", .num h)]
  | hollow r s h => [("innerRadius", .num r), ("outerRadius", .num s), ("height", .num h)]
  | hollowWithAxis c a r s h => [("bottomCenter", .point c), ("axis", .direction a), ("innerRadius", .num r),
      ("outerRadius", .num s), ("height", .num h)]
  | boxLimits a b c d e f => [("xmin", .num a), ("ymin", .num b), ("zmin", .num c), ("xmax", .num d), ("ymax", .num e),
      ("zmax", .num f)]
  | boxCorners p q => [("firstCorner", .point p), ("secondCorner", .point q)]
  | sphere c r => [("center", .point c), ("radius", .num r)]

/-- The object that the C++ constructor makes of the values. -/
noncomputable def result : Form → Outcome PyThing
  | segment p q => .val (.segment ⟨p, q⟩)
  | line p d => .val (.line ⟨p, d⟩)
  | ellipticalDefault => .val (.elliptical ⟨0, 0, 0, 0, 0, 0⟩)
  | elliptical c u v a b => Elliptical.make c u v a b >>= fun e => .val (.elliptical e)
  | ellipse c u v a b => Elliptical.make c u v a b >>= fun e => .val (.ellipse e)
  | arc e p q => EllipseArc.make e p q >>= fun a => .val (.arc a)
  | arcOfArc a p q => EllipseArc.make a.ellipse p q >>= fun a => .val (.arc a)
  | circle c n r => Circle.make c n r >>= fun e => .val (.circle e)
  | planeDefault => .val (.plane ⟨0, 0, 0, 0⟩)
  | planeNormal p n => Plane.ofNormal p n >>= fun x => .val (.plane x)
  | planePoints p q r => Plane.ofPoints p q r >>= fun x => .val (.plane x)
  | planeBasis p a b n => .val (.plane ⟨p, a, b, n⟩)
  | triangle p q r => .val (.triangle (Triangle.make p q r))
  | quadrilateral p q r s => .val (.quadrilateral (Quadrilateral.make p q r s))
  | polygon l => Polygon.make l >>= fun x => .val (.polygon x)
  | diskOfEllipse e =>
      Elliptical.make e.center e.major e.minor e.majLen e.minLen >>= fun e => .val (.disk e)
  | diskOfArc a => Elliptical.make a.ellipse.center a.ellipse.major a.ellipse.minor a.ellipse.majLen a.ellipse.minLen
      >>= fun e => .val (.disk e)
  | surface r h => CylinderSurface.axisAligned r h >>= fun c => .val (.cylinderSurface c)
  | surfaceOfCircle k h => CylinderSurface.ofCircle k h >>= fun c => .val (.cylinderSurface c)
  | cylinder r h z => Cylinder.axisAligned r h z >>= fun c => .val (.cylinder c)
  | cylinderAtOrigin r h => Cylinder.axisAligned r h 0 >>= fun c => .val (.cylinder c)
  | cylinderOfCircle k h => Cylinder.ofCircle k h >>= fun c => .val (.cylinder c)
  | cylinderOfDisk d h => Cylinder.ofDisk d h >>= fun c => .val (.cylinder c)
  | hollow r s h => HollowCylinder.axisAligned r s h >>= fun c => .val (.hollowCylinder c)
  | hollowWithAxis c a r s h => HollowCylinder.make c a r s h >>= fun c => .val (.hollowCylinder c)
  | boxLimits a b c d e f => Box.make a b c d e f >>= fun x => .val (.box x)
  | boxCorners p q => Box.ofCorners p q >>= fun x => .val (.box x)
  | sphere c r => .val (.sphere ⟨c, r⟩)

/-- The call passes the values of the form: the first ones by position, the others by keyword, in any order. -/
def Passed (f : Form) (args : List PyThing) (kw : KwOf PyThing) : Prop :=
  Passes (f.params.map (·.1)) (f.params.map (·.2)) args kw

end Form
end Spec
