import Verif.Model.Distance.Shapes

/-!
# The method `contains` in Python

frackit/python/geometry/*.hh

Calls with positional arguments.  Numbers are converted as in pybind11 2.6, the version named in README.md:203: a
function with several overloads is first tried without conversion of arguments, then with conversion, in each of the
two passes in the order of registration.
-/

namespace Frackit
open Verif

/-- Numbers in Python. -/
inductive PyNumber where
  | bool (b : Bool)
  | int (n : ℤ)
  | float (x : ℝ)

/-- The caster for `bool` of pybind11: `True` and `False` always, other numbers if conversion is allowed. -/
noncomputable def loadBool (convert : Bool) : PyNumber → Option Bool
  | .bool b => some b
  | .int n => if convert then some (decide (n ≠ 0)) else none
  | .float x => if convert then some (@decide (x ≠ 0) (Classical.propDecidable _)) else none

/-- The caster for `double` of pybind11: `float` always, other numbers if conversion is allowed. -/
def loadReal (convert : Bool) : PyNumber → Option ℝ
  | .float x => some x
  | .int n => if convert then some n else none
  | .bool b => if convert then some (if b then 1 else 0) else none

/-- An overload: the result of the call with the arguments behind the point, `none` if they are not accepted. -/
abbrev Overload (α : Type) := Bool → List PyNumber → Option α

/-- Overload `(const Point&)`. -/
def overloadPoint {α : Type} (f : α) : Overload α
  | _, [] => some f
  | _, _ => none

/-- Overload `(const Point&, ctype)`. -/
def overloadEps {α : Type} (f : ℝ → α) : Overload α
  | convert, [e] => (loadReal convert e).map f
  | _, _ => none

/-- Overload `(const Point&, ctype)` with default value of the tolerance. -/
def overloadEpsDefault {α : Type} (d : ℝ) (f : ℝ → α) : Overload α
  | _, [] => some (f d)
  | convert, [e] => (loadReal convert e).map f
  | _, _ => none

/-- Overload `(const Point&, bool)` with default value `true` of the flag. -/
noncomputable def overloadFlag {α : Type} (f : Bool → α) : Overload α
  | _, [] => some (f true)
  | convert, [c] => (loadBool convert c).map f
  | _, _ => none

/-- Overload `(const Point&, ctype, bool)` with default value `true` of the flag. -/
noncomputable def overloadEpsFlag {α : Type} (f : ℝ → Bool → α) : Overload α
  | convert, [e] => (loadReal convert e).map fun e => f e true
  | convert, [e, c] => (loadReal convert e).bind fun e => (loadBool convert c).map (f e)
  | _, _ => none

/-- Call of a function with several overloads; see the comment at the top. -/
def pyCall {α : Type} (overloads : List (Overload α)) (args : List PyNumber) : Option α :=
  (overloads.findSome? fun o => o false args).or (overloads.findSome? fun o => o true args)

/-- Result of a call, `TypeError` if no overload accepts the arguments. -/
def pyResult {α : Type} : Option (Outcome α) → Outcome α
  | some r => r
  | none => .thrown "TypeError"

/-- `object.contains(point, …)` in Python. Registration: frackit/python/geometry/segment.hh:68-73,
frackit/python/geometry/circle.hh:61-64, frackit/python/geometry/ellipse.hh:59-64,
frackit/python/geometry/ellipsearc.hh:65-70, frackit/python/geometry/triangle.hh:65-70,
frackit/python/geometry/quadrilateral.hh:66-71, frackit/python/geometry/polygon.hh:66-71,
frackit/python/geometry/disk.hh:55-60, frackit/python/geometry/cylindersurface.hh:68-71,
frackit/python/geometry/box.hh:69-72, frackit/python/geometry/sphere.hh:53-56,
frackit/python/geometry/cylinder.hh:69-72, frackit/python/geometry/hollowcylinder.hh:75-78,
frackit/python/geometry/line.hh:57-60. Points and shapes have no such method. -/
noncomputable def pyContains (a : DistArg) (p : V3) (args : List PyNumber) : Outcome Prop :=
  match a with
  | .geom (.segment s) => pyResult (pyCall
      [overloadFlag fun c => .val (s.containsDefault p c), overloadEpsFlag fun e c => .val (s.contains p e c)] args)
  | .geom (.circle g) => pyResult (pyCall
      [overloadPoint (.val (Circle.containsDefault g p)), overloadEps fun e => .val (Circle.contains g p e)] args)
  | .geom (.ellipse g) => pyResult (pyCall
      [overloadFlag fun c => .val (Ellipse.containsDefault g p c),
       overloadEpsFlag fun e c => .val (Ellipse.contains g p e c)] args)
  | .geom (.arc g _) => pyResult (pyCall
      [overloadFlag fun c => g.containsDefault p c, overloadEpsFlag fun e c => g.contains p e c] args)
  | .geom (.triangle g) => pyResult (pyCall
      [overloadFlag fun c => g.containsDefault p c, overloadEpsFlag fun e c => .val (g.contains p e c)] args)
  | .geom (.quadrilateral g) => pyResult (pyCall
      [overloadFlag fun c => .val (g.containsDefault p c), overloadEpsFlag fun e c => .val (g.contains p e c)] args)
  | .geom (.polygon g) => pyResult (pyCall
      [overloadFlag fun c => g.containsDefault p c, overloadEpsFlag fun e c => g.contains p e c] args)
  | .geom (.disk g) => pyResult (pyCall
      [overloadFlag fun c => .val (Disk.containsDefault g p c),
       overloadEpsFlag fun e c => .val (Disk.contains g p e c)] args)
  | .geom (.cylinderSurface g) => pyResult (pyCall
      [overloadPoint (.val (g.containsDefault p)), overloadEps fun e => .val (g.contains p e)] args)
  | .geom (.box g) => pyResult (pyCall
      [overloadPoint (.val (g.containsDefault p)), overloadEps fun e => .val (g.contains p e)] args)
  | .geom (.sphere g) => pyResult (pyCall
      [overloadPoint (.val (g.containsDefault p)), overloadEps fun e => .val (g.contains p e)] args)
  | .geom (.cylinder g) => pyResult (pyCall
      [overloadPoint (.val (g.containsDefault p)), overloadEps fun e => .val (g.contains p e)] args)
  | .geom (.hollowCylinder g) => pyResult (pyCall
      [overloadPoint (.val (g.containsDefault p)), overloadEps fun e => .val (g.contains p e)] args)
  | .line l => pyResult (pyCall
      [overloadEps fun e => .val (l.contains p e), overloadPoint (.val (l.contains p confusion))] args)
  | .geom (.point _) => .thrown "AttributeError"
  | .shape _ => .thrown "AttributeError"

/-- `plane.contains(point, …)` in Python, frackit/python/geometry/plane.hh:71-72. -/
noncomputable def pyPlaneContains (pl : Plane) (p : V3) (args : List PyNumber) : Outcome Prop :=
  pyResult (pyCall [overloadEpsDefault confusion fun e => .val (pl.contains p e)] args)

end Frackit
