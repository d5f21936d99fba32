import Verif.Model.Common.Math
import Verif.Model.Geometry.Elliptical

/-!
# Objects of the Python package

frackit/python/geometry/{point,vector,direction,ellipticalgeometry,circle,ellipsearc}.hh,
frackit/python/common/math.hh

Python objects made with pybind11 own a C++ object or refer to a C++ object inside another one.  A function that returns
a reference to a C++ object returns

* the Python object for the C++ object, if there is one with the class of the C++ object; for polymorphic classes, as
  those derived from `Geometry`, this is the dynamic class,
* else a copy, or an object that refers to the C++ object if it is registered with the policy `reference_internal`.

Functions that return values make new objects.  This is how pybind11 2.6 works, the version named in README.md:203.
-/

namespace Frackit
open Verif

/-- The classes derived from `EllipticalGeometry` without further data. -/
inductive EllipticalKind where
  | ellipse | circle | disk
deriving DecidableEq

/-- C++ objects in three-dimensional space.  The objects of the other classes cannot be modified and refer to no other
object; they are not modelled. -/
inductive PyVal where
  | point (p : V3)
  | vector (v : V3)
  | direction (d : V3)
  | elliptical (k : EllipticalKind) (e : Elliptical)
  | arc (a : EllipseArc)

/-- The functions registered with `reference_internal`, frackit/python/geometry/ellipticalgeometry.hh:49-52. -/
inductive EllField where
  | center | majorAxis | minorAxis | normal
deriving DecidableEq

/-- The members of `EllipticalGeometry`, frackit/geometry/ellipticalgeometry.hh:124-132. -/
def Elliptical.member (e : Elliptical) : EllField → PyVal
  | .center => .point e.center
  | .majorAxis => .direction e.major
  | .minorAxis => .direction e.minor
  | .normal => .direction e.normal

/-- The members of an object. -/
def PyVal.member : PyVal → EllField → Option PyVal
  | .elliptical _ e, f => some (e.member f)
  | .arc a, f => some (a.ellipse.member f)
  | _, _ => none

/-- Assignment to a member: an object of another class cannot be assigned. -/
def Elliptical.withMember (e : Elliptical) : EllField → PyVal → Elliptical
  | .center, .point p => { e with center := p }
  | .majorAxis, .direction d => { e with major := d }
  | .minorAxis, .direction d => { e with minor := d }
  | .normal, .direction d => { e with normal := d }
  | _, _ => e

/-- Assignment to a member of an object. -/
def PyVal.withMember : PyVal → EllField → PyVal → PyVal
  | .elliptical k e, f, v => .elliptical k (e.withMember f v)
  | .arc a, f, v => .arc { a with ellipse := a.ellipse.withMember f v }
  | x, _, _ => x

/-- The C++ object of a Python object: one of its own, or a member of the one with the given number. -/
inductive PyRef where
  | own (i : ℕ)
  | member (i : ℕ) (f : EllField)
deriving DecidableEq

/-- The number of the C++ object that is concerned. -/
def PyRef.owner : PyRef → ℕ
  | .own i => i
  | .member i _ => i

/-- The state of the interpreter: the C++ objects, and the Python objects in the order in which they were returned. -/
structure PyHeap where
  objs : List PyVal := []
  refs : List PyRef := []

/-- The value of a C++ object. -/
def PyHeap.load (H : PyHeap) : PyRef → Option PyVal
  | .own i => H.objs[i]?
  | .member i f => H.objs[i]?.bind fun v => v.member f

/-- The value of a Python object. -/
def PyHeap.read (H : PyHeap) (h : ℕ) : Option PyVal := H.refs[h]?.bind H.load

/-- Assignment to a C++ object. -/
def PyHeap.store (H : PyHeap) (r : PyRef) (v : PyVal) : PyHeap :=
  match r with
  | .own i => { H with objs := H.objs.set i v }
  | .member i f => { H with objs := H.objs.modify i fun o => o.withMember f v }

/-- A new Python object with its own C++ object. -/
def PyHeap.new (H : PyHeap) (v : PyVal) : PyHeap := ⟨H.objs ++ [v], H.refs ++ [.own H.objs.length]⟩

/-- Functions that modify their argument: `+=`, `-=`, `*=`, `/=` of points, frackit/python/geometry/point.hh:59-66, `*=`
and `/=` of vectors, vector.hh:62-63, `invert`, direction.hh:53, and `rotate`, frackit/python/common/math.hh:43-46. -/
inductive Change where
  | add (v : ℕ)
  | subtract (v : ℕ)
  | scale (c : ℝ)
  | divide (c : ℝ)
  | invert
  | rotate (axis : ℕ) (angle : ℝ)

/-- The new value of the modified object; `arg` are the values of the Python objects.  Division by zero gives infinite or
`NaN` coordinates.  frackit/geometry/point.hh:92-96, 113-117, 133-147, vector.hh:179-194, direction.hh:225-229. -/
noncomputable def changed (arg : ℕ → Option PyVal) (m : Change) (x : PyVal) : Outcome PyVal :=
  match m, x with
  | .add v, .point p =>
      match arg v with
      | some (.vector w) => .val (.point (p + w))
      | _ => .thrown "TypeError"
  | .subtract v, .point p =>
      match arg v with
      | some (.vector w) => .val (.point (p - w))
      | _ => .thrown "TypeError"
  | .scale c, .point p => .val (.point (c • p))
  | .scale c, .vector v => .val (.vector (c • v))
  | .divide c, .point p => if c = 0 then .nan else .val (.point (p.sdiv c))
  | .divide c, .vector v => if c = 0 then .nan else .val (.vector (v.sdiv c))
  | .invert, .direction d => .val (.direction ((-1 : ℝ) • d))
  | .rotate axis angle, .vector v =>
      match arg axis with
      | some (.direction d) => .val (.vector (Frackit.rotate v d angle))
      | _ => .thrown "TypeError"
  | _, _ => .thrown "TypeError"

/-- Calls of functions of the package.

* `make`: a constructor, with the value it constructs;
* `query`: any function that returns a new object with a value computed from the values of its arguments;
* `get`: `center()`, `majorAxis()`, `minorAxis()`, `normal()`;
* `base`: `base1()` and `base2()` of circles; `shared` tells whether the Python object for the major or minor axis, if it
  was requested before, still exists;
* `supportingEllipse`;
* `change`: a function that modifies its argument. -/
inductive PyStep where
  | make (v : PyVal)
  | query (f : List PyVal → Outcome PyVal) (args : List ℕ)
  | get (h : ℕ) (f : EllField)
  | base (h : ℕ) (second shared : Bool)
  | supportingEllipse (h : ℕ)
  | change (h : ℕ) (m : Change)

/-- The values of the arguments of a call. -/
def readAll (read : ℕ → Option PyVal) : List ℕ → Option (List PyVal)
  | [] => some []
  | h :: t =>
      match read h, readAll read t with
      | some v, some vs => some (v :: vs)
      | _, _ => none

/-- One call.  `get`: frackit/python/geometry/ellipticalgeometry.hh:49-52, a member of a member does not exist.  `base`:
circle.hh:57-58 and frackit/geometry/circle.hh:88-89, reference to the axis, returned as a copy unless there is a Python
object for the axis.  `supportingEllipse`: frackit/python/geometry/ellipsearc.hh:55 and frackit/geometry/ellipsearc.hh:119-120,
reference to the arc itself, whose dynamic class is that of the arc, for which there is a Python object. -/
noncomputable def PyHeap.step (H : PyHeap) : PyStep → Outcome PyHeap
  | .make v => .val (H.new v)
  | .query f args =>
      match readAll H.read args with
      | some vs => do
          let v ← f vs
          pure (H.new v)
      | none => .thrown "TypeError"
  | .get h f =>
      match H.refs[h]?, H.read h with
      | some (.own i), some v =>
          match v.member f with
          | some _ => .val { H with refs := H.refs ++ [.member i f] }
          | none => .thrown "AttributeError"
      | _, _ => .thrown "AttributeError"
  | .base h second shared =>
      match H.refs[h]?, H.read h with
      | some (.own i), some (.elliptical .circle e) =>
          let f : EllField := if second then .minorAxis else .majorAxis
          if shared = true ∧ .member i f ∈ H.refs then .val { H with refs := H.refs ++ [.member i f] }
          else .val (H.new (e.member f))
      | _, _ => .thrown "AttributeError"
  | .supportingEllipse h =>
      match H.refs[h]?, H.read h with
      | some r, some (.arc _) => .val { H with refs := H.refs ++ [r] }
      | _, _ => .thrown "AttributeError"
  | .change h m =>
      match H.refs[h]?, H.read h with
      | some r, some x => do
          let y ← changed H.read m x
          pure (H.store r y)
      | _, _ => .thrown "TypeError"

/-- The object that was returned last. -/
def PyHeap.result (H : PyHeap) : Option PyVal := H.read (H.refs.length - 1)

/-- `getPoint` of a Python object, found by its Python class: frackit/python/geometry/ellipse.hh:67-68, circle.hh:67-68 and
ellipsearc.hh:73-74; the function of disks has two arguments, disk.hh:63, and points, vectors and directions do not have it. -/
noncomputable def PyVal.getPoint (v : PyVal) (localCoordinate : ℝ) : Outcome V3 :=
  match v with
  | .elliptical .ellipse e => .val (Ellipse.getPoint e localCoordinate)
  | .elliptical .circle c => .val (Circle.getPoint c localCoordinate)
  | .arc a => .val (EllipseArc.getPoint a localCoordinate)
  | _ => .thrown "AttributeError"

/-- `getPointFromAngle` of a Python object: frackit/python/geometry/ellipse.hh:69-70 and circle.hh:69-70; the class for arcs
inherits the function from the one for ellipses, ellipsearc.hh:44. -/
noncomputable def PyVal.getPointFromAngle (v : PyVal) (angle : ℝ) : Outcome V3 :=
  match v with
  | .elliptical .ellipse e => .val (Ellipse.getPointFromAngle e angle)
  | .elliptical .circle c => .val (Circle.getPointFromAngle c angle)
  | .arc a => .val (Ellipse.getPointFromAngle a.ellipse angle)
  | _ => .thrown "AttributeError"

/-- A sequence of calls. -/
noncomputable def PyHeap.run (H : PyHeap) : List PyStep → Outcome PyHeap
  | [] => .val H
  | s :: t => do
      let H ← H.step s
      H.run t

end Frackit
