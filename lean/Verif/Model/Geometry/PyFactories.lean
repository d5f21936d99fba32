import Verif.Model.Geometry.NDim

/-!
# Python functions that construct points, vectors, directions and circles

Models python/frackit/geometry/__init__.py:12-94 together with the constructors exported in
frackit/python/geometry/{point,vector,direction,circle}.hh.
-/

namespace Frackit
open Verif

/-- A Python object, as far as the functions below distinguish objects.  Points, vectors and directions carry
their coordinates; the length of the list is the dimension.  An element of a list is `none` if it is not
convertible into a number.  `geometry d` is any other geometry of the module with the property `worldDimension`
(frackit/python/geometry/registerdimensionproperties.hh:38-41); `other` is any object without this property.
Simplified: objects of other modules that offer `worldDimension` or are convertible into numbers are left out. -/
inductive PyObj where
  | num (x : ℝ)
  | list (l : List (Option ℝ))
  | point (c : List ℝ)
  | vector (c : List ℝ)
  | direction (c : List ℝ)
  | circle (center normal : List ℝ) (radius : ℝ)
  | geometry (worldDimension : ℕ)
  | other

/-- The property `worldDimension` of an object; `none` if the access raises an exception
(frackit/python/geometry/registerdimensionproperties.hh:38-41). -/
def PyObj.worldDimension : PyObj → Option ℕ
  | .point c => some c.length
  | .vector c => some c.length
  | .direction c => some c.length
  | .circle .. => some 3
  | .geometry d => some d
  | _ => none

/-- Keyword arguments with values of type `α`. -/
abbrev KwOf (α : Type) := List (String × α)

/-- Keyword arguments. -/
abbrev PyKw := KwOf PyObj

/-- The value of the keyword argument `n`; models the lookup that is done by pybind11. -/
def KwOf.value {α : Type} (kw : KwOf α) (n : String) : Option α := (kw.find? fun e => e.1 == n).map (·.2)

/-- The other keyword arguments. -/
def KwOf.drop {α : Type} (kw : KwOf α) (n : String) : KwOf α := kw.filter fun e => e.1 != n

/-- Assigns the positional and keyword arguments of a call to the parameters with the given names, as is done by
pybind11 for the functions registered with `"x"_a`; `none` if arguments are missing, unknown, or passed twice. -/
def bindArguments {α : Type} : List String → List α → KwOf α → Option (List α)
  | [], [], [] => some []
  | [], _, _ => none
  | _ :: ns, a :: as, kw => (bindArguments ns as kw).map (a :: ·)
  | n :: ns, [], kw => match kw.value n with
    | none => none
    | some v => (bindArguments ns [] (kw.drop n)).map (v :: ·)

/-- Conversion of all objects into numbers, the argument caster of pybind11 for `double`. -/
def castNumbers : List PyObj → Option (List ℝ)
  | [] => some []
  | .num x :: r => (castNumbers r).map (x :: ·)
  | _ :: _ => none

/-- The lambda expressions that construct points and vectors from lists
(frackit/python/geometry/point.hh:88-104, frackit/python/geometry/vector.hh:84-100): the first `n` elements are
converted, and zeros are appended to shorter lists. -/
def coordinatesFromList (n : ℕ) (l : List (Option ℝ)) : Outcome (List ℝ) :=
  match (l.take n).mapM id with
  | none => .thrown "RuntimeError"
  | some c => .val (c ++ List.replicate (n - l.length) 0)

/-- The names of the coordinates (frackit/python/geometry/point.hh:106-111,
frackit/python/geometry/vector.hh:102-107). -/
def coordinateNames (n : ℕ) : List String := ["x", "y", "z"].take n

/-- The constructor from coordinates, the last overload of `Point_n` and `Vector_n`
(frackit/python/geometry/point.hh:106-111, frackit/python/geometry/vector.hh:102-107). -/
def fromCoordinates (n : ℕ) (args : List PyObj) (kw : PyKw) : Option (List ℝ) :=
  (bindArguments (coordinateNames n) args kw).bind castNumbers

/-- The constructors of `Point_n` in the order of registration (frackit/python/geometry/point.hh:87-111). -/
def pointClass (n : ℕ) (args : List PyObj) (kw : PyKw) : Outcome PyObj :=
  match bindArguments [] args kw with
  | some _ => .val (.point (List.replicate n 0))
  | none => match bindArguments ["coordinates"] args kw with
    | some [.list l] => coordinatesFromList n l >>= fun c => .val (.point c)
    | _ => match fromCoordinates n args kw with
      | some c => .val (.point c)
      | none => .thrown "TypeError"

/-- The constructors of `Vector_n` in the order of registration (frackit/python/geometry/vector.hh:81-107); the
constructors from two points and from a direction are Vector(source, target) and Vector(direction) of
frackit/geometry/vector.hh. -/
def vectorClass (n : ℕ) (args : List PyObj) (kw : PyKw) : Outcome PyObj :=
  match bindArguments [] args kw with
  | some _ => .val (.vector (List.replicate n 0))
  | none => match bindArguments ["source", "target"] args kw with
    | some [.point p, .point q] =>
      if p.length = n ∧ q.length = n then .val (.vector (List.zipWith (fun s t => t - s) p q)) else .thrown "TypeError"
    | _ => match bindArguments ["direction"] args kw with
      | some [.direction d] => if d.length = n then .val (.vector d) else .thrown "TypeError"
      | _ => match bindArguments ["coordinates"] args kw with
        | some [.list l] => coordinatesFromList n l >>= fun c => .val (.vector c)
        | _ => match fromCoordinates n args kw with
          | some c => .val (.vector c)
          | none => .thrown "TypeError"

/-- The constructors of `Direction_n` (frackit/python/geometry/direction.hh:45-46).  The coordinates of a
default-constructed direction are zero, because pybind11 value-initializes the object. -/
noncomputable def directionClass (n : ℕ) (args : List PyObj) (kw : PyKw) : Outcome PyObj :=
  match bindArguments [] args kw with
  | some _ => .val (.direction (List.replicate n 0))
  | none => match bindArguments ["vector"] args kw with
    | some [.vector v] =>
      if v.length = n then directionOf v.get >>= fun d => .val (.direction (List.ofFn d)) else .thrown "TypeError"
    | _ => .thrown "TypeError"

/-- The constructor of `Circle_3` (frackit/python/geometry/circle.hh:52-53). -/
def circleClass (args : List PyObj) (kw : PyKw) : Outcome PyObj :=
  match bindArguments ["center", "normal", "radius"] args kw with
  | some [.point c, .direction d, .num r] =>
    if c.length = 3 ∧ d.length = 3 then .val (.circle c d r) else .thrown "TypeError"
  | _ => .thrown "TypeError"

/-- `Point` (python/frackit/geometry/__init__.py:14-34). -/
def pyPoint (args : List PyObj) (kw : PyKw) : Outcome PyObj :=
  let numArgs := args.length + kw.length
  if numArgs = 0 then .thrown "Exception" else
  if numArgs = 1 then
    match args with
    | [] => .thrown "IndexError"
    | .list l :: _ =>
      if l.length = 1 then pointClass 1 args kw else if l.length = 2 then pointClass 2 args kw else pointClass 3 args kw
    | _ => pointClass 1 args kw
  else if numArgs = 2 then pointClass 2 args kw else pointClass 3 args kw

/-- `makeVector` inside `Vector` (python/frackit/geometry/__init__.py:47-50). -/
def makeVector (args : List PyObj) (kw : PyKw) (dim : ℕ) : Outcome PyObj :=
  if dim = 1 then vectorClass 1 args kw else if dim = 2 then vectorClass 2 args kw else vectorClass 3 args kw

/-- `Vector` (python/frackit/geometry/__init__.py:39-68). -/
def pyVector (args : List PyObj) (kw : PyKw) : Outcome PyObj :=
  let numArgs := args.length + kw.length
  if numArgs = 0 then .thrown "Exception" else
  if numArgs = 1 then
    match args with
    | [] => .thrown "IndexError"
    | .list l :: _ => makeVector args kw l.length
    | a :: _ => match a.worldDimension with
      | some dim => makeVector args kw dim
      | none => .thrown "RuntimeError"
  else if numArgs = 2 then
    match args.head?.bind PyObj.worldDimension with
    | some dim => makeVector args kw dim
    | none => makeVector args kw numArgs
  else makeVector args kw numArgs

/-- `Direction` (python/frackit/geometry/__init__.py:73-81). -/
noncomputable def pyDirection (args : List PyObj) (kw : PyKw) : Outcome PyObj :=
  let numArgs := args.length + kw.length
  if numArgs ≠ 1 then .thrown "RuntimeError" else
  match args.head?.bind PyObj.worldDimension with
  | none => .thrown "RuntimeError"
  | some dim =>
    if dim = 1 then directionClass 1 args kw
    else if dim = 2 then directionClass 2 args kw else directionClass 3 args kw

/-- `Circle` (python/frackit/geometry/__init__.py:86-94). -/
def pyCircle (args : List PyObj) (kw : PyKw) : Outcome PyObj :=
  let numArgs := args.length + kw.length
  if numArgs ≠ 3 then .thrown "RuntimeError" else
  match args.head?.bind PyObj.worldDimension with
  | none => .thrown "RuntimeError"
  | some dim =>
    if dim = 1 then .thrown "NotImplementedError"
    else if dim = 2 then .thrown "NotImplementedError" else circleClass args kw

end Frackit
