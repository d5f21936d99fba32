import Verif.Model.Geometry.Cylinder

/-!
# Cached members of hollow cylinders

frackit/geometry/hollowcylinder.hh

The circles and lateral faces of the outer radius are created on the first call of an accessor and kept in
`mutable std::unique_ptr` members.  The steps of calls in several threads are interleaved in any order; each access of a
pointer is one step.  (According to the C++ standard the behaviour of such a program is undefined anyway, as
the members are not atomic; the interleavings are the mildest possible semantics.)
-/

namespace Frackit.HollowCache
open Verif

/-- The cached members, frackit/geometry/hollowcylinder.hh:220-226. -/
inductive Slot where
  | bottomOuter | topOuter | innerLateral | outerLateral
  deriving DecidableEq

/-- The objects kept in the members. -/
inductive Object where
  | circle (c : Outcome Elliptical)
  | surface (s : Outcome CylinderSurface)

/-- Addresses stored in the members (`none` for null), and the objects that are alive.  Addresses are not used
again. -/
structure Memory where
  slots : Slot → Option ℕ
  heap : ℕ → Option Object
  next : ℕ

/-- The constructor sets all members to null, frackit/geometry/hollowcylinder.hh:103-106. -/
def Memory.init : Memory := ⟨fun _ => none, fun _ => none, 0⟩

/-- What a thread does next. -/
inductive Pc where
  /-- The thread is not in a call. -/
  | idle
  /-- `if (!member)` -/
  | check (s : Slot)
  /-- `std::make_unique`, with the address of the circle that is passed to the constructor. -/
  | make (s : Slot) (arg : Option ℕ)
  /-- `member = ...`, which deletes the previous object. -/
  | assign (s : Slot) (a : ℕ)
  /-- `return *member` -/
  | load (s : Slot)
  /-- An object has been used that is not alive. -/
  | ub

/-- A thread: the calls it has still to make, the next step, whether it is in the call of `bottomOuterCircle` from
`outerLateralFace`, and the references it has obtained. -/
structure Thread where
  todo : List Slot
  pc : Pc
  nested : Bool
  results : List (Slot × ℕ)

/-- A thread that makes the given calls. -/
def Thread.start (calls : List Slot) : Thread := ⟨calls, .idle, false, []⟩

variable (c : HollowCylinder)

/-- Construction of the object of a member: frackit/geometry/hollowcylinder.hh:135 (circle at the bottom), 143 (circle at
the top), 151 (inner lateral face), 159 (outer lateral face, which is made of the circle at the bottom). -/
noncomputable def makeObject (heap : ℕ → Option Object) (s : Slot) (arg : Option ℕ) : Option Object :=
  match s with
  | .bottomOuter => some (.circle (Circle.make c.bottomInner.center c.bottomInner.normal c.outerRadius))
  | .topOuter => some (.circle (Circle.make c.topInner.center c.bottomInner.normal c.outerRadius))
  | .innerLateral => some (.surface (CylinderSurface.ofCircle c.bottomInner c.height))
  | .outerLateral =>
    match arg.bind heap with
    | some (.circle e) => some (.surface (do let e ← e; CylinderSurface.ofCircle e c.height))
    | _ => none

/-- `std::unique_ptr::operator=`: the new address is stored, the object of the old one is deleted. -/
def Memory.assign (m : Memory) (s : Slot) (a : ℕ) : Memory where
  slots := Function.update m.slots s (some a)
  heap := match m.slots s with
    | none => m.heap
    | some old => Function.update m.heap old none
  next := m.next

/-- One step of a thread: `bottomOuterCircle`, `topOuterCircle`, `innerLateralFace` and `outerLateralFace`,
frackit/geometry/hollowcylinder.hh:132-161. -/
noncomputable def stepThread (m : Memory) (t : Thread) : Memory × Thread :=
  match t.pc with
  | .idle =>
    match t.todo with
    | [] => (m, t)
    | s :: rest => (m, { t with todo := rest, pc := .check s })
  | .check s =>
    match m.slots s with
    | some _ => (m, { t with pc := .load s })
    | none =>
      if s = .outerLateral then (m, { t with pc := .check .bottomOuter, nested := true })
      else (m, { t with pc := .make s none })
  | .make s arg =>
    match makeObject c m.heap s arg with
    | none => (m, { t with pc := .ub })
    | some x =>
      ({ m with heap := Function.update m.heap m.next (some x), next := m.next + 1 },
        { t with pc := .assign s m.next })
  | .assign s a => (m.assign s a, { t with pc := .load s })
  | .load s =>
    match m.slots s with
    | none => (m, { t with pc := .ub })
    | some a =>
      if t.nested then (m, { t with pc := .make .outerLateral (some a), nested := false })
      else (m, { t with pc := .idle, results := t.results ++ [(s, a)] })
  | .ub => (m, t)

/-- State of the program: the memory and the threads. -/
structure State where
  memory : Memory
  threads : ℕ → Thread

/-- Start: nothing has been called, thread `i` is going to make the calls `calls i`. -/
def State.init (calls : ℕ → List Slot) : State := ⟨.init, fun i => .start (calls i)⟩

/-- One step of thread `i`. -/
noncomputable def step (st : State) (i : ℕ) : State :=
  let r := stepThread c st.memory (st.threads i)
  ⟨r.1, Function.update st.threads i r.2⟩

/-- Execution of a schedule. -/
noncomputable def run (st : State) (schedule : List ℕ) : State := schedule.foldl (step c) st

end Frackit.HollowCache
