/-
  Model of the Python package `frackit`: which module registers which C++ class, in which order,
  which modules are imported by which, and which functions exist with which classes of arguments
  and results.

  Sources: python/frackit/*/__init__.py, python/frackit/*/_*.cc, frackit/python/**.hh.
  pybind11 keeps one registry of C++ classes per process, shared by all extension modules.

  Simplified: a class is represented by its name only (the values are modelled in the other files
  of this directory), arguments that are numbers, strings, booleans, lists of these or Python
  functions are left out (they need no registration), and a container of objects is represented
  by the class of its elements.  The second overload of a function that only adds such arguments
  (a tolerance) is not listed again.
-/
import Verif.Core.Outcome
import Mathlib.Data.Nat.Notation

namespace Frackit
open Verif

namespace Py

/-- The modules of the package (python/frackit/, one directory each). -/
inductive Mod
  | common | geometry | entitynetwork | io | occutilities | precision | sampling
  deriving DecidableEq, Repr

/-- The eight kinds of wrapped shapes (frackit/python/geometry/brepwrappers.hh:80-87). -/
inductive Wrap
  | shape | vertex | edge | wire | face | shell | solid | compound
  deriving DecidableEq, Repr

/-- The C++ classes that occur in the bindings.  `distribution` is
    `std::uniform_real_distribution<double>` (frackit/sampling/uniformpointsamplertraits.hh). -/
inductive Cls
  | id
  | geometry | pointBase (n : ℕ) | point (n : ℕ) | vectorBase (n : ℕ) | vector (n : ℕ)
  | direction (n : ℕ) | segment (n : ℕ) | line (n : ℕ)
  | elliptical | ellipse | ellipseArc | circle | plane | triangle | quad | polygon | disk
  | cylinderSurface | cylinder | hollowCylinder | box | sphere | wrap (k : Wrap)
  | emptyIntersection (n : ℕ)
  | constraints | network | containedNetwork | builderBase | builder | containedBuilder
  | builderWrapper | containedBuilderWrapper
  | gmshWriter
  | precision
  | status | samplerInterface (n : ℕ) | boxSampler | cylinderSampler
  | distribution
  deriving DecidableEq, Repr

/-- One `py::class_<cls, bases...>` statement. -/
structure Reg where
  cls : Cls
  bases : List Cls

/-- The classes of `_geometry` in the order of python/frackit/geometry/_geometry.cc:52-82.
    The bases are those of the `py::class_` statements in frackit/python/geometry/*.hh
    (point.hh:50,86, vector.hh:46,74, direction.hh:44, segment.hh:45, line.hh:46,
    ellipticalgeometry.hh:43, ellipse.hh:48, ellipsearc.hh:44, circle.hh:43, plane.hh:48,
    triangle.hh:45, quadrilateral.hh:45, polygon.hh:46, disk.hh:43, cylindersurface.hh:41,
    cylinder.hh:43, hollowcylinder.hh:42, box.hh:40, sphere.hh:40, brepwrappers.hh:39,61,
    emptyintersection.hh:40, geometry.hh:31). -/
def geometryRegs : List Reg :=
  [⟨.geometry, []⟩] ++
  [1, 2, 3].flatMap (fun n => [⟨.pointBase n, [.geometry]⟩, ⟨.point n, [.pointBase n]⟩]) ++
  [1, 2, 3].flatMap (fun n => [⟨.vectorBase n, [.geometry]⟩, ⟨.vector n, [.vectorBase n]⟩]) ++
  [1, 2, 3].map (fun n => ⟨.direction n, [.geometry]⟩) ++
  [1, 2, 3].map (fun n => ⟨.segment n, [.geometry]⟩) ++
  [1, 2, 3].map (fun n => ⟨.line n, [.geometry]⟩) ++
  [⟨.elliptical, []⟩,
   ⟨.ellipse, [.geometry, .elliptical]⟩,
   ⟨.ellipseArc, [.ellipse]⟩,
   ⟨.circle, [.geometry, .elliptical]⟩,
   ⟨.plane, [.geometry]⟩,
   ⟨.triangle, [.geometry]⟩,
   ⟨.quad, [.geometry]⟩,
   ⟨.polygon, [.geometry]⟩,
   ⟨.disk, [.geometry, .elliptical]⟩,
   ⟨.cylinderSurface, [.geometry]⟩,
   ⟨.cylinder, [.geometry]⟩,
   ⟨.hollowCylinder, [.geometry]⟩,
   ⟨.box, [.geometry]⟩,
   ⟨.sphere, [.geometry]⟩] ++
  [Wrap.shape, .vertex, .edge, .wire, .face, .shell, .solid, .compound].map
    (fun k => ⟨.wrap k, []⟩) ++
  [1, 2, 3].map (fun n => ⟨.emptyIntersection n, []⟩)

/-- The classes each extension module registers, in order: common/_common.cc:25,
    geometry/_geometry.cc, entitynetwork/_entitynetwork.cc:28-34 (constraints.hh:125,
    entitynetwork.hh:35,40, networkbuilder.hh:100-129), io/_io.cc:24 (gmshwriter.hh:38),
    occutilities/_occutilities.cc (none), precision/_precision.cc:26 (precision.hh:30),
    sampling/_sampling.cc:65-74 (status.hh:33, pointsampler.hh:40, boxpointsampler.hh:45,
    cylinderpointsampler.hh:46). -/
def registrations : Mod → List Reg
  | .common => [⟨.id, []⟩]
  | .geometry => geometryRegs
  | .entitynetwork =>
    [⟨.constraints, []⟩, ⟨.network, []⟩, ⟨.containedNetwork, []⟩, ⟨.builderBase, []⟩,
     ⟨.builder, [.builderBase]⟩, ⟨.containedBuilder, [.builderBase]⟩,
     ⟨.builderWrapper, [.builder]⟩, ⟨.containedBuilderWrapper, [.containedBuilder]⟩]
  | .io => [⟨.gmshWriter, []⟩]
  | .occutilities => []
  | .precision => [⟨.precision, []⟩]
  | .sampling =>
    [⟨.status, []⟩, ⟨.samplerInterface 1, []⟩, ⟨.samplerInterface 2, []⟩,
     ⟨.samplerInterface 3, []⟩, ⟨.boxSampler, [.samplerInterface 3]⟩,
     ⟨.cylinderSampler, [.samplerInterface 3]⟩]

/-- The imports executed when the module itself is imported, after its extension module:
    python/frackit/occutilities/__init__.py:6-7 and python/frackit/sampling/__init__.py:371 (in the
    body of a class, hence executed at import). -/
def topImports : Mod → List Mod
  | .occutilities => [.geometry]
  | .sampling => [.precision]
  | _ => []

/-- `pybind11::detail::generic_type::initialize`: a class may be registered once, and its bases
    must have been registered before it (pybind11.h, called by every `py::class_`). -/
def register (known : List Cls) (r : Reg) : Outcome (List Cls) :=
  if r.cls ∈ known then .thrown "ImportError: type is already registered"
  else if r.bases.all (· ∈ known) then .val (known ++ [r.cls])
  else .thrown "ImportError: referenced unknown base type"

/-- The body of a `PYBIND11_MODULE`, as far as classes are concerned. -/
def registerAll : List Cls → List Reg → Outcome (List Cls)
  | known, [] => .val known
  | known, r :: rs => (register known r).bind fun k => registerAll k rs

/-- What matters of the interpreter: the modules that were imported, the registry of classes and
    the classes of the objects that have been created. -/
structure Interp where
  loaded : List Mod
  known : List Cls
  objects : List Cls

/-- A fresh interpreter. -/
def Interp.init : Interp := ⟨[], [], []⟩

/-- `import frackit.m`: nothing if it has been imported before, otherwise the extension module is
    initialised and the imports in the `__init__.py` are executed.  `fuel` bounds the nesting of
    imports; `importMod` uses the number of modules, which is enough (`Props.C149_imports`). -/
def importFuel : ℕ → Mod → Interp → Outcome Interp
  | 0, _, _ => .ub
  | fuel + 1, m, s =>
    if m ∈ s.loaded then .val s
    else (registerAll s.known (registrations m)).bind fun known =>
      (topImports m).foldl (fun o m' => o.bind (importFuel fuel m'))
        (.val { s with loaded := m :: s.loaded, known := known })

/-- `import frackit.m`. -/
def importMod (m : Mod) (s : Interp) : Outcome Interp := importFuel 7 m s

/-- A function of the package: the module in which the user finds it, the classes of its
    arguments (for a method, the first one is the object itself), the modules it imports when it
    is called, and the classes of the objects that it may return. -/
structure Fn where
  name : String
  home : Mod
  args : List Cls
  lazy : List Mod := []
  results : List Cls := []

/-- Direct base classes as registered. -/
def basesOf (c : Cls) : List Cls :=
  ([Mod.common, .geometry, .entitynetwork, .io, .occutilities, .precision, .sampling].flatMap
    registrations).flatMap fun r => if r.cls = c then r.bases else []

/-- `isA c a`: an object of class `c` is accepted for an argument of class `a` (pybind11 follows
    the registered bases).  The hierarchies have at most four levels
    (EllipseArc, Ellipse, EllipticalGeometry; wrapper, builder, base). -/
def isA (c a : Cls) : Bool :=
  let l1 := basesOf c
  let l2 := l1.flatMap basesOf
  let l3 := l2.flatMap basesOf
  a = c || a ∈ l1 || a ∈ l2 || a ∈ l3

/-- A call of a function with the given objects; `pick` is the class of the object that the C++
    function returns (one of `results`), if it returns objects.  Without the module the name is
    unknown.  Arguments that do not match lead to a TypeError, as does a result of a class that
    is not registered ("Unable to convert function return value to a Python type"). -/
def call (f : Fn) (args : List Cls) (pick : Option Cls) (s : Interp) : Outcome Interp :=
  if f.home ∉ s.loaded then .thrown "AttributeError"
  else if ¬ (args.length = f.args.length ∧
      (List.zipWith isA args f.args).all (· = true) ∧ f.args.all (· ∈ s.known)) then
    .thrown "TypeError: incompatible function arguments"
  else
    (f.lazy.foldl (fun (o : Outcome Interp) m => o.bind (importMod m)) (.val s)).bind fun s' =>
      match pick with
      | none => .val s'
      | some r =>
        if r ∈ s'.known then .val { s' with objects := r :: s'.objects }
        else .thrown "TypeError: Unable to convert function return value to a Python type"

end Py

end Frackit
