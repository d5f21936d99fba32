import Verif.Model.Python.Contains
import Verif.Props.Shapes

/-!
# The method `contains` in Python
-/

namespace Spec
open Verif Frackit

/-- The value of a number. -/
def numberValue : PyNumber → ℝ
  | .bool true => 1
  | .bool false => 0
  | .int n => n
  | .float x => x

/-- What `contains(point, eps, flag)` returns in C++; the flag has no meaning for the geometries that do not take one.
Points and shapes have no such function. -/
noncomputable def containsCpp (p : V3) (eps : ℝ) (flag : Bool) : DistArg → Option (Outcome Prop)
  | .geom (.segment s) => some (.val (s.contains p eps flag))
  | .geom (.circle g) => some (.val (Circle.contains g p eps))
  | .geom (.ellipse g) => some (.val (Ellipse.contains g p eps flag))
  | .geom (.arc g _) => some (g.contains p eps flag)
  | .geom (.triangle g) => some (.val (g.contains p eps flag))
  | .geom (.quadrilateral g) => some (.val (g.contains p eps flag))
  | .geom (.polygon g) => some (g.contains p eps flag)
  | .geom (.disk g) => some (.val (Disk.contains g p eps flag))
  | .geom (.cylinderSurface g) => some (.val (g.contains p eps))
  | .geom (.box g) => some (.val (g.contains p eps))
  | .geom (.sphere g) => some (.val (g.contains p eps))
  | .geom (.cylinder g) => some (.val (g.contains p eps))
  | .geom (.hollowCylinder g) => some (.val (g.contains p eps))
  | .line l => some (.val (l.contains p eps))
  | .geom (.point _) => none
  | .shape _ => none

/-- What `contains(point, flag)` returns in C++. -/
noncomputable def containsCppDefault (p : V3) (flag : Bool) : DistArg → Option (Outcome Prop)
  | .geom (.segment s) => some (.val (s.containsDefault p flag))
  | .geom (.circle g) => some (.val (Circle.containsDefault g p))
  | .geom (.ellipse g) => some (.val (Ellipse.containsDefault g p flag))
  | .geom (.arc g _) => some (g.containsDefault p flag)
  | .geom (.triangle g) => some (g.containsDefault p flag)
  | .geom (.quadrilateral g) => some (.val (g.containsDefault p flag))
  | .geom (.polygon g) => some (g.containsDefault p flag)
  | .geom (.disk g) => some (.val (Disk.containsDefault g p flag))
  | .geom (.cylinderSurface g) => some (.val (g.containsDefault p))
  | .geom (.box g) => some (.val (g.containsDefault p))
  | .geom (.sphere g) => some (.val (g.containsDefault p))
  | .geom (.cylinder g) => some (.val (g.containsDefault p))
  | .geom (.hollowCylinder g) => some (.val (g.containsDefault p))
  | .line l => some (.val (l.contains p confusion))
  | .geom (.point _) => none
  | .shape _ => none

/-- The geometries for which the test on the line, plane or ellipse can be switched off. -/
def takesFlag : DistArg → Prop
  | .geom (.segment _) => True
  | .geom (.ellipse _) => True
  | .geom (.arc _ _) => True
  | .geom (.triangle _) => True
  | .geom (.quadrilateral _) => True
  | .geom (.polygon _) => True
  | .geom (.disk _) => True
  | _ => False

end Spec

namespace Props
open Verif Frackit

/-! ## C98 Tolerances of any numeric type in Python -/

/-- Full claim: the tolerance of `contains` in Python may be given as `int` or `float`. -/
def C98_full : Prop :=
  ∀ (a : DistArg) (p : V3) (x : PyNumber) (r : Outcome Prop), (∀ b, x ≠ .bool b) →
    Spec.containsCpp p (Spec.numberValue x) true a = some r → pyContains a p [x] = r

/-- Calls without tolerance or with a tolerance of type `float` return what the C++ functions return. -/
theorem C98_float (a : DistArg) (p : V3) (x : ℝ) (r : Outcome Prop) :
    (Spec.containsCpp p x true a = some r → pyContains a p [.float x] = r) ∧
    (Spec.containsCppDefault p true a = some r → pyContains a p [] = r) := by
  cases a with
  | geom g => cases g <;> constructor <;> intro h <;> cases h <;> rfl
  | line l => constructor <;> intro h <;> cases h <;> rfl
  | shape s => constructor <;> intro h <;> cases h

/-- With a flag behind it, the tolerance may be of any type. -/
theorem C98_flag (a : DistArg) (p : V3) (x : PyNumber) (b : Bool) (r : Outcome Prop) (hf : Spec.takesFlag a) :
    (Spec.containsCpp p (Spec.numberValue x) b a = some r → pyContains a p [x, .bool b] = r) ∧
    (Spec.containsCppDefault p b a = some r → pyContains a p [.bool b] = r) := by
  cases a with
  | geom g =>
    cases g <;> first
      | exact absurd hf id
      | (constructor
         · intro h
           cases h
           cases x with
           | bool c => cases c <;> rfl
           | int n => rfl
           | float x => rfl
         · intro h
           cases h
           rfl)
  | line l => exact absurd hf id
  | shape s => exact absurd hf id

/-- The flag behind a tolerance may be of any type as well: every number but zero stands for `True`. -/
theorem C98_flag_number (a : DistArg) (p : V3) (x y : PyNumber) (b : Bool) (r : Outcome Prop) (hf : Spec.takesFlag a)
    (hb : b = true ↔ Spec.numberValue y ≠ 0)
    (h : Spec.containsCpp p (Spec.numberValue x) b a = some r) : pyContains a p [x, y] = r := by
  have key : pyContains a p [x, y] = pyContains a p [x, .bool b] := by
    have hl : loadBool true y = some b := by
      cases y with
      | bool c => cases c <;> cases b <;> simp_all [loadBool, Spec.numberValue]
      | int n => cases b <;> simp_all [loadBool, Spec.numberValue]
      | float x => cases b <;> simp_all [loadBool, Spec.numberValue]
    have e : ∀ {α : Type} (f : Bool → α) (g : ℝ → Bool → α),
        pyCall [overloadFlag f, overloadEpsFlag g] [x, y] = pyCall [overloadFlag f, overloadEpsFlag g] [x, .bool b] := by
      intro α f g
      have h1 : ∀ z, pyCall [overloadFlag f, overloadEpsFlag g] [x, z]
          = (overloadEpsFlag g false [x, z]).or (overloadEpsFlag g true [x, z]) := by
        intro z
        simp only [pyCall, List.findSome?, overloadFlag]
        cases overloadEpsFlag g false [x, z] <;> cases overloadEpsFlag g true [x, z] <;> rfl
      rw [h1, h1]
      cases y with
      | bool c =>
        have : c = b := by simpa [loadBool] using hl
        rw [this]
      | int n =>
        cases x <;> simp only [overloadEpsFlag, hl] <;> simp [loadBool, loadReal]
      | float z =>
        cases x <;> simp only [overloadEpsFlag, hl] <;> simp [loadBool, loadReal]
    cases a with
    | geom g => cases g <;> first | exact absurd hf id | exact congrArg pyResult (e _ _)
    | line l => exact absurd hf id
    | shape s => exact absurd hf id
  rw [key]
  exact (C98_flag a p x b r hf).1 h

/-- Example: `disk.contains(p, 1, 0.5)`. -/
example (d : Elliptical) (p : V3) : pyContains (.geom (.disk d)) p [.int 1, .float (1 / 2)]
    = .val (Disk.contains d p 1 true) :=
  C98_flag_number _ p (.int 1) (.float (1 / 2)) true _ trivial (by norm_num [Spec.numberValue])
    (by simp [Spec.containsCpp, Spec.numberValue])

/-- Geometries without flag: the tolerance may be of any type.  Missing: the geometries with a flag. -/
theorem C98_partial (a : DistArg) (p : V3) (x : PyNumber) (r : Outcome Prop) (hf : ¬ Spec.takesFlag a)
    (h : Spec.containsCpp p (Spec.numberValue x) true a = some r) : pyContains a p [x] = r := by
  have key : pyContains a p [x] = pyContains a p [.float (Spec.numberValue x)] := by
    cases a with
    | geom g =>
      cases g <;> first
        | exact absurd trivial hf
        | (cases x with
           | bool c => cases c <;> rfl
           | int n => rfl
           | float x => rfl)
    | line l =>
      cases x with
      | bool c => cases c <;> rfl
      | int n => rfl
      | float x => rfl
    | shape s => rfl
  rw [key]
  exact (C98_float a p _ r).1 h

/-- Geometries with a flag: an `int` is not used as tolerance but as the flag, the default tolerance is used. -/
theorem C98_int (a : DistArg) (p : V3) (n : ℤ) (r : Outcome Prop) (hf : Spec.takesFlag a)
    (h : Spec.containsCppDefault p (decide (n ≠ 0)) a = some r) : pyContains a p [.int n] = r := by
  cases a with
  | geom g => cases g <;> first | exact absurd hf id | (cases h; rfl)
  | line l => exact absurd hf id
  | shape s => exact absurd hf id

/-- The claim fails: a point far above the unit disk is said to be in the disk with the tolerance `0`; with `0.0` it is
not. -/
theorem C98_disproof : ¬ C98_full := by
  intro h
  have h1 := h (.geom (.disk unitCircle)) ⟨0, 0, 5⟩ (.int 0) _ (by simp) rfl
  rw [C98_int (.geom (.disk unitCircle)) ⟨0, 0, 5⟩ 0 _ trivial rfl] at h1
  have h2 := Outcome.val.inj h1
  have h3 : Disk.containsDefault unitCircle ⟨0, 0, 5⟩ false := by
    refine ⟨by simp, ?_⟩
    norm_num [unitCircle, V3.dot, confusion]
  rw [show decide ((0 : ℤ) ≠ 0) = false from rfl] at h2
  rw [h2] at h3
  have h4 := h3.1 rfl
  simp only [Spec.numberValue, Plane.contains] at h4
  push_cast at h4
  exact absurd h4 (not_lt.2 (abs_nonneg _))

/-- Example: an integer tolerance has no effect at all if it is not zero. -/
example (q : Quadrilateral) (p : V3) (n : ℤ) (h : n ≠ 0) :
    pyContains (.geom (.quadrilateral q)) p [.int n] = pyContains (.geom (.quadrilateral q)) p [] :=
  (C98_int (.geom (.quadrilateral q)) p n _ trivial (by
    rw [decide_eq_true h]; rfl)).trans ((C98_float (.geom (.quadrilateral q)) p 0 _).2 rfl).symm

/-- Example: a box and an integer tolerance. -/
example (b : Box) (p : V3) : pyContains (.geom (.box b)) p [.int 2] = .val (b.contains p 2) := by
  refine C98_partial _ p (.int 2) _ id ?_
  simp [Spec.containsCpp, Spec.numberValue]

/-- Too many arguments raise a `TypeError`. -/
theorem C98_arguments (a : DistArg) (p : V3) (x y z : PyNumber) (l : List PyNumber) (r : Outcome Prop)
    (hr : Spec.containsCpp p 0 true a = some r) :
    pyContains a p (x :: y :: z :: l) = .thrown "TypeError" ∧
    (¬ Spec.takesFlag a → pyContains a p (x :: y :: l) = .thrown "TypeError") := by
  cases a with
  | geom g =>
    cases g <;> first
      | exact ⟨rfl, fun h => absurd trivial h⟩
      | exact ⟨rfl, fun _ => rfl⟩
      | cases hr
  | line l => exact ⟨rfl, fun _ => rfl⟩
  | shape s => cases hr

/-- Points and shapes have no such method, whatever the arguments. -/
theorem C98_no_method (a : DistArg) (p : V3) (args : List PyNumber)
    (ha : (∃ q, a = .geom (.point q)) ∨ ∃ s, a = .shape s) : pyContains a p args = .thrown "AttributeError" := by
  rcases ha with ⟨q, rfl⟩ | ⟨s, rfl⟩ <;> rfl

/-- Planes: the tolerance may be of any type. -/
theorem C98_plane (pl : Plane) (p : V3) (x : PyNumber) :
    pyPlaneContains pl p [x] = .val (pl.contains p (Spec.numberValue x)) ∧
    pyPlaneContains pl p [] = .val (pl.contains p confusion) := by
  refine ⟨?_, rfl⟩
  cases x with
  | bool c => cases c <;> rfl
  | int n => rfl
  | float x => rfl

end Props
