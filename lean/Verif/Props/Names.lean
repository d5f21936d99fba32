import Verif.Model.Common.Names
import Verif.Model.EntityNetwork.EntitySet
import Mathlib.Data.List.Infix
import Mathlib.Tactic.Basic

/-!
# Names of the classes and what is decided by them (C146, C147)
-/

namespace Spec
open Verif Frackit

/-- What a user expects of `assign`: an object of the type of the target is copied and `true` is returned;
otherwise `false` is returned and the target is left as it is. -/
def Assigned {V : Type} (g target : GeometryObject V) (r : Outcome Bool × GeometryObject V) : Prop :=
  (g.type = target.type ∧ r = (.val true, g)) ∨ (g.type ≠ target.type ∧ r = (.val false, target))

/-- A type is an empty intersection, whatever its dimension and coordinate type. -/
def IsEmptyClass (c : GeometryClass) : Prop := ∃ wd, c = .emptyIntersection wd

end Spec

namespace Props
open Verif Frackit Spec

theorem repr_injective {m n : ℕ} (h : m.repr = n.repr) : m = n := by
  have h2 : m.repr.toList = n.repr.toList := by rw [h]
  rw [Nat.toList_repr, Nat.toList_repr] at h2
  rw [← @Nat.ofDigitChars_ten_toDigits m, h2, Nat.ofDigitChars_ten_toDigits]

/-- The part of a name in front of the first underscore. -/
def stem (s : String) : List Char := s.toList.takeWhile (· ≠ '_')

theorem stem_append (a b : String) (h : '_' ∈ a.toList) : stem (a ++ b) = stem a := by
  unfold stem
  rw [String.toList_append]
  generalize a.toList = l at h
  generalize b.toList = r
  induction l with
  | nil => simp at h
  | cons x t ih =>
    by_cases hx : x = '_'
    · simp [hx]
    · have : '_' ∈ t := by simpa [Ne.symm hx] using h
      simpa [hx] using ih this

/-- The stems of the classes. -/
def stemOf : GeometryClass → String
  | .point _ => "Point"
  | .vector _ => "Vector"
  | .direction _ => "Direction"
  | .line _ => "Line"
  | .segment _ => "Segment"
  | .emptyIntersection _ => "EmptyIntersection"
  | .plane => "Plane"
  | .triangle => "Triangle"
  | .quadrilateral => "Quadrilateral"
  | .polygon => "Polygon"
  | .ellipse => "Ellipse"
  | .circle => "Circle"
  | .ellipseArc => "EllipseArc"
  | .disk => "Disk"
  | .cylinderSurface => "CylinderSurface"
  | .sphere => "Sphere"
  | .box => "Box"
  | .cylinder => "Cylinder"
  | .hollowCylinder => "HollowCylinder"

theorem stem_three (a b c : String) (h : '_' ∈ a.toList) : stem (a ++ b ++ c) = stem a := by
  rw [String.append_assoc, stem_append _ _ h]

theorem stem_name (c : GeometryClass) : stem c.name = (stemOf c).toList := by
  cases c with
  | point wd => exact (stem_three _ _ _ (by decide)).trans (by decide : stem "Point_" = "Point".toList)
  | vector wd => exact (stem_three _ _ _ (by decide)).trans (by decide : stem "Vector_" = "Vector".toList)
  | direction wd => exact (stem_three _ _ _ (by decide)).trans (by decide : stem "Direction_" = "Direction".toList)
  | line wd => exact (stem_three _ _ _ (by decide)).trans (by decide : stem "Line_" = "Line".toList)
  | segment wd => exact (stem_three _ _ _ (by decide)).trans (by decide : stem "Segment_" = "Segment".toList)
  | emptyIntersection wd =>
    exact (stem_append _ _ (by decide)).trans (by decide : stem "EmptyIntersection_" = "EmptyIntersection".toList)
  | _ => decide

/-- The class without the dimension. -/
def classNumber : GeometryClass → Fin 19
  | .point _ => 0 | .vector _ => 1 | .direction _ => 2 | .line _ => 3 | .segment _ => 4
  | .emptyIntersection _ => 5 | .plane => 6 | .triangle => 7 | .quadrilateral => 8 | .polygon => 9
  | .ellipse => 10 | .circle => 11 | .ellipseArc => 12 | .disk => 13 | .cylinderSurface => 14
  | .sphere => 15 | .box => 16 | .cylinder => 17 | .hollowCylinder => 18

/-- The stems by kinds. -/
def stemTable : List String :=
  ["Point", "Vector", "Direction", "Line", "Segment", "EmptyIntersection", "Plane", "Triangle",
   "Quadrilateral", "Polygon", "Ellipse", "Circle", "EllipseArc", "Disk", "CylinderSurface", "Sphere",
   "Box", "Cylinder", "HollowCylinder"]

theorem stemOf_kind (c : GeometryClass) : stemTable[(classNumber c).1]? = some (stemOf c) := by
  cases c <;> rfl

theorem kind_of_stem {c d : GeometryClass} (h : stemOf c = stemOf d) : classNumber c = classNumber d := by
  have hn : stemTable.Nodup := by decide
  have h1 := stemOf_kind c
  have h2 := stemOf_kind d
  rw [← h] at h2
  have hlt : (classNumber c).1 < stemTable.length := (classNumber c).2
  exact Fin.ext ((List.getElem?_inj hlt hn).1 (h1.trans h2.symm))

theorem append_cancel {a b c : String} (h : a ++ b = a ++ c) : b = c := by
  apply String.toList_inj.1
  have := congrArg String.toList h
  simpa using this

theorem append_cancel_right {a b c : String} (h : a ++ c = b ++ c) : a = b := by
  apply String.toList_inj.1
  have := congrArg String.toList h
  simpa using this

/-- Two classes have the same name only if they are the same class in the same dimension. -/
theorem C146_names (c d : GeometryClass) : c.name = d.name ↔ c = d := by
  constructor
  · intro h
    have hs : stemOf c = stemOf d := by
      apply String.toList_inj.1
      rw [← stem_name, ← stem_name, h]
    have hk := kind_of_stem hs
    cases c <;> cases d <;> simp [classNumber] at hk <;> try rfl
    · exact congrArg GeometryClass.point (repr_injective (append_cancel (append_cancel_right h)))
    · exact congrArg GeometryClass.vector (repr_injective (append_cancel (append_cancel_right h)))
    · exact congrArg GeometryClass.direction (repr_injective (append_cancel (append_cancel_right h)))
    · exact congrArg GeometryClass.line (repr_injective (append_cancel (append_cancel_right h)))
    · exact congrArg GeometryClass.segment (repr_injective (append_cancel (append_cancel_right h)))
    · exact congrArg GeometryClass.emptyIntersection (repr_injective (append_cancel h))
  · rintro rfl
    rfl

example : (GeometryClass.point 3).name = "Point_3d" ∧ (GeometryClass.emptyIntersection 3).name = "EmptyIntersection_3" ∧
    (GeometryClass.direction 1).name = "Direction_1d" := by decide

/-- The property in full: for every object and every target `assign` does what is expected. -/
def C146_full : Prop :=
  ∀ (V : Type) (g target : GeometryObject V), Assigned g target (assign (some g) target)

/-- A disk with coordinates of type `float` behind the pointer and a target with coordinates of type
`double`: the names agree, the cast gives a null pointer and it is dereferenced. -/
theorem C146_disproof : ¬ C146_full := by
  intro h
  rcases h Unit ⟨⟨.disk, .float⟩, ()⟩ ⟨⟨.disk, .double⟩, ()⟩ with ⟨h1, _⟩ | ⟨_, h2⟩
  · exact absurd h1 (by decide)
  · have : (assign (some (⟨⟨.disk, .float⟩, ()⟩ : GeometryObject Unit)) ⟨⟨.disk, .double⟩, ()⟩).1 = .ub := by
      decide
    rw [h2] at this
    exact absurd this (by decide)

/-- `assign` does what is expected for all objects and targets with the same coordinate type.  (Missing:
objects and targets of the same class with different coordinate types.) -/
theorem C146_assign_partial {V : Type} (g target : GeometryObject V) (h : g.type.ctype = target.type.ctype) :
    Assigned g target (assign (some g) target) := by
  obtain ⟨⟨c, t⟩, v⟩ := g
  obtain ⟨⟨d, t'⟩, w⟩ := target
  dsimp only at h
  subst h
  unfold assign Assigned
  dsimp only [GeometryType.name]
  by_cases hcd : c = d
  · subst hcd
    left
    simp [castable]
  · right
    have hn : d.name ≠ c.name := fun hh => hcd ((C146_names _ _).1 hh.symm)
    refine ⟨fun hh => hcd (congrArg GeometryType.cls hh), ?_⟩
    simp only [hn, if_false]

/-- The call is undefined exactly for null pointers and for objects of the class of the target with
another coordinate type; in all other cases the result is as expected. -/
theorem C146_undefined_partial {V : Type} (ptr : Option (GeometryObject V)) (target : GeometryObject V) :
    (assign ptr target).1 = .ub ↔
      ptr = none ∨ ∃ g, ptr = some g ∧ g.type.cls = target.type.cls ∧ g.type.ctype ≠ target.type.ctype := by
  cases ptr with
  | none => simp [assign]
  | some g =>
    obtain ⟨⟨c, t⟩, v⟩ := g
    obtain ⟨⟨d, t'⟩, w⟩ := target
    unfold assign
    dsimp only [GeometryType.name]
    by_cases hcd : c = d
    · subst hcd
      simp only [if_true]
      by_cases ht : t = t'
      · subst ht
        simp [castable]
      · have : ¬ (c = .ellipseArc ∧ c = .ellipse) := by
          rintro ⟨rfl, h⟩
          exact absurd h (by decide)
        have hc : castable ⟨c, t⟩ ⟨c, t'⟩ = false := by
          simp [castable, ht]
        simp [hc, ht]
    · have hn : d.name ≠ c.name := fun hh => hcd ((C146_names _ _).1 hh.symm)
      simp [hn, hcd]

/-- The other calls do what is expected. -/
theorem C146_defined_partial {V : Type} (g target : GeometryObject V)
    (h : (assign (some g) target).1 ≠ .ub) : Assigned g target (assign (some g) target) := by
  by_cases hc : g.type.ctype = target.type.ctype
  · exact C146_assign_partial g target hc
  · have hcls : g.type.cls ≠ target.type.cls := fun hh =>
      h ((C146_undefined_partial _ _).2 (Or.inr ⟨g, rfl, hh, hc⟩))
    right
    refine ⟨fun hh => hc (by rw [hh]), ?_⟩
    unfold assign
    have hn : target.type.name ≠ g.type.name := fun hh => hcls ((C146_names _ _).1 hh).symm
    simp [hn]

/-- A sequence of attempts to read an object behind a pointer, one type after the other: for types with
the coordinate type of the object, exactly the attempt with its own type succeeds. -/
theorem C146_attempts_partial {V : Type} (g : GeometryObject V) (targets : List (GeometryObject V))
    (h : ∀ t ∈ targets, t.type.ctype = g.type.ctype) :
    (targets.map fun t => (assign (some g) t).1) =
      targets.map fun t => .val (decide (t.type = g.type)) := by
  apply List.map_congr_left
  intro t ht
  rcases C146_assign_partial g t (h t ht).symm with ⟨h1, h2⟩ | ⟨h1, h2⟩
  · rw [h2]; simp [h1]
  · rw [h2]; simp [Ne.symm h1]

/-- Sets of entities of types with one coordinate type: an entity behind a pointer is added like an
entity of its type, or refused if its type is none of those of the set. -/
theorem C146_sets_partial {E : Type} (s : EntitySets GeometryType E) (types : List GeometryType)
    (k : GeometryType) (e : E) (id : ℕ) (h : ∀ t ∈ types, t.ctype = k.ctype) :
    s.addPointer GeometryType.name types k e id =
      if k ∈ types then s.addEntity GeometryType.name k e id
      else (.thrown "Could not add entity from abstract base class", s) := by
  unfold EntitySets.addPointer
  have key : ∀ t ∈ types, t.name = k.name → t = k := by
    intro t ht hn
    have h1 := (C146_names _ _).1 hn
    have h2 := h t ht
    cases t; cases k
    simp_all
  cases hf : types.find? (fun t => t.name = k.name) with
  | none =>
    have hk : k ∉ types := fun hk => by simpa using List.find?_eq_none.1 hf k hk
    rw [if_neg hk]
  | some t =>
    have ht := List.mem_of_find?_eq_some hf
    have hn : t.name = k.name := by simpa using List.find?_some hf
    obtain rfl := key t ht hn
    simp [ht]

/-- With two coordinate types in the same set the call is undefined for entities of the second type. -/
theorem C146_sets_undefined {E : Type} (s : EntitySets GeometryType E) (c : GeometryClass)
    (t t' : CoordinateType) (rest : List GeometryType) (e : E) (id : ℕ) (h : t ≠ t') :
    s.addPointer GeometryType.name (⟨c, t⟩ :: ⟨c, t'⟩ :: rest) ⟨c, t'⟩ e id = (.ub, s) := by
  unfold EntitySets.addPointer
  simp [GeometryType.name, h]

example : (assign (some (⟨⟨.ellipseArc, .double⟩, 3⟩ : GeometryObject ℕ)) ⟨⟨.ellipse, .double⟩, 5⟩).1 = .val false ∧
    (assign (some (⟨⟨.disk, .double⟩, 3⟩ : GeometryObject ℕ)) ⟨⟨.disk, .double⟩, 5⟩) = (.val true, ⟨⟨.disk, .double⟩, 3⟩) := by
  constructor
  · decide
  · rfl

/-! ## Empty intersections -/

theorem digits_no_E (n : ℕ) : 'E' ∉ n.repr.toList := by
  rw [Nat.toList_repr]
  intro h
  have := Nat.isDigit_of_mem_toDigits (by decide) (by decide) h
  exact absurd this (by decide)

theorem no_E (a : String) (n : ℕ) (h : 'E' ∉ a.toList) : 'E' ∉ (a ++ n.repr ++ "d").toList := by
  rw [String.toList_append, String.toList_append]
  intro hm
  rcases List.mem_append.1 hm with hm | hm
  · rcases List.mem_append.1 hm with hm | hm
    · exact h hm
    · exact digits_no_E n hm
  · exact absurd hm (by decide)

/-- The test of the names in Python finds exactly the empty intersections among all objects with a name. -/
theorem C147_python (c : PythonClass) :
    pythonSaysEmpty c = true ↔ ∃ wd, c = .geometry (.emptyIntersection wd) := by
  refine Iff.trans (b := "Empty".toList <:+: c.name.toList) (@decide_eq_true_iff _ (_)) ?_
  cases c with
  | compound => exact ⟨fun h => absurd h (by decide), fun ⟨_, h⟩ => nomatch h⟩
  | wrapper s => 
    refine ⟨fun h => absurd h ?_, fun ⟨_, h⟩ => nomatch h⟩
    cases s <;> decide
  | geometry g =>
    constructor
    · intro h
      have hE : 'E' ∈ g.name.toList := h.subset (by decide)
      cases g with
      | emptyIntersection wd => exact ⟨wd, rfl⟩
      | point wd => exact absurd hE (no_E "Point_" wd (by decide))
      | vector wd => exact absurd hE (no_E "Vector_" wd (by decide))
      | direction wd => exact absurd hE (no_E "Direction_" wd (by decide))
      | line wd => exact absurd hE (no_E "Line_" wd (by decide))
      | segment wd => exact absurd hE (no_E "Segment_" wd (by decide))
      | ellipse => exact absurd h (by decide)
      | ellipseArc => exact absurd h (by decide)
      | _ => exact absurd hE (by decide)
    · rintro ⟨wd, h⟩
      obtain rfl : g = .emptyIntersection wd := PythonClass.geometry.inj h
      refine ⟨[], "Intersection_".toList ++ wd.repr.toList, ?_⟩
      change _ = ("EmptyIntersection_" ++ wd.repr).toList
      rw [String.toList_append]
      rw [show "EmptyIntersection_".toList = "Empty".toList ++ "Intersection_".toList by decide]
      rw [List.nil_append, List.append_assoc]

/-- The property in full: an intersection is recognised as empty exactly if all of its parts are empty
intersections. -/
def C147_full : Prop :=
  ∀ is : List GeometryType, isEmptyTypes is = true ↔ ∀ t ∈ is, IsEmptyClass t.cls

/-- The empty intersection of geometries with coordinates of type `float` is not recognised. -/
theorem C147_disproof : ¬ C147_full := by
  intro h
  have := (h [⟨.emptyIntersection 3, .float⟩]).2 (by simp [IsEmptyClass])
  exact absurd this (by decide)

/-- With coordinates of type `double` the property holds.  (Missing: the other coordinate types.) -/
theorem C147_double_partial (is : List GeometryType) (h : ∀ t ∈ is, t.ctype = .double) :
    isEmptyTypes is = true ↔ ∀ t ∈ is, IsEmptyClass t.cls := by
  unfold isEmptyTypes
  rw [List.all_eq_true]
  refine forall₂_congr fun t ht => ?_
  have := h t ht
  obtain ⟨c, k⟩ := t
  cases c <;> simp_all [isEmptyType, IsEmptyClass]

/-- What is recognised as empty is empty, with every coordinate type. -/
theorem C147_sound (is : List GeometryType) (h : isEmptyTypes is = true) : ∀ t ∈ is, IsEmptyClass t.cls := by
  unfold isEmptyTypes at h
  rw [List.all_eq_true] at h
  intro t ht
  have := h t ht
  obtain ⟨c, k⟩ := t
  cases c <;> simp_all [isEmptyType, IsEmptyClass]

/-- The tests in C++ and in Python agree on the results of the Python package, whose coordinates have type
`double`. -/
theorem C147_agree (is : List GeometryClass) :
    pythonSaysAllEmpty (is.map .geometry) = isEmptyTypes (is.map (⟨·, .double⟩)) := by
  rw [Bool.eq_iff_iff, C147_double_partial _ (by simp)]
  unfold pythonSaysAllEmpty
  simp [C147_python, IsEmptyClass]

example : pythonSaysAllEmpty [.geometry (.emptyIntersection 3)] = true ∧
    pythonSaysAllEmpty [.geometry (.emptyIntersection 3), .geometry .ellipseArc] = false := by
  constructor
  · simp [pythonSaysAllEmpty, C147_python]
  · rw [Bool.eq_false_iff]
    simp [pythonSaysAllEmpty, C147_python]

/-! ## Samplers by names -/

/-- The names of the three classes with a sampler of points are those of no other class. -/
theorem python_name_eq (c : PythonClass) (d : GeometryClass)
    (hd : d = .box ∨ d = .cylinder ∨ d = .hollowCylinder) : c.name = d.name ↔ c = .geometry d := by
  cases c with
  | geometry g => simp [PythonClass.name, C146_names]
  | wrapper s =>
    refine ⟨fun h => absurd h ?_, fun h => nomatch h⟩
    rcases hd with rfl | rfl | rfl <;> cases s <;> decide
  | compound =>
    refine ⟨fun h => absurd h ?_, fun h => nomatch h⟩
    rcases hd with rfl | rfl | rfl <;> decide

/-- `makePointSampler` in Python chooses the sampler of the class of its argument and raises an error for
every other class. -/
theorem C146_point_sampler (c : PythonClass) :
    (pythonPointSampler c = .val .box ↔ c = .geometry .box) ∧
    (pythonPointSampler c = .val .cylinder ↔ c = .geometry .cylinder) ∧
    (pythonPointSampler c = .val .cylinderShell ↔ c = .geometry .hollowCylinder) ∧
    ((pythonPointSampler c).isThrown ↔
      c ≠ .geometry .box ∧ c ≠ .geometry .cylinder ∧ c ≠ .geometry .hollowCylinder) := by
  have h1 := python_name_eq c .box (by simp)
  have h2 := python_name_eq c .cylinder (by simp)
  have h3 := python_name_eq c .hollowCylinder (by simp)
  unfold pythonPointSampler
  change (c.name = "Box" ↔ _) at h1
  change (c.name = "Cylinder" ↔ _) at h2
  change (c.name = "HollowCylinder" ↔ _) at h3
  by_cases hb : c = .geometry .box
  · rw [if_pos (h1.2 hb)]; subst hb; simp [Outcome.isThrown]
  rw [if_neg (fun h => hb (h1.1 h))]
  by_cases hc : c = .geometry .cylinder
  · rw [if_pos (h2.2 hc)]; subst hc; simp [Outcome.isThrown]
  rw [if_neg (fun h => hc (h2.1 h))]
  by_cases hh : c = .geometry .hollowCylinder
  · rw [if_pos (h3.2 hh)]; subst hh; simp [Outcome.isThrown]
  rw [if_neg (fun h => hh (h3.1 h))]
  simp [Outcome.isThrown, hb, hc, hh]

end Props
