import Verif.Model.Magnitude.PyMagnitude
import Verif.Props.PyDispatch
import Mathlib.Tactic.NormNum

/-!
# Lengths, areas and volumes in Python
-/

namespace Spec
open Verif Frackit

/-- The kinds of magnitudes. -/
inductive Magnitude where
  | length | area | volume

/-- What can be asked of an object: curves have a length, surfaces an area, solids a volume, and all other objects
none of them. -/
def magnitudeOf : PyGeo → Option Magnitude
  | .geometry (.point _) => none
  | .geometry (.segment _) => some .length
  | .geometry (.circle _) => some .length
  | .geometry (.ellipse _) => some .length
  | .geometry (.arc ..) => some .length
  | .geometry (.triangle _) => some .area
  | .geometry (.quadrilateral _) => some .area
  | .geometry (.polygon _) => some .area
  | .geometry (.disk _) => some .area
  | .geometry (.cylinderSurface _) => some .area
  | .geometry (.box _) => some .volume
  | .geometry (.sphere _) => some .volume
  | .geometry (.cylinder _) => some .volume
  | .geometry (.hollowCylinder _) => some .volume
  | .vector _ => some .length
  | .wrapper .edge _ => some .length
  | .wrapper .wire _ => some .length
  | .wrapper .face _ => some .area
  | .wrapper .shell _ => some .area
  | .wrapper .solid _ => some .volume
  | .wrapper .vertex _ => none
  | .wrapper .shape _ => none
  | .wrapper .compound _ => none
  | .unbounded _ => none
  | .other => none

end Spec

namespace Props
open Verif Frackit

/-! ## C85 Lengths, areas and volumes in Python -/

/-- The function of Python that is meant to compute a magnitude. -/
noncomputable def pyFunction : Spec.Magnitude → PyGeo → Outcome ℝ
  | .length => pyComputeLength
  | .area => pyComputeArea
  | .volume => pyComputeVolume

/-- A function whose kind of magnitude is not the one of the object raises `TypeError`. -/
theorem C85_rejects (k : Spec.Magnitude) (g : PyGeo) (h : Spec.magnitudeOf g ≠ some k) :
    pyFunction k g = .thrown "TypeError" := by
  cases g with
  | geometry g => cases g <;> cases k <;> first | rfl | exact absurd rfl h
  | vector v => cases k <;> first | rfl | exact absurd rfl h
  | wrapper w m => cases w <;> cases k <;> first | rfl | exact absurd rfl h
  | unbounded d =>
    cases k <;> simp only [pyFunction, pyComputeLength, pyComputeArea, pyComputeVolume, PyGeo.myDimension,
      pyComputeMagnitude] <;> split <;> rfl
  | other => cases k <;> rfl

/-- The value a function should return: the one of the C++ function for geometries, the length of vectors, and what
OpenCASCADE computes for shapes. -/
noncomputable def expectedMagnitude : PyGeo → Outcome ℝ
  | .geometry g => computeMagnitude g
  | .vector v => .val v.len
  | .wrapper _ m => .val m
  | _ => .ub

/-- Full claim: a function whose kind of magnitude is the one of the object returns the expected value. -/
def C85_full : Prop :=
  ∀ (k : Spec.Magnitude) (g : PyGeo), Spec.magnitudeOf g = some k → pyFunction k g = expectedMagnitude g

/-- The claim fails for arcs: the length of the whole ellipse is returned, here for a quarter of the unit circle of
length `π / 2`. -/
theorem C85_disproof : ¬ C85_full := by
  intro h
  obtain ⟨a, _, he, hn, _⟩ := quarter_arc
  have h := h .length (.geometry (.arc a (Real.pi / 2))) rfl
  have h1 : pyFunction .length (.geometry (.arc a (Real.pi / 2))) = computeMagnitude (.ellipse a.ellipse) := rfl
  rw [h1, he] at h
  simp only [expectedMagnitude, computeMagnitude, AnyGeometry.dimension, computeLength, if_neg hn, unitCircle] at h
  have := Outcome.val.inj h
  linarith [Real.pi_pos]

/-- For all objects but arcs the expected value is returned.  Missing: arcs, for which the length of the whole
ellipse is returned. -/
theorem C85_accepts_partial (k : Spec.Magnitude) (g : PyGeo) (h : Spec.magnitudeOf g = some k) :
    ((∀ a o, g ≠ .geometry (.arc a o)) → pyFunction k g = expectedMagnitude g) ∧
    (∀ a o, g = .geometry (.arc a o) → pyFunction k g = .val (Real.pi * (a.ellipse.majLen + a.ellipse.minLen))) := by
  constructor
  · intro hn
    cases g with
    | geometry g =>
      cases g <;> cases k <;> first | rfl | exact absurd rfl (hn _ _) | cases h
    | vector v => cases k <;> first | rfl | cases h
    | wrapper w m => cases w <;> cases k <;> first | rfl | cases h
    | unbounded d => cases h
    | other => cases h
  · rintro a o rfl
    cases k <;> first | rfl | cases h

/-- Not more than one of the three functions returns a value. -/
theorem C85_exclusive (k k' : Spec.Magnitude) (g : PyGeo) (m m' : ℝ) (h : pyFunction k g = .val m)
    (h' : pyFunction k' g = .val m') : k = k' ∧ m = m' := by
  have hk : Spec.magnitudeOf g = some k := by
    by_contra hn
    rw [C85_rejects k g hn] at h
    cases h
  have hk' : Spec.magnitudeOf g = some k' := by
    by_contra hn
    rw [C85_rejects k' g hn] at h'
    cases h'
  have : k = k' := Option.some.inj (hk.symm.trans hk')
  subst this
  rw [h] at h'
  exact ⟨rfl, Outcome.val.inj h'⟩

/-- Whatever the three functions return is also returned by `computeMagnitude`. -/
theorem C85_magnitude (g : PyGeo) (m : ℝ) :
    pyComputeMagnitude g = .val m ↔ ∃ k, pyFunction k g = .val m := by
  constructor
  · intro h
    cases g with
    | geometry g =>
      cases g <;> first | exact ⟨.length, h⟩ | exact ⟨.area, h⟩ | exact ⟨.volume, h⟩ | cases h
    | vector v => exact ⟨.length, h⟩
    | wrapper w x =>
      cases w <;> first | exact ⟨.length, h⟩ | exact ⟨.area, h⟩ | exact ⟨.volume, h⟩ | cases h
    | unbounded d => cases h
    | other => cases h
  · rintro ⟨k, h⟩
    have hk : Spec.magnitudeOf g = some k := by
      by_contra hn
      rw [C85_rejects k g hn] at h
      cases h
    cases g with
    | geometry g =>
      cases g <;> cases k <;> first | exact h | cases hk
    | vector v => cases k <;> first | exact h | cases hk
    | wrapper w x => cases w <;> cases k <;> first | exact h | cases hk
    | unbounded d => cases hk
    | other => cases hk

/-- The volume of the unit cube; it has no length and no area. -/
example : pyComputeVolume (.geometry (.box ⟨0, 1, 0, 1, 0, 1⟩)) = .val 1 ∧
    pyComputeLength (.geometry (.box ⟨0, 1, 0, 1, 0, 1⟩)) = .thrown "TypeError" ∧
    pyComputeArea (.geometry (.box ⟨0, 1, 0, 1, 0, 1⟩)) = .thrown "TypeError" := by
  refine ⟨?_, rfl, rfl⟩
  change Outcome.val (Box.volume ⟨0, 1, 0, 1, 0, 1⟩) = _
  norm_num [Box.volume]

end Props
