import Verif.Model.Sampling.QuadSamplerPy
import Verif.Props.PolygonSamplerPy
import Verif.Props.DeprecatedQuadSampler

/-!
# Quadrilateral sampler of the Python module

The constructor accepts the arguments of the present and of the deprecated algorithm.
-/

namespace Props
open Verif Frackit

/-- The quadrilateral has the sampled plane, position and dimensions. -/
def QuadAsSampled (d : PolygonDraws) (strikeLength dipLength : ℝ) (q : Quadrilateral) : Prop :=
  let cs := [q.p0, q.p1, q.p3, q.p2]
  (∀ p ∈ cs, Spec.PlanarPolygon (Spec.dipNormal d.strikeAngle d.dipAngle) p cs) ∧
  Spec.BoxCenter cs d.center ∧
  (∃ lo hi, Spec.Extent (Spec.inner (Spec.dipDir d.strikeAngle d.dipAngle)) cs lo hi ∧ hi - lo ≤ dipLength) ∧
  (∃ lo hi, Spec.Extent (Spec.inner (Spec.strikeDir d.strikeAngle)) cs lo hi ∧ hi - lo ≤ strikeLength)

/-- Full property C123: a sampler made with a callable as last argument returns quadrilaterals of the present
algorithm; the dimensions are the first non-negative strike length and the first value of the callable. -/
def C123_full : Prop :=
  ∀ (sort : List V3 → List V3), SortsBy edgeAnglePy sort →
    ∀ (d : PolygonDraws) (raises : Bool) (dip : Draws ℝ) (j fuel : ℕ), UnitDraws d.interval → j < 100 →
      Spec.IsFirst (0 ≤ ·) d.strikeLength j → (∀ k, 0 ≤ dip k) → 0 < fuel →
        ∃ q, (QuadSamplerPy.init (.callable raises dip)).call sort fuel d = some (.val q) ∧
          QuadAsSampled d (d.strikeLength j) (dip 0) q

theorem four_first : Spec.IsFirst (3 ≤ ·) (fun _ : ℕ => (4 : ℤ)) 0 := ⟨by norm_num, by intro k hk; omega⟩

/-- C123 (partial): if the first call of the callable does not raise an exception, the quadrilateral has the
sampled plane, position and dimensions, where the dip length is the second value of the callable.  Missing:
callables whose first call raises an exception; the first value is lost. -/
theorem C123_callable_partial (sort : List V3 → List V3) (hs : SortsBy edgeAnglePy sort) (d : PolygonDraws)
    (dip : Draws ℝ) (j fuel : ℕ) (hu : UnitDraws d.interval) (hj : j < 100)
    (hg : Spec.IsFirst (0 ≤ ·) d.strikeLength j) (hd : 0 ≤ dip 1) (hf : 0 < fuel) :
    ∃ q, (QuadSamplerPy.init (.callable false dip)).call sort fuel d = some (.val q) ∧
      QuadAsSampled d (d.strikeLength j) (dip 1) q := by
  obtain ⟨cs, hcs⟩ := C27_python_returns sort hs
    { d with corners := fun _ => 4, dipLength := dip.drop 1 } hu 4 fuel 0 j four_first rfl (by norm_num) hf hj hg
  obtain ⟨hl, h1, h2, h3, h4, _⟩ := C27_python_partial sort hs
    { d with corners := fun _ => 4, dipLength := dip.drop 1 } hu 4 fuel 0 j four_first rfl hf hj hg hd cs hcs
  match cs, hl with
  | [c0, c1, c2, c3], _ =>
    refine ⟨Quadrilateral.make c0 c1 c3 c2, ?_, h1, h2, h3, h4⟩
    simp only [QuadSamplerPy.init, QuadSamplerPy.call, hcs]
    rfl

/-- C123: the first value of the callable has no influence on any quadrilateral. -/
theorem C123_first_value_lost (sort : List V3 → List V3) (fuel : ℕ) (d : PolygonDraws) (dip dip' : Draws ℝ)
    (h : ∀ k, dip (k + 1) = dip' (k + 1)) :
    (QuadSamplerPy.init (.callable false dip)).call sort fuel d =
      (QuadSamplerPy.init (.callable false dip')).call sort fuel d := by
  have : dip.drop 1 = dip'.drop 1 := funext h
  simp only [QuadSamplerPy.init, this]

/-- C123: after an exception in the first call of the callable, the deprecated algorithm is selected and every
call of the sampler fails. -/
theorem C123_exception (sort : List V3 → List V3) (fuel : ℕ) (d : PolygonDraws) (dip : Draws ℝ) :
    (QuadSamplerPy.init (.callable true dip)).call sort fuel d = some (.thrown "TypeError") := rfl

/-- C123: whatever callable is given, the call ends with a quadrilateral or an exception. -/
theorem C123_outcome (sort : List V3 → List V3) (d : PolygonDraws) (hu : UnitDraws d.interval) (raises : Bool)
    (dip : Draws ℝ) (fuel : ℕ) (hf : 0 < fuel) :
    ∃ r, (QuadSamplerPy.init (.callable raises dip)).call sort fuel d = some r ∧ (r.isVal ∨ r.isThrown) := by
  cases raises with
  | true => exact ⟨_, rfl, .inr trivial⟩
  | false =>
    simp only [QuadSamplerPy.init, QuadSamplerPy.call]
    rcases C28_python_outcome sort { d with corners := fun _ => 4, dipLength := dip.drop 1 } hu 4 fuel 0
      four_first rfl hf with ⟨e, he⟩ | ⟨cs, hcs⟩
    · rw [he]; exact ⟨_, rfl, .inr trivial⟩
    · rw [hcs]
      refine ⟨_, rfl, ?_⟩
      rw [Outcome.val_bind]
      split
      · exact .inl trivial
      · exact .inr trivial

/-- The code violates the full property: an exception in the first call of the callable. -/
theorem C123_disproof : ¬ C123_full := by
  intro h
  have hs : SortsBy edgeAnglePy stableSort := by
    have : edgeAnglePy = edgeAngle := funext edgeAnglePy_eq
    rw [this]
    exact stableSort_sorts
  obtain ⟨q, hq, _⟩ := h stableSort hs (drawsWith (fun _ => 4) (fun _ => 1) (fun _ => 1)) true (fun _ => 1) 0 1
    (drawsWith_unit _ _ _) (by norm_num) ⟨by simp [drawsWith], by intro k hk; omega⟩ (by simp) (by norm_num)
  rw [C123_exception] at hq
  cases hq

/-- C123: with a number as last argument, and without one, the sampler is the deprecated one with that minimum
edge length (or the tolerance): if the edge length sampler returns admissible values again and again, a call
returns a quadrilateral, and no edge of a returned quadrilateral is shorter. -/
theorem C123_number (sort : List V3 → List V3) (d : PolygonDraws) (m : ℝ) :
    ((∀ n, ∃ k, n ≤ k ∧ m ≤ d.strikeLength k) →
      ∃ fuel q, (QuadSamplerPy.init (.number m)).call sort fuel d = some (.val q)) ∧
    (∀ fuel r, (QuadSamplerPy.init (.number m)).call sort fuel d = some r →
      ∃ q, r = .val q ∧ ∀ e ∈ quadEdges q, m ≤ Spec.dist e.1 e.2) ∧
    QuadSamplerPy.initDefault = QuadSamplerPy.init (.number (1 / 10 ^ 7)) := by
  refine ⟨?_, ?_, ?_⟩
  · intro h
    obtain ⟨fuel, q, hq, _⟩ := C29_python m
      ⟨fun _ => d.center, fun _ => d.strikeAngle, fun _ => d.dipAngle, d.strikeLength⟩ h
    exact ⟨fuel, q, hq⟩
  · intro fuel r hr
    exact C29_python_edges m fuel _ r hr
  · unfold QuadSamplerPy.initDefault
    norm_num [confusion]

/-- The hypotheses can be met. -/
example : ∃ q, (QuadSamplerPy.init (.callable false (fun k => (k : ℝ)))).call stableSort 1
    (drawsWith (fun _ => 4) (fun _ => 2) (fun _ => 1)) = some (.val q) ∧
      QuadAsSampled (drawsWith (fun _ => 4) (fun _ => 2) (fun _ => 1)) 2 1 q := by
  have hs : SortsBy edgeAnglePy stableSort := by
    have : edgeAnglePy = edgeAngle := funext edgeAnglePy_eq
    rw [this]
    exact stableSort_sorts
  have := C123_callable_partial stableSort hs (drawsWith (fun _ => 4) (fun _ => 2) (fun _ => 1))
    (fun k => (k : ℝ)) 0 1 (drawsWith_unit _ _ _) (by norm_num)
    ⟨by simp [drawsWith], by intro k hk; omega⟩ (by simp) (by norm_num)
  simpa [drawsWith] using this

end Props
