import Verif.Spec.Contained
import Verif.Spec.Planar
import Verif.Spec.Solids
import Verif.Spec.Box
import Mathlib.Analysis.Convex.StdSimplex
import Mathlib.MeasureTheory.Constructions.BorelSpace.Basic
import Mathlib.MeasureTheory.Constructions.Pi

/-!
# Measures of parts, and Borel sets of points
-/

namespace Lemmas
open Verif MeasureTheory Spec

theorem Parts.sum_aux {X : Type} [MeasureSpace X] {φ : X → V3} :
    ∀ (parts : List (Set V3)), (∀ P ∈ parts, MeasurableSet (φ ⁻¹' P)) →
      (parts.Pairwise fun P Q => volume (φ ⁻¹' (P ∩ Q)) = 0) →
      volume (φ ⁻¹' {p | ∃ P ∈ parts, p ∈ P}) = (parts.map fun P => volume (φ ⁻¹' P)).sum ∧
      MeasurableSet (φ ⁻¹' {p | ∃ P ∈ parts, p ∈ P})
  | [], _, _ => by simp
  | P :: t, hm, hp => by
    obtain ⟨h1, h2⟩ := Parts.sum_aux t (fun Q hQ => hm Q (.tail _ hQ)) hp.of_cons
    have e : φ ⁻¹' {p | ∃ Q ∈ P :: t, p ∈ Q} = φ ⁻¹' P ∪ φ ⁻¹' {p | ∃ Q ∈ t, p ∈ Q} := by
      ext x; simp
    have hP := hm P (.head _)
    refine ⟨?_, by rw [e]; exact hP.union h2⟩
    rw [e, measure_union₀ h2.nullMeasurableSet, h1]
    · simp
    · have hcov : φ ⁻¹' P ∩ φ ⁻¹' {p | ∃ Q ∈ t, p ∈ Q} ⊆ ⋃ Q ∈ {Q | Q ∈ t}, φ ⁻¹' (P ∩ Q) := by
        rintro x ⟨hx, Q, hQ, hxQ⟩
        exact Set.mem_iUnion₂.2 ⟨Q, hQ, hx, hxQ⟩
      refine measure_mono_null hcov ?_
      rw [measure_biUnion_null_iff (List.finite_toSet t).countable]
      intro Q hQ
      exact List.rel_of_pairwise_cons hp hQ

/-- The measure of the whole is the sum of the measures of the parts. -/
theorem Parts.sum {X : Type} [MeasureSpace X] {φ : X → V3} {S : Set V3} {parts : List (Set V3)}
    (h : Parts φ S parts) (hφ : ∀ P, Borel P → MeasurableSet (φ ⁻¹' P)) :
    volume (φ ⁻¹' S) = (parts.map fun P => volume (φ ⁻¹' P)).sum := by
  obtain ⟨h1, h2⟩ := Parts.sum_aux parts (fun P hP => hφ P (h.borel P hP)) h.apart
  rw [← h1]
  have e : φ ⁻¹' S = φ ⁻¹' {p | ∃ P ∈ parts, p ∈ P} ∪ φ ⁻¹' {p | p ∈ S ∧ ∀ P ∈ parts, p ∉ P} := by
    ext x
    constructor
    · intro hx
      by_cases hc : ∃ P ∈ parts, φ x ∈ P
      · exact .inl hc
      · push Not at hc; exact .inr ⟨hx, hc⟩
    · rintro (⟨P, hP, hx⟩ | ⟨hx, _⟩)
      · exact h.inside P hP hx
      · exact hx
  rw [e]
  exact le_antisymm ((measure_union_le _ _).trans (by rw [h.whole, add_zero])) (measure_mono Set.subset_union_left)

/-- A measurable map into space, given by its coordinates. -/
theorem borel_preimage {X : Type} [MeasureSpace X] {φ : X → V3} (hx : Measurable fun w => (φ w).x)
    (hy : Measurable fun w => (φ w).y) (hz : Measurable fun w => (φ w).z) {P : Set V3} (hP : Borel P) :
    MeasurableSet (φ ⁻¹' P) := by
  have hm : Measurable fun w => (![(φ w).x, (φ w).y, (φ w).z] : Fin 3 → ℝ) := by
    rw [measurable_pi_iff]
    intro i
    fin_cases i
    · exact hx
    · exact hy
    · exact hz
  exact hm hP

theorem borel_plane (c u v : V3) (P : Set V3) (hP : Borel P) : MeasurableSet (planePoint c u v ⁻¹' P) := by
  refine borel_preimage ?_ ?_ ?_ hP <;> simp only [planePoint, localPoint] <;> fun_prop

theorem borel_line (a b : V3) (P : Set V3) (hP : Borel P) : MeasurableSet (linePoint a b ⁻¹' P) := by
  refine borel_preimage ?_ ?_ ?_ hP <;> simp only [linePoint] <;> fun_prop

theorem borel_inter {P Q : Set V3} (hP : Borel P) (hQ : Borel Q) : Borel (P ∩ Q) := by
  unfold Borel at *
  exact hP.inter hQ

/-- Sets whose coordinates form a closed set. -/
theorem borel_of_closed {S : Set V3} (h : IsClosed {w : Fin 3 → ℝ | (⟨w 0, w 1, w 2⟩ : V3) ∈ S}) : Borel S :=
  h.measurableSet

theorem borel_box (lo hi : V3) : Borel {p | InBox lo hi p} := by
  apply borel_of_closed
  simp only [InBox, Set.ofPred_and]
  refine .inter (isClosed_le ?_ ?_) (.inter (isClosed_le ?_ ?_) (.inter (isClosed_le ?_ ?_)
    (.inter (isClosed_le ?_ ?_) (.inter (isClosed_le ?_ ?_) (isClosed_le ?_ ?_))))) <;> fun_prop

theorem borel_ball (c : V3) (r : ℝ) : Borel {p | InBall c r p} := by
  apply borel_of_closed
  simp only [Set.mem_ofPred_eq, InBall, Spec.dist]
  refine isClosed_le ?_ ?_ <;> fun_prop

theorem borel_cylinder (c n : V3) (r h : ℝ) : Borel {p | InCylinder c n r h p} := by
  apply borel_of_closed
  simp only [Set.mem_ofPred_eq, InCylinder, axial, radial, Spec.dist, Set.ofPred_and]
  refine .inter (isClosed_le ?_ ?_) (.inter (isClosed_le ?_ ?_) (isClosed_le ?_ ?_)) <;> fun_prop

theorem borel_lateral (c n : V3) (r h : ℝ) : Borel {p | OnLateral c n r h p} := by
  apply borel_of_closed
  simp only [Set.mem_ofPred_eq, OnLateral, axial, radial, Spec.dist, Set.ofPred_and]
  refine .inter (isClosed_le ?_ ?_) (.inter (isClosed_le ?_ ?_) (isClosed_eq ?_ ?_)) <;> fun_prop

/-- Images of compact sets under continuous maps. -/
theorem borel_image {X : Type} [TopologicalSpace X] {φ : X → V3} (hx : Continuous fun w => (φ w).x)
    (hy : Continuous fun w => (φ w).y) (hz : Continuous fun w => (φ w).z) {C : Set X} (hC : IsCompact C)
    {S : Set V3} (hS : S = φ '' C) : Borel S := by
  apply borel_of_closed
  have hm : Continuous fun w => (![(φ w).x, (φ w).y, (φ w).z] : Fin 3 → ℝ) := by
    rw [continuous_pi_iff]
    intro i
    fin_cases i
    · exact hx
    · exact hy
    · exact hz
  have := (hC.image hm).isClosed
  convert this using 1
  subst hS
  ext w
  constructor
  · rintro ⟨x, hx, he⟩
    refine ⟨x, hx, ?_⟩
    funext i
    have e0 : (φ x).x = w 0 := by rw [he]
    have e1 : (φ x).y = w 1 := by rw [he]
    have e2 : (φ x).z = w 2 := by rw [he]
    fin_cases i
    · exact e0
    · exact e1
    · exact e2
  · rintro ⟨x, hx, rfl⟩
    exact ⟨x, hx, rfl⟩

theorem borel_segment (a b : V3) : Borel {p | OnSegment a b p} := by
  refine borel_image (φ := linePoint a b) (C := Set.Icc 0 1) ?_ ?_ ?_ isCompact_Icc ?_
  · simp only [linePoint]; fun_prop
  · simp only [linePoint]; fun_prop
  · simp only [linePoint]; fun_prop
  · ext p
    constructor
    · rintro ⟨t, h0, h1, hx, hy, hz⟩
      exact ⟨t, ⟨h0, h1⟩, (V3.ext hx hy hz).symm⟩
    · rintro ⟨t, ⟨h0, h1⟩, rfl⟩
      exact ⟨t, h0, h1, rfl, rfl, rfl⟩

theorem borel_disk (c u v : V3) {a b : ℝ} (ha : 0 < a) (hb : 0 < b) : Borel {p | InDisk c u v a b p} := by
  have hC : IsCompact {w : ℝ × ℝ | (w.1 / a) ^ 2 + (w.2 / b) ^ 2 ≤ 1} := by
    have hcl : IsClosed {w : ℝ × ℝ | (w.1 / a) ^ 2 + (w.2 / b) ^ 2 ≤ 1} := by
      refine isClosed_le ?_ ?_ <;> fun_prop
    refine IsCompact.of_isClosed_subset ((isCompact_Icc (a := -a) (b := a)).prod (isCompact_Icc (a := -b) (b := b)))
      hcl ?_
    rintro ⟨x, y⟩ h
    simp only [Set.mem_ofPred_eq] at h
    have hx := abs_le_of_sq_le_sq' (a := x / a) (b := 1) (by nlinarith [sq_nonneg (y / b)]) (by norm_num)
    have hy := abs_le_of_sq_le_sq' (a := y / b) (b := 1) (by nlinarith [sq_nonneg (x / a)]) (by norm_num)
    rw [le_div_iff₀ ha, div_le_iff₀ ha] at hx
    rw [le_div_iff₀ hb, div_le_iff₀ hb] at hy
    exact ⟨⟨by linarith, by linarith⟩, by linarith, by linarith⟩
  refine borel_image (φ := fun w : ℝ × ℝ => localPoint c u v w.1 w.2) ?_ ?_ ?_ hC ?_
  · simp only [localPoint]; fun_prop
  · simp only [localPoint]; fun_prop
  · simp only [localPoint]; fun_prop
  · ext p
    constructor
    · rintro ⟨x, y, h, rfl⟩; exact ⟨(x, y), h, rfl⟩
    · rintro ⟨⟨x, y⟩, h, rfl⟩; exact ⟨x, y, h, rfl⟩

theorem sum_ofFn_zip (cs : List V3) (f : V3 → ℝ) (w : Fin cs.length → ℝ) :
    (List.zipWith (fun r c => r * f c) (List.ofFn w) cs).sum = ∑ i, w i * f cs[i] := by
  induction cs with
  | nil => simp
  | cons c t ih =>
    simp only [List.length_cons, List.ofFn_succ, List.zipWith_cons_cons, List.sum_cons, Fin.sum_univ_succ]
    rw [ih]
    rfl

theorem borel_hull (cs : List V3) : Borel {p | InHull cs p} := by
  refine borel_image (φ := fun w : Fin cs.length → ℝ =>
    (⟨∑ i, w i * cs[i].x, ∑ i, w i * cs[i].y, ∑ i, w i * cs[i].z⟩ : V3)) ?_ ?_ ?_
    (isCompact_stdSimplex ℝ (Fin cs.length)) ?_
  · fun_prop
  · fun_prop
  · fun_prop
  · ext p
    constructor
    · rintro ⟨w, hl, hw, hs, hx, hy, hz⟩
      refine ⟨fun i => w[i.val]'(by omega), ⟨fun i => hw _ (List.getElem_mem _), ?_⟩, ?_⟩
      · rw [← List.sum_ofFn]
        have : List.ofFn (fun i : Fin cs.length => w[i.val]'(by omega)) = w := by
          apply List.ext_getElem <;> simp [hl]
        rw [this, hs]
      · have : List.ofFn (fun i : Fin cs.length => w[i.val]'(by omega)) = w := by
          apply List.ext_getElem <;> simp [hl]
        apply V3.ext
        · simp only; rw [← sum_ofFn_zip cs V3.x, this, hx]
        · simp only; rw [← sum_ofFn_zip cs V3.y, this, hy]
        · simp only; rw [← sum_ofFn_zip cs V3.z, this, hz]
    · rintro ⟨w, ⟨hw, hs⟩, rfl⟩
      refine ⟨List.ofFn w, by simp, ?_, ?_, ?_, ?_, ?_⟩
      · intro r hr
        obtain ⟨i, rfl⟩ := List.mem_ofFn.1 hr
        exact hw i
      · rw [List.sum_ofFn]; exact hs
      · exact (sum_ofFn_zip cs V3.x w).symm
      · exact (sum_ofFn_zip cs V3.y w).symm
      · exact (sum_ofFn_zip cs V3.z w).symm

end Lemmas
