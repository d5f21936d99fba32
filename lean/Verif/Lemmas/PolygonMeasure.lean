import Verif.Lemmas.ConvexFan
import Verif.Lemmas.Measure

/-!
# Lebesgue measure of convex polygons
-/

namespace Lemmas
open Verif MeasureTheory

/-- Twice the signed area of the triangle with corners `i`, `j` and the point `w`. -/
def orientAt (x y : ℕ → ℝ) (i j : ℕ) (w : Fin 2 → ℝ) : ℝ :=
  (x j - x i) * (w 1 - y i) - (w 0 - x i) * (y j - y i)

/-- Lines have measure zero. -/
theorem volume_line (a b c : ℝ) (h : a ≠ 0 ∨ b ≠ 0) :
    MeasureTheory.volume {w : Fin 2 → ℝ | a * w 0 + b * w 1 = c} = 0 := by
  rcases Set.eq_empty_or_nonempty {w : Fin 2 → ℝ | a * w 0 + b * w 1 = c} with he | ⟨q, hq⟩
  · rw [he, measure_empty]
  set φ : (Fin 2 → ℝ) →ₗ[ℝ] ℝ := a • LinearMap.proj 0 + b • LinearMap.proj 1 with hφ
  have hφa : ∀ w, φ w = a * w 0 + b * w 1 := by
    intro w; simp [hφ]
  have e : {w : Fin 2 → ℝ | a * w 0 + b * w 1 = c} = (fun w => w + (-q)) ⁻¹' (LinearMap.ker φ : Set (Fin 2 → ℝ)) := by
    ext w
    have hq' : a * q 0 + b * q 1 = c := hq
    simp only [Set.mem_ofPred_eq, Set.mem_preimage, SetLike.mem_coe, LinearMap.mem_ker, hφa, Pi.add_apply,
      Pi.neg_apply]
    constructor
    · intro h; linarith
    · intro h; linarith
  rw [e, measure_preimage_add_right]
  apply Measure.addHaar_submodule
  intro htop
  have h1 : φ ![1, 0] = 0 := by
    rw [← LinearMap.mem_ker, htop]; trivial
  have h2 : φ ![0, 1] = 0 := by
    rw [← LinearMap.mem_ker, htop]; trivial
  rw [hφa] at h1 h2
  simp at h1 h2
  rcases h with h | h
  · exact h h1
  · exact h h2

theorem volume_diagonal {x y : ℕ → ℝ} {i j : ℕ} (h : ¬ (x i = x j ∧ y i = y j)) :
    MeasureTheory.volume {w : Fin 2 → ℝ | orientAt x y i j w = 0} = 0 := by
  have e : {w : Fin 2 → ℝ | orientAt x y i j w = 0}
      = {w : Fin 2 → ℝ | (-(y j - y i)) * w 0 + (x j - x i) * w 1 = (x j - x i) * y i - x i * (y j - y i)} := by
    ext w
    simp only [Set.mem_ofPred_eq, orientAt]
    constructor <;> intro h <;> linarith
  rw [e]
  apply volume_line
  by_contra hc
  push Not at hc
  exact h ⟨by linarith [hc.2], by linarith [hc.1]⟩

theorem measurable_half (x y : ℕ → ℝ) (i j : ℕ) : MeasurableSet {w : Fin 2 → ℝ | 0 ≤ orientAt x y i j w} := by
  unfold orientAt
  apply measurableSet_le <;> fun_prop

/-- The points between the diagonals to the corners `j` and `j + 1`, and on the left of their edge. -/
def fanPart (x y : ℕ → ℝ) (j : ℕ) : Set (Fin 2 → ℝ) :=
  {w | 0 ≤ orientAt x y 0 j w ∧ 0 ≤ orientAt x y j (j + 1) w ∧ 0 ≤ orientAt x y (j + 1) 0 w}

theorem measurable_fanPart (x y : ℕ → ℝ) (j : ℕ) : MeasurableSet (fanPart x y j) :=
  (measurable_half x y 0 j).inter ((measurable_half x y j (j + 1)).inter (measurable_half x y (j + 1) 0))

theorem orientAt_sum (x y : ℕ → ℝ) (j : ℕ) (w : Fin 2 → ℝ) :
    orientAt x y 0 j w + orientAt x y j (j + 1) w + orientAt x y (j + 1) 0 w = orient x y 0 j (j + 1) := by
  simp only [orientAt, orient]; ring

/-- A triangle of the fan, as convex combinations. -/
def fanTriangle (x y : ℕ → ℝ) (j : ℕ) : Set (Fin 2 → ℝ) :=
  {w | ∃ r s t : ℝ, 0 ≤ r ∧ 0 ≤ s ∧ 0 ≤ t ∧ r + s + t = 1 ∧
    w 0 = r * x 0 + s * x j + t * x (j + 1) ∧ w 1 = r * y 0 + s * y j + t * y (j + 1)}

theorem fanPart_eq {x y : ℕ → ℝ} {j : ℕ} (h : 0 < orient x y 0 j (j + 1)) :
    fanPart x y j = fanTriangle x y j := by
  ext w
  constructor
  · rintro ⟨h1, h2, h3⟩
    have hs := orientAt_sum x y j w
    refine ⟨orientAt x y j (j + 1) w / orient x y 0 j (j + 1), orientAt x y (j + 1) 0 w / orient x y 0 j (j + 1),
      orientAt x y 0 j w / orient x y 0 j (j + 1), div_nonneg h2 h.le, div_nonneg h3 h.le, div_nonneg h1 h.le,
      ?_, ?_, ?_⟩
    · rw [← add_div, ← add_div, div_eq_one_iff_eq h.ne']; linarith
    · field_simp
      simp only [orientAt, orient]; ring
    · field_simp
      simp only [orientAt, orient]; ring
  · rintro ⟨r, s, t, hr, hs, ht, hsum, hx, hy⟩
    have hr' : r = 1 - s - t := by linarith
    refine ⟨?_, ?_, ?_⟩
    · have : orientAt x y 0 j w = t * orient x y 0 j (j + 1) := by
        simp only [orientAt, orient, hx, hy, hr']; ring
      rw [this]; exact mul_nonneg ht h.le
    · have : orientAt x y j (j + 1) w = r * orient x y 0 j (j + 1) := by
        simp only [orientAt, orient, hx, hy, hr']; ring
      rw [this]; exact mul_nonneg hr h.le
    · have : orientAt x y (j + 1) 0 w = s * orient x y 0 j (j + 1) := by
        simp only [orientAt, orient, hx, hy, hr']; ring
      rw [this]; exact mul_nonneg hs h.le

theorem zFrame : Spec.IsUnit ⟨1, 0, 0⟩ ∧ Spec.IsUnit ⟨0, 1, 0⟩ ∧ Spec.Orthogonal ⟨1, 0, 0⟩ ⟨0, 1, 0⟩ := by
  norm_num [Spec.IsUnit, Spec.Orthogonal, Spec.inner]

theorem volume_fanTriangle (x y : ℕ → ℝ) (j : ℕ) :
    MeasureTheory.volume (fanTriangle x y j) = ENNReal.ofReal (1 / 2 * |orient x y 0 j (j + 1)|) := by
  have := area_triangle ⟨0, 0, 0⟩ ⟨1, 0, 0⟩ ⟨0, 1, 0⟩ zFrame.1 zFrame.2.1 zFrame.2.2 (x 0) (y 0) (x j) (y j)
    (x (j + 1)) (y (j + 1))
  unfold orient
  rw [← this]
  unfold Spec.area
  congr 1
  ext w
  simp only [fanTriangle, Spec.InTriangle, Spec.localPoint, Set.mem_ofPred_eq]
  constructor
  · rintro ⟨r, s, t, hr, hs, ht, hsum, hx, hy⟩
    exact ⟨r, s, t, hr, hs, ht, hsum, by simp [hx], by simp [hy], by simp⟩
  · rintro ⟨r, s, t, hr, hs, ht, hsum, hx, hy, _⟩
    exact ⟨r, s, t, hr, hs, ht, hsum, by simpa using hx, by simpa using hy⟩

/-- The points on the left of all edges. -/
def leftOfEdges (x y : ℕ → ℝ) (N : ℕ) : Set (Fin 2 → ℝ) :=
  {w | (∀ i < N, 0 ≤ orientAt x y i (i + 1) w) ∧ 0 ≤ orientAt x y N 0 w}

theorem leftOfEdges_covered {x y : ℕ → ℝ} {N : ℕ} (hN : 2 ≤ N) :
    leftOfEdges x y N ⊆ ⋃ j ∈ Finset.Ico 1 N, fanPart x y j := by
  rintro w ⟨h1, h2⟩
  have flip : ∀ i, orientAt x y i 0 w = - orientAt x y 0 i w := fun i => by simp only [orientAt]; ring
  -- the last diagonal the point is on the left of
  have : ∃ j, 1 ≤ j ∧ j < N ∧ 0 ≤ orientAt x y 0 j w ∧ orientAt x y 0 (j + 1) w ≤ 0 := by
    by_contra hno
    push Not at hno
    have hall : ∀ d, 1 + d ≤ N → 0 ≤ orientAt x y 0 (1 + d) w := by
      intro d
      induction d with
      | zero => intro _; exact h1 0 (by omega)
      | succ d ih =>
        intro hd
        exact (hno (1 + d) (by omega) (by omega) (ih (by omega))).le
    have hlast := hno (N - 1) (by omega) (by omega) (by
      have := hall (N - 2) (by omega)
      rwa [show 1 + (N - 2) = N - 1 by omega] at this)
    rw [show N - 1 + 1 = N by omega] at hlast
    rw [flip] at h2
    linarith
  obtain ⟨j, hj1, hj2, hj3, hj4⟩ := this
  simp only [Set.mem_iUnion]
  refine ⟨j, Finset.mem_Ico.2 ⟨hj1, hj2⟩, hj3, h1 j hj2, ?_⟩
  rw [flip]
  linarith

/-- A set between the fan of triangles and the points on the left of all edges has the area of the fan. -/
theorem volume_polygon {x y : ℕ → ℝ} {N : ℕ} (hN : 2 ≤ N) (hc : ConvexPoints x y N)
    (hd : DistinctPoints x y N) (S : Set (Fin 2 → ℝ)) (h1 : ∀ j, 1 ≤ j → j < N → fanTriangle x y j ⊆ S)
    (h2 : S ⊆ leftOfEdges x y N) :
    MeasureTheory.volume S = ENNReal.ofReal (1 / 2 * ∑ j ∈ Finset.Ico 1 N, orient x y 0 j (j + 1)) := by
  have ho : ∀ j, 1 ≤ j → j < N → 0 ≤ orient x y 0 j (j + 1) := fun j _ hj2 =>
    fan_order hc hd (j + 1) (by omega) j (by omega)
  have hne : ∀ j, 1 ≤ j → j ≤ N → ¬ (x 0 = x j ∧ y 0 = y j) := fun j hj1 hj2 h => by
    have := hd 0 (by omega) j hj2 h.1 h.2
    omega
  have vol : ∀ j ∈ Finset.Ico 1 N, MeasureTheory.volume (fanPart x y j)
      = ENNReal.ofReal (1 / 2 * orient x y 0 j (j + 1)) := by
    intro j hj
    obtain ⟨hj1, hj2⟩ := Finset.mem_Ico.1 hj
    rcases (ho j hj1 hj2).lt_or_eq with h | h
    · rw [fanPart_eq h, volume_fanTriangle, abs_of_pos h]
    · rw [← h]
      simp only [mul_zero, ENNReal.ofReal_zero]
      refine measure_mono_null ?_ (volume_diagonal (hne j hj1 hj2.le))
      rintro w ⟨g1, g2, g3⟩
      have := orientAt_sum x y j w
      show orientAt x y 0 j w = 0
      linarith
  have hsum : ∑ j ∈ Finset.Ico 1 N, MeasureTheory.volume (fanPart x y j)
      = ENNReal.ofReal (1 / 2 * ∑ j ∈ Finset.Ico 1 N, orient x y 0 j (j + 1)) := by
    rw [Finset.sum_congr rfl vol, Finset.mul_sum, ENNReal.ofReal_sum_of_nonneg]
    intro j hj
    obtain ⟨hj1, hj2⟩ := Finset.mem_Ico.1 hj
    have := ho j hj1 hj2
    positivity
  apply le_antisymm
  · rw [← hsum]
    exact (measure_mono (h2.trans (leftOfEdges_covered hN))).trans (measure_biUnion_finset_le _ _)
  · -- triangles that are not degenerate do not overlap
    set J := (Finset.Ico 1 N).filter fun j => 0 < orient x y 0 j (j + 1) with hJ
    have memJ : ∀ j, j ∈ J ↔ (1 ≤ j ∧ j < N) ∧ 0 < orient x y 0 j (j + 1) := by
      intro j; simp [hJ, Finset.mem_filter, Finset.mem_Ico]
    have overlap : ∀ i ∈ J, ∀ j ∈ J, i < j →
        AEDisjoint MeasureTheory.volume (fanPart x y i) (fanPart x y j) := by
      intro i hi j hj hij
      obtain ⟨⟨i1, i2⟩, i3⟩ := (memJ i).1 hi
      obtain ⟨⟨j1, j2⟩, j3⟩ := (memJ j).1 hj
      refine measure_mono_null ?_ (volume_diagonal (hne j j1 j2.le))
      rintro w ⟨hwi, hwj⟩
      show orientAt x y 0 j w = 0
      refine le_antisymm ?_ hwj.1
      rw [fanPart_eq i3] at hwi
      obtain ⟨r, s, t, hr, hs, ht, hrst, hx, hy⟩ := hwi
      have o1 := fan_order hc hd j j2.le i (by omega)
      have o2 := fan_order hc hd j j2.le (i + 1) (by omega)
      have hr' : r = 1 - s - t := by linarith
      have : orientAt x y 0 j w = -(s * orient x y 0 i j + t * orient x y 0 (i + 1) j) := by
        simp only [orientAt, orient, hx, hy, hr']; ring
      rw [this]
      have := mul_nonneg hs o1
      have := mul_nonneg ht o2
      linarith
    have hpair : Set.Pairwise (J : Set ℕ) fun i j =>
        AEDisjoint MeasureTheory.volume (fanPart x y i) (fanPart x y j) := by
      intro i hi j hj hij
      rcases lt_or_gt_of_ne hij with h | h
      · exact overlap i hi j hj h
      · exact (overlap j hj i hi h).symm
    have hJsum : ∑ j ∈ J, MeasureTheory.volume (fanPart x y j)
        = ∑ j ∈ Finset.Ico 1 N, MeasureTheory.volume (fanPart x y j) := by
      apply Finset.sum_subset (Finset.filter_subset _ _)
      intro j hj hnj
      obtain ⟨hj1, hj2⟩ := Finset.mem_Ico.1 hj
      have : orient x y 0 j (j + 1) ≤ 0 := by
        by_contra hcon
        exact hnj ((memJ j).2 ⟨⟨hj1, hj2⟩, not_le.1 hcon⟩)
      rw [vol j hj, le_antisymm this (ho j hj1 hj2)]
      simp
    rw [← hsum, ← hJsum, ← measure_biUnion_finset₀ hpair fun j _ => (measurable_fanPart x y j).nullMeasurableSet]
    apply measure_mono
    intro w hw
    simp only [Set.mem_iUnion] at hw
    obtain ⟨j, hj, hw⟩ := hw
    obtain ⟨⟨j1, j2⟩, j3⟩ := (memJ j).1 hj
    rw [fanPart_eq j3] at hw
    exact h1 j j1 j2 hw

end Lemmas
