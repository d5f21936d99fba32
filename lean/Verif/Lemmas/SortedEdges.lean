import Verif.Lemmas.PolygonSampler
import Verif.Lemmas.AngularOrder
import Verif.Lemmas.Planar
import Verif.Spec.SampledPolygon
import Verif.Props.Common
import Verif.Props.Plane
import Mathlib.Analysis.SpecialFunctions.Trigonometric.Arctan

/-!
# Polygons from sorted edge vectors
-/

namespace Lemmas
open Verif Frackit Finset

/-! ## The angle of an edge -/

theorem edgeAngle_range (v : V3) : 0 ≤ edgeAngle v ∧ edgeAngle v < 2 * Real.pi := by
  have hpi := Real.pi_pos
  have h1 := Real.neg_pi_div_two_lt_arctan (v.y / v.x)
  have h2 := Real.arctan_lt_pi_div_two (v.y / v.x)
  unfold edgeAngle
  simp only
  split_ifs <;> constructor <;> linarith

/-- A component that is zero or not tiny. -/
def NotTiny (x : ℝ) : Prop := x = 0 ∨ 1 / 10 ^ 6 ≤ |x|

theorem NotTiny.zero_of_lt {x : ℝ} (h : NotTiny x) (hx : |x| < 1 / 10 ^ 6) : x = 0 :=
  h.resolve_right (not_le.2 hx)

theorem edgeAngle_polar (v : V3) (hx : NotTiny v.x) (hy : NotTiny v.y) :
    ∃ r, 0 ≤ r ∧ v.x = r * Real.cos (edgeAngle v) ∧ v.y = r * Real.sin (edgeAngle v) := by
  have h32c : Real.cos (3 * Real.pi / 2) = 0 := by
    rw [show 3 * Real.pi / 2 = Real.pi / 2 + Real.pi by ring, Real.cos_add_pi, Real.cos_pi_div_two,
      neg_zero]
  have h32s : Real.sin (3 * Real.pi / 2) = -1 := by
    rw [show 3 * Real.pi / 2 = Real.pi / 2 + Real.pi by ring, Real.sin_add_pi, Real.sin_pi_div_two]
  unfold edgeAngle
  by_cases h1 : |v.y| < 1 / 10 ^ 6
  · have hy0 := hy.zero_of_lt h1
    rw [if_pos h1, hy0]
    by_cases h2 : v.x > 0
    · rw [if_pos h2]; exact ⟨v.x, h2.le, by simp, by simp⟩
    · rw [if_neg h2]; exact ⟨-v.x, by linarith, by simp, by simp⟩
  · rw [if_neg h1]
    have hy0 : v.y ≠ 0 := by rintro h; rw [h] at h1; norm_num at h1
    by_cases h2 : |v.x| < 1 / 10 ^ 6
    · have hx0 := hx.zero_of_lt h2
      rw [if_pos h2, hx0]
      by_cases h3 : v.y > 0
      · rw [if_pos h3]; exact ⟨v.y, h3.le, by simp, by simp⟩
      · rw [if_neg h3, h32c, h32s]; exact ⟨-v.y, by linarith, by simp, by simp⟩
    · rw [if_neg h2]
      have hx0 : v.x ≠ 0 := by rintro h; rw [h] at h2; norm_num at h2
      simp only
      set t := v.y / v.x with ht
      have hty : v.y = t * v.x := by rw [ht]; field_simp
      have hs : 0 < Real.sqrt (1 + t ^ 2) := Real.sqrt_pos.2 (by positivity)
      have hc := Real.cos_arctan t
      have hsn := Real.sin_arctan t
      by_cases h3 : v.x > 0
      · rw [if_pos h3]
        have e1 : v.x = v.x * Real.sqrt (1 + t ^ 2) * Real.cos (Real.arctan t) := by
          rw [hc]; field_simp
        have e2 : v.y = v.x * Real.sqrt (1 + t ^ 2) * Real.sin (Real.arctan t) := by
          rw [hsn, hty]; field_simp
        refine ⟨v.x * Real.sqrt (1 + t ^ 2), by positivity, ?_⟩
        by_cases h4 : Real.arctan t < 0
        · rw [if_pos h4, add_comm (2 * Real.pi), Real.cos_add_two_pi, Real.sin_add_two_pi]; exact ⟨e1, e2⟩
        · rw [if_neg h4]; exact ⟨e1, e2⟩
      · rw [if_neg h3]
        have h3' : 0 ≤ -v.x := by linarith
        refine ⟨-v.x * Real.sqrt (1 + t ^ 2), by positivity, ?_⟩
        rw [add_comm Real.pi, Real.cos_add_pi, Real.sin_add_pi]
        constructor
        · rw [hc]; field_simp
        · rw [hsn, hty]; field_simp

/-! ## Sums over lists -/

theorem sum_list_eq (l : List V3) (g : V3 → ℝ) :
    (l.map g).sum = ∑ k ∈ range l.length, g (l.getD k 0) := by
  rw [← sum_map_range]
  congr 1
  apply List.ext_getElem
  · simp
  · intro i h1 h2
    simp only [List.length_map] at h1
    simp [List.getD_eq_getElem?_getD, List.getElem?_eq_getElem h1]

/-- Position after the first `j` edges, in one coordinate. -/
noncomputable def pos (g : V3 → ℝ) (es : List V3) (j : ℕ) : ℝ := ∑ k ∈ range j, g (es.getD k 0)

theorem pos_total (g : V3 → ℝ) (es : List V3) : pos g es es.length = (es.map g).sum :=
  (sum_list_eq es g).symm

theorem posSum_eq (g : V3 → ℝ) (es : List V3) :
    posSum (es.map g) = ∑ k ∈ range es.length, max 0 (g (es.getD k 0)) := by
  unfold posSum
  rw [List.map_map, sum_list_eq]
  rfl

/-- The distance between any two positions is at most the sum of the positive parts. -/
theorem pos_sub_le (g : V3 → ℝ) (es : List V3) (h0 : (es.map g).sum = 0) (i j : ℕ)
    (hi : i ≤ es.length) (hj : j ≤ es.length) : pos g es j - pos g es i ≤ posSum (es.map g) := by
  rw [posSum_eq]
  set f := fun k => g (es.getD k 0) with hf
  have htot : ∑ k ∈ range es.length, f k = 0 := by rw [← h0, sum_list_eq]
  have key : ∀ s : Finset ℕ, s ⊆ range es.length →
      ∑ k ∈ s, f k ≤ ∑ k ∈ range es.length, max 0 (f k) := fun s hs =>
    (sum_le_sum fun k _ => le_max_right 0 (f k)).trans
      (sum_le_sum_of_subset_of_nonneg hs fun k _ _ => le_max_left _ _)
  unfold pos
  rcases le_total i j with h | h
  · have := sum_range_add_sum_Ico f h
    have := key (Ico i j) (fun k hk => by have := mem_Ico.1 hk; exact mem_range.2 (by omega))
    linarith
  · have e1 := sum_range_add_sum_Ico f h
    have e2 := sum_range_add_sum_Ico f hi
    have hd : Disjoint (range j) (Ico i es.length) := by
      rw [Finset.disjoint_left]
      intro k hk hk'
      have := mem_range.1 hk
      have := mem_Ico.1 hk'
      omega
    have e3 := key (range j ∪ Ico i es.length) (by
      intro k hk
      rcases mem_union.1 hk with h' | h'
      · have := mem_range.1 h'; exact mem_range.2 (by omega)
      · have := mem_Ico.1 h'; exact mem_range.2 (by omega))
    rw [sum_union hd] at e3
    linarith

/-! ## Edges sorted by angle -/

/-- Edges in the order of their angles, with sum zero and without tiny components. -/
structure SortedEdges (es : List V3) : Prop where
  sorted : es.Pairwise fun a b => edgeAngle a ≤ edgeAngle b
  sumX : (es.map V3.x).sum = 0
  sumY : (es.map V3.y).sum = 0
  tiny : ∀ e ∈ es, NotTiny e.x ∧ NotTiny e.y

namespace SortedEdges
variable {es : List V3} (h : SortedEdges es)
include h

theorem mono (a b : ℕ) (hab : a ≤ b) (hb : b < es.length) :
    edgeAngle (es.getD a 0) ≤ edgeAngle (es.getD b 0) := by
  rcases eq_or_lt_of_le hab with rfl | hlt
  · exact le_rfl
  · have := List.pairwise_iff_getElem.1 h.sorted a b (by omega) hb hlt
    simpa [List.getD_eq_getElem?_getD, List.getElem?_eq_getElem hb,
      List.getElem?_eq_getElem (show a < es.length by omega)] using this

theorem polar (k : ℕ) (hk : k < es.length) : ∃ r, 0 ≤ r ∧
    (es.getD k 0).x = r * Real.cos (edgeAngle (es.getD k 0)) ∧
    (es.getD k 0).y = r * Real.sin (edgeAngle (es.getD k 0)) :=
  edgeAngle_polar _ (h.tiny _ (getD_mem hk)).1 (h.tiny _ (getD_mem hk)).2

/-- Every vertex is on the left of every edge. -/
theorem left_of_edge (i j : ℕ) (hi : i < es.length) (hj : j ≤ es.length) :
    0 ≤ (es.getD i 0).x * (pos V3.y es j - pos V3.y es i)
      - (es.getD i 0).y * (pos V3.x es j - pos V3.x es i) := by
  obtain ⟨ri, hri, hxi, hyi⟩ := h.polar i hi
  have := sorted_angles_extremal es.length i hi.le (fun k => edgeAngle (es.getD k 0))
    (fun k => (es.getD i 0).x * (es.getD k 0).y - (es.getD i 0).y * (es.getD k 0).x)
    (edgeAngle (es.getD i 0)) (edgeAngle_range _).1 (edgeAngle_range _).2.le h.mono
    (fun k _ => edgeAngle_range _) (fun k hk => h.mono k i hk.le hi)
    (fun k hk hk' => h.mono i k hk hk')
    (fun k hk => by
      obtain ⟨r, hr, hx, hy⟩ := h.polar k hk
      refine ⟨ri * r, by positivity, ?_⟩
      rw [hxi, hyi, hx, hy, Real.sin_sub]; ring)
    (by
      rw [sum_sub_distrib, ← mul_sum, ← mul_sum, ← sum_list_eq, ← sum_list_eq, h.sumX, h.sumY]; ring)
    j hj
  simp only [sum_sub_distrib, ← mul_sum] at this
  unfold pos
  linarith

/-- Extent in the second coordinate. -/
theorem extentY : ∃ a b, a ≤ es.length ∧ b ≤ es.length ∧
    (∀ j ≤ es.length, pos V3.y es a ≤ pos V3.y es j ∧ pos V3.y es j ≤ pos V3.y es b) ∧
    pos V3.y es b - pos V3.y es a = posSum (es.map V3.y) := by
  have hpi := Real.pi_pos
  obtain ⟨p, hp, h1, h2⟩ := exists_pass es.length (fun k => edgeAngle (es.getD k 0)) Real.pi h.mono
  have lo := sorted_angles_extremal es.length 0 (Nat.zero_le _) (fun k => edgeAngle (es.getD k 0))
    (fun k => (es.getD k 0).y) 0 le_rfl (by positivity) h.mono (fun k _ => edgeAngle_range _)
    (fun k hk => by omega) (fun k _ _ => (edgeAngle_range _).1)
    (fun k hk => by
      obtain ⟨r, hr, hx, hy⟩ := h.polar k hk
      exact ⟨r, hr, by rw [sub_zero, ← hy]⟩)
    (by rw [← sum_list_eq, h.sumY])
  have hi := sorted_angles_extremal es.length p hp (fun k => edgeAngle (es.getD k 0))
    (fun k => -(es.getD k 0).y) Real.pi hpi.le (by linarith) h.mono (fun k _ => edgeAngle_range _)
    (fun k hk => (h1 k hk).le) h2
    (fun k hk => by
      obtain ⟨r, hr, hx, hy⟩ := h.polar k hk
      exact ⟨r, hr, by rw [Real.sin_sub_pi, mul_neg, ← hy]⟩)
    (by rw [sum_neg_distrib, ← sum_list_eq, h.sumY, neg_zero])
  refine ⟨0, p, Nat.zero_le _, hp, fun j hj => ⟨lo j hj, ?_⟩, ?_⟩
  · have := hi j hj
    simp only [sum_neg_distrib] at this
    unfold pos; linarith
  · rw [posSum_eq, ← sum_range_add_sum_Ico _ hp]
    have e1 : ∑ k ∈ range p, max 0 (es.getD k 0).y = pos V3.y es p := by
      unfold pos
      refine sum_congr rfl fun k hk => ?_
      have hk' := mem_range.1 hk
      obtain ⟨r, hr, hx, hy⟩ := h.polar k (by omega)
      refine max_eq_right ?_
      rw [hy]
      exact mul_nonneg hr (Real.sin_nonneg_of_nonneg_of_le_pi (edgeAngle_range _).1 (h1 k hk').le)
    have e2 : ∑ k ∈ Ico p es.length, max 0 (es.getD k 0).y = 0 := by
      refine sum_eq_zero fun k hk => ?_
      have hk' := mem_Ico.1 hk
      obtain ⟨r, hr, hx, hy⟩ := h.polar k hk'.2
      refine max_eq_left ?_
      rw [hy, ← Real.sin_sub_two_pi]
      have := h2 k hk'.1 hk'.2
      have := (edgeAngle_range (es.getD k 0)).2
      exact mul_nonpos_of_nonneg_of_nonpos hr
        (Real.sin_nonpos_of_nonpos_of_neg_pi_le (by linarith) (by linarith))
    rw [e1, e2]
    simp [pos]

/-- Extent in the first coordinate. -/
theorem extentX : ∃ a b, a ≤ es.length ∧ b ≤ es.length ∧
    (∀ j ≤ es.length, pos V3.x es a ≤ pos V3.x es j ∧ pos V3.x es j ≤ pos V3.x es b) ∧
    pos V3.x es b - pos V3.x es a = posSum (es.map V3.x) := by
  have hpi := Real.pi_pos
  obtain ⟨b, hb, b1, b2⟩ := exists_pass es.length (fun k => edgeAngle (es.getD k 0)) (Real.pi / 2) h.mono
  obtain ⟨a, ha, a1, a2⟩ := exists_pass es.length (fun k => edgeAngle (es.getD k 0))
    (3 * Real.pi / 2) h.mono
  have lo := sorted_angles_extremal es.length a ha (fun k => edgeAngle (es.getD k 0))
    (fun k => (es.getD k 0).x) (3 * Real.pi / 2) (by positivity) (by linarith) h.mono
    (fun k _ => edgeAngle_range _) (fun k hk => (a1 k hk).le) a2
    (fun k hk => by
      obtain ⟨r, hr, hx, hy⟩ := h.polar k hk
      refine ⟨r, hr, ?_⟩
      rw [show edgeAngle (es.getD k 0) - 3 * Real.pi / 2
        = edgeAngle (es.getD k 0) - Real.pi - Real.pi / 2 by ring, Real.sin_sub_pi_div_two,
        Real.cos_sub_pi, neg_neg, ← hx])
    (by rw [← sum_list_eq, h.sumX])
  have hi := sorted_angles_extremal es.length b hb (fun k => edgeAngle (es.getD k 0))
    (fun k => -(es.getD k 0).x) (Real.pi / 2) (by positivity) (by linarith) h.mono
    (fun k _ => edgeAngle_range _) (fun k hk => (b1 k hk).le) b2
    (fun k hk => by
      obtain ⟨r, hr, hx, hy⟩ := h.polar k hk
      refine ⟨r, hr, ?_⟩
      rw [Real.sin_sub_pi_div_two, mul_neg, ← hx])
    (by rw [sum_neg_distrib, ← sum_list_eq, h.sumX, neg_zero])
  refine ⟨a, b, ha, hb, fun j hj => ⟨lo j hj, ?_⟩, ?_⟩
  · have := hi j hj
    simp only [sum_neg_distrib] at this
    unfold pos; linarith
  · have hab : b ≤ a := by
      by_contra hc
      push Not at hc
      have h3 := b1 a hc
      have h4 := a2 a le_rfl (by omega)
      linarith
    have sgn : ∀ k < es.length, (k < b ∨ a ≤ k → 0 ≤ (es.getD k 0).x) ∧
        (b ≤ k → k < a → (es.getD k 0).x ≤ 0) := by
      intro k hk
      obtain ⟨r, hr, hx, hy⟩ := h.polar k hk
      have hrange := edgeAngle_range (es.getD k 0)
      constructor
      · rintro (h' | h')
        · rw [hx]
          have := b1 k h'
          exact mul_nonneg hr (Real.cos_nonneg_of_neg_pi_div_two_le_of_le (by linarith) (by linarith))
        · rw [hx, ← Real.cos_sub_two_pi]
          have := a2 k h' hk
          exact mul_nonneg hr (Real.cos_nonneg_of_neg_pi_div_two_le_of_le (by linarith) (by linarith))
      · intro h3 h4
        rw [hx]
        have := b2 k h3 hk
        have := a1 k h4
        exact mul_nonpos_of_nonneg_of_nonpos hr
          (Real.cos_nonpos_of_pi_div_two_le_of_le (by linarith) (by linarith))
    have e0 : ∑ k ∈ range b, max 0 (es.getD k 0).x = ∑ k ∈ range b, (es.getD k 0).x :=
      sum_congr rfl fun k hk => max_eq_right ((sgn k (by have := mem_range.1 hk; omega)).1
        (Or.inl (mem_range.1 hk)))
    have e1 : ∑ k ∈ Ico b a, max 0 (es.getD k 0).x = 0 :=
      sum_eq_zero fun k hk => by
        have hk' := mem_Ico.1 hk
        exact max_eq_left ((sgn k (by omega)).2 hk'.1 hk'.2)
    have e2 : ∑ k ∈ Ico a es.length, max 0 (es.getD k 0).x = ∑ k ∈ Ico a es.length, (es.getD k 0).x :=
      sum_congr rfl fun k hk => by
        have hk' := mem_Ico.1 hk
        exact max_eq_right ((sgn k hk'.2).1 (Or.inr hk'.1))
    rw [posSum_eq, ← sum_range_add_sum_Ico _ ha, ← sum_range_add_sum_Ico _ hab, e0, e1, e2]
    have t1 := sum_range_add_sum_Ico (fun k => (es.getD k 0).x) ha
    have t2 : ∑ k ∈ range es.length, (es.getD k 0).x = 0 := by rw [← sum_list_eq, h.sumX]
    unfold pos
    linarith

end SortedEdges

end Lemmas
