import Verif.Model.Float.Boundary
import Verif.Props.FloatSegmentDistance
import Verif.Props.Distance

/-!
# C158 Distance to the boundary of quadrilaterals and polygons in double precision
-/

namespace Props
open Verif Frackit Spec

/-- The smallest distance of `p` from the boundary of the closed polygon with the corners `cs`. -/
def LeastDistance (cs : List V3) (p : V3) (D : ℝ) : Prop :=
  (∀ q, OnBoundary cs q → D ≤ Spec.dist p q) ∧ ∃ q, OnBoundary cs q ∧ Spec.dist p q = D

/-- The closed polygons of the theorems below: the edges have a length of at most `M`, and their ends are at most 1e7
times as far from the origin as the edge is long. -/
def SizedEdges (cs : List V3) (M : ℝ) : Prop :=
  ∀ e ∈ polyEdges cs, 0 < Spec.dist e.1 e.2 ∧ Spec.dist e.1 e.2 ≤ M ∧
    Spec.norm e.1 ≤ 10 ^ 7 * Spec.dist e.1 e.2 ∧ Spec.norm e.2 ≤ 10 ^ 7 * Spec.dist e.1 e.2

/-- One edge, in either direction. -/
theorem edge_distance (cs : List V3) (p : V3) (M R : ℝ) (hc : SizedEdges cs M)
    (hR : ∀ e ∈ polyEdges cs, Spec.dist e.1 p ≤ R ∧ Spec.dist e.2 p ≤ R) (s : Segment)
    (hs : (s.source, s.target) ∈ polyEdges cs ∨ (s.target, s.source) ∈ polyEdges cs) :
    ∃ D, (∀ q, OnSegment s.source s.target q → D ≤ Spec.dist p q) ∧
      (∃ q, OnSegment s.source s.target q ∧ Spec.dist p q = D) ∧
      |Fp.distPointSegment p s - D| ≤ 2 / 10 ^ 6 * M + 1 / 2 ^ 47 * R := by
  have key : 0 < Spec.dist s.source s.target ∧ Spec.dist s.source s.target ≤ M ∧
      Spec.norm s.source ≤ 10 ^ 7 * Spec.dist s.source s.target ∧ Spec.dist s.source p ≤ R := by
    rcases hs with hs | hs
    · obtain ⟨a, b, c, _⟩ := hc _ hs
      exact ⟨a, b, c, (hR _ hs).1⟩
    · obtain ⟨a, b, _, c⟩ := hc _ hs
      have e : Spec.dist s.target s.source = Spec.dist s.source s.target := dist_comm _ _
      simp only [e] at a b c
      exact ⟨a, b, c, (hR _ hs).2⟩
  obtain ⟨k1, k2, k3, k4⟩ := key
  obtain ⟨D, h1, h2, h3⟩ := C150_distance_partial p s k1 k3
  refine ⟨D, h1, h2, h3.trans ?_⟩
  have := mul_le_mul_of_nonneg_left k2 (by norm_num : (0 : ℝ) ≤ 2 / 10 ^ 6)
  have := mul_le_mul_of_nonneg_left k4 (by norm_num : (0 : ℝ) ≤ 1 / 2 ^ 47)
  linarith

/-- All edges: the exact distances from the single edges, and the smallest of them. -/
theorem edges_distance (edge : ℕ → Outcome Segment) (n : ℕ) (cs : List V3) (p : V3) (M R : ℝ) (hE : Enumerates edge n cs)
    (hn : 0 < n) (hc : SizedEdges cs M) (hR : ∀ e ∈ polyEdges cs, Spec.dist e.1 p ≤ R ∧ Spec.dist e.2 p ≤ R) :
    ∃ (s : ℕ → Segment) (d : ℕ → ℝ) (i₀ : ℕ), i₀ < n ∧ (∀ i < n, edge i = .val (s i) ∧ d i₀ ≤ d i ∧ d i ≤ R ∧
      |Fp.distPointSegment p (s i) - d i| ≤ 2 / 10 ^ 6 * M + 1 / 2 ^ 47 * R) ∧ LeastDistance cs p (d i₀) := by
  have h : ∀ i, ∃ (s : Segment) (D : ℝ), i < n → edge i = .val s ∧
      ((s.source, s.target) ∈ polyEdges cs ∨ (s.target, s.source) ∈ polyEdges cs) ∧
      (∀ q, OnSegment s.source s.target q → D ≤ Spec.dist p q) ∧
      (∃ q, OnSegment s.source s.target q ∧ Spec.dist p q = D) ∧ D ≤ R ∧
      |Fp.distPointSegment p s - D| ≤ 2 / 10 ^ 6 * M + 1 / 2 ^ 47 * R := by
    intro i
    by_cases hi : i < n
    · obtain ⟨s, hs, hse⟩ := hE.valid i hi
      obtain ⟨D, h1, h2, h3⟩ := edge_distance cs p M R hc hR s hse
      refine ⟨s, D, fun _ => ⟨hs, hse, h1, h2, ?_, h3⟩⟩
      refine (h1 s.source ((onSegment_iff _ _ _).2 ⟨0, le_rfl, zero_le_one, by ext <;> simp⟩)).trans ?_
      rw [dist_comm]
      rcases hse with h | h
      · exact (hR _ h).1
      · exact (hR _ h).2
    · exact ⟨⟨0, 0⟩, 0, fun h => absurd h hi⟩
  choose s d h using h
  obtain ⟨i₀, hi₀, hmin⟩ := Finset.exists_min_image (Finset.range n) d ⟨0, Finset.mem_range.2 hn⟩
  have hi₀ := Finset.mem_range.1 hi₀
  refine ⟨s, d, i₀, hi₀, fun i hi => ⟨(h i hi).1, hmin i (Finset.mem_range.2 hi), (h i hi).2.2.2.2.1,
    (h i hi).2.2.2.2.2⟩, ?_, ?_⟩
  · rintro q ⟨e, he, hq⟩
    obtain ⟨i, hi, hei⟩ := hE.all e he
    obtain ⟨h1, -, h3, -⟩ := h i hi
    refine (hmin i (Finset.mem_range.2 hi)).trans (h3 q ?_)
    rcases hei with hei | hei
    · rw [h1] at hei
      have hs := Outcome.val.inj hei
      rw [hs]
      exact hq
    · rw [h1] at hei
      have hs := Outcome.val.inj hei
      rw [hs]
      exact onSegment_symm hq
  · obtain ⟨-, hse, -, ⟨q, hq, hd⟩, -⟩ := h i₀ hi₀
    refine ⟨q, ?_, hd⟩
    rcases hse with hse | hse
    · exact ⟨_, hse, hq⟩
    · exact ⟨_, hse, onSegment_symm hq⟩

/-- The loop over the edges for the distance. -/
theorem boundary_float (edge : ℕ → Outcome Segment) (n : ℕ) (cs : List V3) (p : V3) (M R : ℝ) (hE : Enumerates edge n cs)
    (hn : 0 < n) (hc : SizedEdges cs M) (hR : ∀ e ∈ polyEdges cs, Spec.dist e.1 p ≤ R ∧ Spec.dist e.2 p ≤ R)
    (hmax : R ≤ doubleMax) :
    ∃ r D, distLoop (Fp.edgeDist edge p) doubleMax (List.range n) = .val r ∧ LeastDistance cs p D ∧
      |r - D| ≤ 2 / 10 ^ 6 * M + 1 / 2 ^ 47 * R := by
  obtain ⟨s, d, i₀, hi₀, h, hD⟩ := edges_distance edge n cs p M R hE hn hc hR
  have hv : ∀ i < n, Fp.edgeDist edge p i = .val (Fp.distPointSegment p (s i)) := by
    intro i hi
    unfold Fp.edgeDist
    rw [(h i hi).1]
    rfl
  obtain ⟨r, hr, hr1, hr2, hr3⟩ := distLoop_spec (Fp.edgeDist edge p) (List.range n) doubleMax
    (by intro i hi; rw [hv i (List.mem_range.1 hi)]; trivial)
  refine ⟨r, d i₀, hr, hD, abs_le.2 ⟨?_, ?_⟩⟩
  · rcases hr3 with hr3 | ⟨i, hi, hr3⟩
    · have := (h i₀ hi₀).2.2.1
      have := (abs_nonneg _).trans (h i₀ hi₀).2.2.2
      linarith
    · have hi := List.mem_range.1 hi
      rw [hv i hi] at hr3
      have he := Outcome.val.inj hr3
      have h1 := (abs_le.1 (h i hi).2.2.2).1
      have h2 := (h i hi).2.1
      linarith
  · have h1 := hr2 i₀ (List.mem_range.2 hi₀) _ (hv i₀ hi₀)
    have h2 := (abs_le.1 (h i₀ hi₀).2.2.2).2
    linarith

/-- The loop over the edges for the question if a point is on the boundary. -/
theorem on_boundary_float (edge : ℕ → Outcome Segment) (n : ℕ) (cs : List V3) (p : V3) (M R eps : ℝ)
    (hE : Enumerates edge n cs) (hn : 0 < n) (hc : SizedEdges cs M)
    (hR : ∀ e ∈ polyEdges cs, Spec.dist e.1 p ≤ R ∧ Spec.dist e.2 p ≤ R) :
    ∃ b D, Fp.onEdgeLoop edge p eps (List.range n) = .val b ∧ LeastDistance cs p D ∧
      (D + (2 / 10 ^ 6 * M + 1 / 2 ^ 47 * R) < eps → b = true) ∧
      (b = true → D < eps + (2 / 10 ^ 6 * M + 1 / 2 ^ 47 * R)) := by
  obtain ⟨s, d, i₀, hi₀, h, hD⟩ := edges_distance edge n cs p M R hE hn hc hR
  have hloop : ∀ l : List ℕ, (∀ i ∈ l, i < n) → ∃ b, Fp.onEdgeLoop edge p eps l = .val b ∧
      (b = true ↔ ∃ i ∈ l, Fp.distPointSegment p (s i) < eps) := by
    intro l
    induction l with
    | nil => exact fun _ => ⟨false, rfl, by simp⟩
    | cons i t ih =>
      intro hl
      obtain ⟨b, hb, hbt⟩ := ih fun j hj => hl j (by simp [hj])
      by_cases hd : Fp.distPointSegment p (s i) < eps
      · refine ⟨true, ?_, ?_⟩
        · simp only [Fp.onEdgeLoop, (h i (hl i (by simp))).1, Outcome.val_bind, if_pos hd]
          rfl
        · simp [hd]
      · refine ⟨b, ?_, ?_⟩
        · simp only [Fp.onEdgeLoop, (h i (hl i (by simp))).1, Outcome.val_bind, if_neg hd]
          exact hb
        · rw [hbt]
          simp [hd]
  obtain ⟨b, hb, hbi⟩ := hloop (List.range n) fun i hi => List.mem_range.1 hi
  refine ⟨b, d i₀, hb, hD, fun hlt => hbi.2 ⟨i₀, List.mem_range.2 hi₀, ?_⟩, fun ht => ?_⟩
  · have := (abs_le.1 (h i₀ hi₀).2.2.2).2
    linarith
  · obtain ⟨i, hi, hlt⟩ := hbi.1 ht
    have hi := List.mem_range.1 hi
    have h1 := (abs_le.1 (h i hi).2.2.2).1
    have h2 := (h i hi).2.1
    linarith

/-- **Quadrilaterals.**  The distance of a point from the boundary is accurate to 2e-6 times the length of the longest
edge and to the rounding of the distance of the farthest corner; a point nearer to the boundary than the tolerance by
more than this is on the boundary, and a point that is farther away by more than this is not. -/
theorem C158_quadrilateral (p p0 p1 p2 p3 : V3) (M R eps : ℝ) (hc : SizedEdges [p0, p1, p3, p2] M)
    (hR : ∀ c ∈ [p0, p1, p2, p3], Spec.dist c p ≤ R) (hmax : R ≤ doubleMax) :
    ∃ D, LeastDistance [p0, p1, p3, p2] p D ∧
      (∃ r, Fp.boundaryDistQuad p (Quadrilateral.make p0 p1 p2 p3) = .val r ∧
        |r - D| ≤ 2 / 10 ^ 6 * M + 1 / 2 ^ 47 * R) ∧
      ∃ b, Fp.onBoundaryQuad p (Quadrilateral.make p0 p1 p2 p3) eps = .val b ∧
        (D + (2 / 10 ^ 6 * M + 1 / 2 ^ 47 * R) < eps → b = true) ∧
        (b = true → D < eps + (2 / 10 ^ 6 * M + 1 / 2 ^ 47 * R)) := by
  have hE := quad_enumerates p0 p1 p2 p3
  have hR' : ∀ e ∈ polyEdges [p0, p1, p3, p2], Spec.dist e.1 p ≤ R ∧ Spec.dist e.2 p ≤ R := by
    simp only [polyEdges, List.mem_cons, List.not_mem_nil, or_false, List.tail_cons, List.take_succ_cons, List.take_zero,
      List.cons_append, List.nil_append, List.zip_cons_cons, List.zip_nil_right, forall_eq_or_imp, forall_eq] at hR ⊢
    obtain ⟨h0, h1, h2, h3⟩ := hR
    exact ⟨⟨h0, h1⟩, ⟨h1, h3⟩, ⟨h3, h2⟩, h2, h0⟩
  obtain ⟨r, D, h1, h2, h3⟩ := boundary_float _ 4 _ p M R hE (by norm_num) hc hR' hmax
  obtain ⟨b, D', k1, k2, k3, k4⟩ := on_boundary_float _ 4 _ p M R eps hE (by norm_num) hc hR'
  have e : D' = D := by
    obtain ⟨q, hq, rfl⟩ := h2.2
    obtain ⟨q', hq', rfl⟩ := k2.2
    exact le_antisymm (k2.1 q hq) (h2.1 q' hq')
  subst e
  exact ⟨D', h2, ⟨r, h1, h3⟩, b, k1, k3, k4⟩

/-- **Polygons.** -/
theorem C158_polygon (p : V3) (cs : List V3) (pg : Polygon) (hm : Polygon.make cs = .val pg) (M R eps : ℝ)
    (hc : SizedEdges cs M) (hR : ∀ c ∈ cs, Spec.dist c p ≤ R) (hmax : R ≤ doubleMax) :
    ∃ D, LeastDistance cs p D ∧
      (∃ r, Fp.boundaryDistPolygon p pg = .val r ∧ |r - D| ≤ 2 / 10 ^ 6 * M + 1 / 2 ^ 47 * R) ∧
      ∃ b, Fp.onBoundaryPolygon p pg eps = .val b ∧
        (D + (2 / 10 ^ 6 * M + 1 / 2 ^ 47 * R) < eps → b = true) ∧
        (b = true → D < eps + (2 / 10 ^ 6 * M + 1 / 2 ^ 47 * R)) := by
  have hcs : pg.corners = cs ∧ cs ≠ [] := by
    unfold Polygon.make at hm
    split_ifs at hm with h
    obtain ⟨c, hc, hm⟩ := Outcome.bind_eq_val.1 hm
    cases hm
    exact ⟨rfl, by rintro rfl; simp at h⟩
  obtain ⟨h4, h5⟩ := hcs
  have hE := polygon_enumerates pg (h4 ▸ h5)
  have hn : 0 < pg.corners.length := List.length_pos_of_ne_nil (h4 ▸ h5)
  have hR' : ∀ e ∈ polyEdges cs, Spec.dist e.1 p ≤ R ∧ Spec.dist e.2 p ≤ R := by
    rintro ⟨a, b⟩ he
    obtain ⟨ha, hb⟩ := List.of_mem_zip he
    refine ⟨hR a ha, hR b ?_⟩
    rcases List.mem_append.1 hb with hb | hb
    · exact List.mem_of_mem_tail hb
    · exact List.mem_of_mem_take hb
  rw [← h4] at hc hR' ⊢
  obtain ⟨r, D, h1, h2, h3⟩ := boundary_float _ _ _ p M R hE hn hc hR' hmax
  obtain ⟨b, D', k1, k2, k3, k4⟩ := on_boundary_float _ _ _ p M R eps hE hn hc hR'
  have e : D' = D := by
    obtain ⟨q, hq, rfl⟩ := h2.2
    obtain ⟨q', hq', rfl⟩ := k2.2
    exact le_antisymm (k2.1 q hq) (h2.1 q' hq')
  subst e
  exact ⟨D', h2, ⟨r, h1, h3⟩, b, k1, k3, k4⟩

/-- A square: the point (1/2, 1/4) is 1/4 away from its boundary. -/
example : ∃ r, Fp.boundaryDistQuad ⟨1 / 2, 1 / 4, 0⟩
      (Quadrilateral.make ⟨0, 0, 0⟩ ⟨1, 0, 0⟩ ⟨0, 1, 0⟩ ⟨1, 1, 0⟩) = .val r ∧ |r - 1 / 4| ≤ 1 / 10 ^ 5 ∧
    Fp.onBoundaryQuad ⟨1 / 2, 1 / 4, 0⟩ (Quadrilateral.make ⟨0, 0, 0⟩ ⟨1, 0, 0⟩ ⟨0, 1, 0⟩ ⟨1, 1, 0⟩) (1 / 10)
      = .val false := by
  have hc : SizedEdges [⟨0, 0, 0⟩, ⟨1, 0, 0⟩, ⟨1, 1, 0⟩, ⟨0, 1, 0⟩] 1 := by
    have h2 : √2 ≤ 2 := by rw [Real.sqrt_le_iff]; norm_num
    simp only [SizedEdges, polyEdges, List.mem_cons, List.not_mem_nil, or_false, List.tail_cons, List.take_succ_cons,
      List.take_zero, List.cons_append, List.nil_append, List.zip_cons_cons, List.zip_nil_right, forall_eq_or_imp,
      forall_eq]
    norm_num [Spec.dist, Spec.norm]
    linarith
  have hR : ∀ c ∈ [(⟨0, 0, 0⟩ : V3), ⟨1, 0, 0⟩, ⟨0, 1, 0⟩, ⟨1, 1, 0⟩], Spec.dist c ⟨1 / 2, 1 / 4, 0⟩ ≤ 1 := by
    simp only [List.mem_cons, List.not_mem_nil, or_false, forall_eq_or_imp, forall_eq, Spec.dist, Real.sqrt_le_iff]
    norm_num
  obtain ⟨D, ⟨hD1, q, ⟨e, he, hq⟩, hD2⟩, ⟨r, hr, hrD⟩, b, hb, -, hbD⟩ := C158_quadrilateral ⟨1 / 2, 1 / 4, 0⟩ _ _ _ _ 1 1
    (1 / 10) hc hR (by
      unfold doubleMax
      have : (1 : ℝ) ≤ 2 ^ 1023 := one_le_pow₀ one_le_two
      generalize (2 : ℝ) ^ 1023 = x at this ⊢
      norm_num
      linarith)
  have hD : D = 1 / 4 := by
    apply le_antisymm
    · refine (hD1 ⟨1 / 2, 0, 0⟩ ⟨(⟨0, 0, 0⟩, ⟨1, 0, 0⟩), by simp [polyEdges], (onSegment_iff _ _ _).2
        ⟨1 / 2, by norm_num, by norm_num, by ext <;> norm_num⟩⟩).trans ?_
      unfold Spec.dist
      apply Real.sqrt_le_iff.2
      norm_num
    · obtain ⟨t, t0, t1, rfl⟩ := (onSegment_iff _ _ _).1 hq
      rw [← hD2]
      unfold Spec.dist
      apply Real.le_sqrt_of_sq_le
      simp only [polyEdges, List.mem_cons, List.not_mem_nil, or_false, List.tail_cons, List.take_succ_cons,
        List.take_zero, List.cons_append, List.nil_append, List.zip_cons_cons, List.zip_nil_right] at he
      simp only [V3.add_x, V3.add_y, V3.add_z, V3.smul_x, V3.smul_y, V3.smul_z, V3.sub_x, V3.sub_y, V3.sub_z]
      rcases he with rfl | rfl | rfl | rfl <;> norm_num <;>
        nlinarith [sq_nonneg (1 / 2 - t), sq_nonneg (1 / 4 - t), sq_nonneg (3 / 4 - t)]
  subst hD
  refine ⟨r, hr, hrD.trans (by norm_num), ?_⟩
  rw [hb]
  congr 1
  by_contra h
  have := hbD (by simpa using h)
  norm_num at this

end Props
