import Verif.Model.Distance.Distance
import Verif.Props.Segment
import Verif.Lemmas.Planar

/-!
# Distances (C24, C25, C57)
-/

namespace Props
open Verif Frackit Lemmas

theorem dist_triangle (p q r : V3) : Spec.dist p r ≤ Spec.dist p q + Spec.dist q r := by
  rw [Spec.dist_eq_len, Spec.dist_eq_len, Spec.dist_eq_len,
    show p - r = (p - q) + (q - r) by module]
  exact V3.len_add_le _ _

/-! ## C24 Point-line and point-segment distances -/

/-- The distance between points is the Euclidean distance, in both argument orders. -/
theorem C24_point_point (p q : V3) :
    distPointPoint p q = Spec.dist p q ∧ distPointPoint q p = Spec.dist p q := by
  unfold distPointPoint
  rw [Spec.dist_eq_len]
  exact ⟨V3.len_sub_comm _ _, rfl⟩

/-- The distance between a point and a line is attained at a point of the line and is the minimum
over all points of the line, in both argument orders. -/
theorem C24_point_line (p : V3) (l : Line) (hd : Spec.IsUnit l.dir) :
    (∃ q, Spec.OnLine l.supp l.dir q ∧ Spec.dist p q = distPointLine p l) ∧
    (∀ q, Spec.OnLine l.supp l.dir q → distPointLine p l ≤ Spec.dist p q) ∧
    distLinePoint l p = distPointLine p l := by
  obtain ⟨h1, _, h2, _⟩ := C07_line_projection_nearest l p hd
  have he : distPointLine p l = Spec.dist p (l.projection p) := by
    rw [Spec.dist_eq_len]; exact V3.len_sub_comm _ _
  exact ⟨⟨_, h1, he.symm⟩, fun q hq => he ▸ (h2 q hq).1, rfl⟩

/-- Example: the distance of `(0,3,0)` to the x-axis. -/
example : ∃ l : Line, Spec.IsUnit l.dir ∧ distPointLine ⟨0, 3, 0⟩ l = 3 := by
  refine ⟨⟨⟨0, 0, 0⟩, ⟨1, 0, 0⟩⟩, by norm_num [Spec.IsUnit], ?_⟩
  unfold distPointLine V3.len V3.sqLen Line.projection V3.dot
  norm_num
  rw [show (9 : ℝ) = 3 ^ 2 by norm_num, Real.sqrt_sq (by norm_num)]

/-- The distance returned for a point and a segment (degenerate or not) is a lower bound of the
distances to all points of the segment.  It is attained at a point of the segment, unless the foot
of the perpendicular is beyond an end of the segment by less than the default tolerance
`1e-7 · length`; in that case it is the distance to that foot. -/
theorem C24_point_segment (p : V3) (s : Segment) :
    (∀ q, Spec.OnSegment s.source s.target q → distPointSegment p s ≤ Spec.dist p q) ∧
    ((∃ q, Spec.OnSegment s.source s.target q ∧ Spec.dist p q = distPointSegment p s) ∨
      (∃ f q, ¬ Spec.OnSegment s.source s.target f ∧
        Spec.OnLine s.source (s.target - s.source) f ∧
        Spec.inner (p - f) (s.target - s.source) = 0 ∧
        Spec.OnSegment s.source s.target q ∧ Spec.dist f q < 1 / 10 ^ 7 * Spec.dist s.source s.target ∧
        distPointSegment p s = Spec.dist p f)) := by
  by_cases hs : s.source = s.target
  · have hval : distPointSegment p s = Spec.dist p s.source := by
      unfold distPointSegment
      have : s.supportingLine = .nan := by
        simp [Segment.supportingLine, Segment.direction, mkDirection, hs, V3.len_eq_zero.2 rfl]
      rw [this]
      simp only
      rw [← hs, min_self, Spec.dist_eq_len]; exact V3.len_sub_comm _ _
    rw [hval]
    have hon : ∀ q, Spec.OnSegment s.source s.target q → q = s.source := by
      intro q hq
      obtain ⟨t, _, _, rfl⟩ := (Spec.onSegment_iff _ _ _).1 hq
      rw [← hs]; module
    refine ⟨fun q hq => by rw [hon q hq], Or.inl ⟨s.source, ?_, rfl⟩⟩
    exact (Spec.onSegment_iff _ _ _).2 ⟨0, le_rfl, zero_le_one, by module⟩
  · obtain ⟨d, L, hl, hu, hL, ht⟩ := segment_frame hs
    have hu' := (Spec.isUnit_iff d).1 hu
    rw [V3.sqLen_eq_dot] at hu'
    set u : ℝ := d.dot (p - s.source) with hudef
    have hproj : (⟨s.source, d⟩ : Line).projection p = s.source + u • d := rfl
    have horth : (p - (s.source + u • d)).dot d = 0 := by
      rw [show p - (s.source + u • d) = (p - s.source) - u • d by module, V3.sub_dot, V3.smul_dot,
        hu', V3.dot_comm, ← hudef]; ring
    have hdist : ∀ t : ℝ, (p - (s.source + t • d)).sqLen
        = (p - (s.source + u • d)).sqLen + (t - u) ^ 2 := by
      intro t
      have e : p - (s.source + t • d) = (p - (s.source + u • d)) + (u - t) • d := by module
      rw [e, V3.sqLen_add, V3.dot_smul, horth, V3.sqLen_smul, V3.sqLen_eq_dot d, hu']; ring
    have hmem : ∀ q, Spec.OnSegment s.source s.target q ↔
        ∃ t : ℝ, 0 ≤ t ∧ t ≤ L ∧ q = s.source + t • d := by
      intro q
      rw [Spec.onSegment_iff]
      constructor
      · rintro ⟨t, h0, h1, rfl⟩
        refine ⟨t * L, by positivity, by nlinarith, ?_⟩
        rw [ht]; module
      · rintro ⟨t, h0, h1, rfl⟩
        refine ⟨t / L, by positivity, (div_le_one hL).2 h1, ?_⟩
        rw [ht, show s.source + L • d - s.source = L • d by module, smul_smul,
          div_mul_cancel₀ _ hL.ne']
    have hmono : ∀ t t' : ℝ, (t - u) ^ 2 ≤ (t' - u) ^ 2 →
        Spec.dist p (s.source + t • d) ≤ Spec.dist p (s.source + t' • d) := by
      intro t t' h
      rw [Spec.dist_eq_len, Spec.dist_eq_len]
      exact Real.sqrt_le_sqrt (by rw [hdist t, hdist t']; linarith)
    have hlen : s.length = L := by
      unfold Segment.length
      rw [ht, show s.source + L • d - s.source = L • d by module, V3.len_smul, V3.len,
        V3.sqLen_eq_dot, hu', Real.sqrt_one, mul_one, abs_of_pos hL]
    have hdl : Spec.dist s.source s.target = L := by
      rw [Spec.dist_comm, Spec.dist_eq_len, ← hlen]; rfl
    have hc : 0 < confusion * s.length := by
      rw [hlen]; unfold confusion; positivity
    have hsrc : s.source = s.source + (0 : ℝ) • d := by module
    by_cases hcont : s.containsDefault (s.source + u • d)
    · have hval : distPointSegment p s = (s.source + u • d - p).len := by
        unfold distPointSegment; rw [hl]; exact if_pos hcont
      rw [hval]
      have hpd : (s.source + u • d - p).len = Spec.dist p (s.source + u • d) := by
        rw [Spec.dist_eq_len, V3.len_sub_comm]
      rw [hpd]
      refine ⟨?_, ?_⟩
      · intro q hq
        obtain ⟨t, _, _, rfl⟩ := (hmem q).1 hq
        apply hmono; rw [sub_self, zero_pow two_ne_zero]; positivity
      · by_cases hin : Spec.OnSegment s.source s.target (s.source + u • d)
        · exact Or.inl ⟨_, hin, rfl⟩
        · right
          obtain ⟨q, hq, hqd⟩ := (C08_contains_iff_within_eps s _ _ hs hc).1 hcont
          refine ⟨s.source + u • d, q, hin, ?_, ?_, hq, ?_, rfl⟩
          · refine (Spec.onLine_iff _ _ _).2 ⟨u / L, ?_⟩
            rw [ht, show s.source + L • d - s.source = L • d by module, smul_smul,
              div_mul_cancel₀ _ hL.ne']
          · rw [Spec.inner_eq_dot, ht, show s.source + L • d - s.source = L • d by module,
              V3.dot_smul, horth, mul_zero]
          · rw [hlen] at hqd
            rw [hdl]
            unfold confusion at hqd
            linarith
    · have hval : distPointSegment p s = min (s.source - p).len (s.target - p).len := by
        unfold distPointSegment; rw [hl]; exact if_neg hcont
      rw [hval]
      have hout : ¬ Spec.OnSegment s.source s.target (s.source + u • d) := fun h =>
        hcont (C08_points_contained s _ _ hs hc h)
      have e1 : (s.source - p).len = Spec.dist p s.source := by
        rw [Spec.dist_eq_len, V3.len_sub_comm]
      have e2 : (s.target - p).len = Spec.dist p s.target := by
        rw [Spec.dist_eq_len, V3.len_sub_comm]
      rw [e1, e2]
      have hus : u < 0 ∨ L < u := by
        by_contra hcon
        push Not at hcon
        exact hout ((hmem _).2 ⟨u, hcon.1, hcon.2, rfl⟩)
      have hsm : Spec.OnSegment s.source s.target s.source := (hmem _).2 ⟨0, le_rfl, hL.le, hsrc⟩
      have htm : Spec.OnSegment s.source s.target s.target := (hmem _).2 ⟨L, hL.le, le_rfl, ht⟩
      refine ⟨?_, Or.inl ?_⟩
      · intro q hq
        obtain ⟨t, h0, h1, rfl⟩ := (hmem q).1 hq
        rcases hus with h | h
        · refine (min_le_left _ _).trans ?_
          conv_lhs => rw [hsrc]
          apply hmono; nlinarith
        · refine (min_le_right _ _).trans ?_
          rw [ht]
          apply hmono; nlinarith
      · rcases min_choice (Spec.dist p s.source) (Spec.dist p s.target) with h | h
        · exact ⟨s.source, hsm, h.symm⟩
        · exact ⟨s.target, htm, h.symm⟩

/-- The distance returned differs from the distance to the nearest point of the segment by at most
the default tolerance of the segment, and does not depend on the order of the arguments. -/
theorem C24_point_segment_error (p : V3) (s : Segment) :
    (∃ q, Spec.OnSegment s.source s.target q ∧
      Spec.dist p q ≤ distPointSegment p s + 1 / 10 ^ 7 * Spec.dist s.source s.target) ∧
    distSegmentPoint s p = distPointSegment p s := by
  refine ⟨?_, rfl⟩
  have h0 : 0 ≤ Spec.dist s.source s.target := Real.sqrt_nonneg _
  rcases (C24_point_segment p s).2 with ⟨q, hq, he⟩ | ⟨f, q, _, _, _, hq, hd, he⟩
  · exact ⟨q, hq, by rw [he]; linarith [mul_nonneg (by norm_num : (0 : ℝ) ≤ 1 / 10 ^ 7) h0]⟩
  · exact ⟨q, hq, by rw [he]; linarith [dist_triangle p f q]⟩

/-! ### Lists -/

theorem distLoop_spec {α : Type} (dist : α → Outcome ℝ) (l : List α) (m : ℝ)
    (h : ∀ a ∈ l, (dist a).isVal) :
    ∃ r, distLoop dist m l = .val r ∧ r ≤ m ∧ (∀ a ∈ l, ∀ d, dist a = .val d → r ≤ d) ∧
      (r = m ∨ ∃ a ∈ l, dist a = .val r) := by
  induction l generalizing m with
  | nil => exact ⟨m, rfl, le_rfl, by simp, Or.inl rfl⟩
  | cons a t ih =>
    have ha := h a (by simp)
    cases hd : dist a with
    | val d =>
      obtain ⟨r, hr, h1, h2, h3⟩ := ih (min m d) fun b hb => h b (by simp [hb])
      refine ⟨r, by simp only [distLoop, hd, Outcome.val_bind]; exact hr,
        h1.trans (min_le_left _ _), ?_, ?_⟩
      · intro b hb e he
        rcases List.mem_cons.1 hb with rfl | hb
        · rw [hd] at he; cases he; exact h1.trans (min_le_right _ _)
        · exact h2 b hb e he
      · rcases h3 with h3 | ⟨b, hb, he⟩
        · rcases min_choice m d with hc | hc
          · left; rw [h3, hc]
          · right; exact ⟨a, by simp, by rw [hd, h3, hc]⟩
        · right; exact ⟨b, by simp [hb], he⟩
    | thrown e => rw [hd] at ha; cases ha
    | nan => rw [hd] at ha; cases ha
    | ub => rw [hd] at ha; cases ha

theorem distLoop_fails {α : Type} (dist : α → Outcome ℝ) (l : List α) (m : ℝ)
    (h : ∃ a ∈ l, ¬ (dist a).isVal) : ¬ (distLoop dist m l).isVal := by
  induction l generalizing m with
  | nil => simp at h
  | cons a t ih =>
    cases hd : dist a with
    | val d =>
      simp only [distLoop, hd, Outcome.val_bind]
      apply ih
      obtain ⟨b, hb, hn⟩ := h
      rcases List.mem_cons.1 hb with rfl | hb
      · rw [hd] at hn; exact absurd trivial hn
      · exact ⟨b, hb, hn⟩
    | thrown e => simp only [distLoop, hd]; exact id
    | nan => simp only [distLoop, hd]; exact id
    | ub => simp only [distLoop, hd]; exact id

/-- The distance to a non-empty list is the minimum of the distances to its elements, wherever the
minimum is in the list, as long as one of them is a double; if one of the distances cannot be
computed no distance is returned. -/
theorem C24_list {α : Type} (dist : α → Outcome ℝ) (l : List α) :
    ((∀ a ∈ l, (dist a).isVal) → (∃ a ∈ l, ∃ d, dist a = .val d ∧ d ≤ doubleMax) →
      ∃ r, distVector dist l = .val r ∧ (∃ a ∈ l, dist a = .val r) ∧
        ∀ a ∈ l, ∀ d, dist a = .val d → r ≤ d) ∧
    ((∃ a ∈ l, ¬ (dist a).isVal) → ¬ (distVector dist l).isVal) := by
  refine ⟨?_, distLoop_fails dist l doubleMax⟩
  rintro h ⟨a, ha, d, hd, hm⟩
  obtain ⟨r, hr, h1, h2, h3⟩ := distLoop_spec dist l doubleMax h
  refine ⟨r, hr, ?_, h2⟩
  rcases h3 with h3 | h3
  · exact ⟨a, ha, by rw [hd, h3, le_antisymm hm (h3 ▸ h2 a ha d hd)]⟩
  · exact h3

/-- The empty list: the largest double in C++, an error in Python. -/
theorem C24_empty_list {α : Type} (dist : α → Outcome ℝ) :
    distVector dist [] = .val doubleMax ∧ (pyDistList dist ([] : List α)).isThrown := ⟨rfl, trivial⟩

/-- The Python version returns the minimum of the distances to the elements. -/
theorem C24_python_list {α : Type} (dist : α → Outcome ℝ) (l : List α) (hne : l ≠ [])
    (h : ∀ a ∈ l, (dist a).isVal) :
    ∃ r, pyDistList dist l = .val r ∧ (∃ a ∈ l, dist a = .val r) ∧
      ∀ a ∈ l, ∀ d, dist a = .val d → r ≤ d := by
  obtain ⟨a, t, rfl⟩ := List.exists_cons_of_ne_nil hne
  cases hd : dist a with
  | val d =>
    obtain ⟨r, hr, h1, h2, h3⟩ := distLoop_spec dist t d fun b hb => h b (by simp [hb])
    refine ⟨r, by simp only [pyDistList, hd, Outcome.val_bind]; exact hr, ?_, ?_⟩
    · rcases h3 with h3 | ⟨b, hb, he⟩
      · exact ⟨a, by simp, by rw [hd, h3]⟩
      · exact ⟨b, by simp [hb], he⟩
    · intro b hb e he
      rcases List.mem_cons.1 hb with rfl | hb
      · rw [hd] at he; cases he; exact h1
      · exact h2 b hb e he
  | thrown e => have := h a (by simp); rw [hd] at this; cases this
  | nan => have := h a (by simp); rw [hd] at this; cases this
  | ub => have := h a (by simp); rw [hd] at this; cases this

/-! ## C25 Distance to the boundary of polygons and quadrilaterals -/

/-- A point of the boundary of a closed polygon. -/
def OnBoundary (cs : List V3) (q : V3) : Prop := ∃ e ∈ Spec.polyEdges cs, Spec.OnSegment e.1 e.2 q

/-- Enumeration of the edges by a geometry object: every index gives an edge of the polygon, and
every edge is given (up to orientation). -/
structure Enumerates (edge : ℕ → Outcome Segment) (n : ℕ) (cs : List V3) : Prop where
  valid : ∀ i < n, ∃ s, edge i = .val s ∧
    ((s.source, s.target) ∈ Spec.polyEdges cs ∨ (s.target, s.source) ∈ Spec.polyEdges cs)
  all : ∀ e ∈ Spec.polyEdges cs, ∃ i < n, edge i = .val ⟨e.1, e.2⟩ ∨ edge i = .val ⟨e.2, e.1⟩

theorem onSegment_symm {a b q : V3} (h : Spec.OnSegment a b q) : Spec.OnSegment b a q := by
  obtain ⟨t, h0, h1, rfl⟩ := (Spec.onSegment_iff _ _ _).1 h
  exact (Spec.onSegment_iff _ _ _).2 ⟨1 - t, by linarith, by linarith, by module⟩

theorem quad_enumerates (p0 p1 p2 p3 : V3) :
    Enumerates (Quadrilateral.make p0 p1 p2 p3).edge 4 [p0, p1, p3, p2] := by
  have hE : Spec.polyEdges [p0, p1, p3, p2] = [(p0, p1), (p1, p3), (p3, p2), (p2, p0)] := rfl
  constructor
  · intro i hi
    match i, hi with
    | 0, _ => exact ⟨⟨p0, p1⟩, rfl, Or.inl (by simp [hE])⟩
    | 1, _ => exact ⟨⟨p1, p3⟩, rfl, Or.inl (by simp [hE])⟩
    | 2, _ => exact ⟨⟨p0, p2⟩, rfl, Or.inr (by simp [hE])⟩
    | 3, _ => exact ⟨⟨p2, p3⟩, rfl, Or.inr (by simp [hE])⟩
  · intro e he
    rw [hE] at he
    simp only [List.mem_cons, List.not_mem_nil, or_false] at he
    rcases he with rfl | rfl | rfl | rfl
    · exact ⟨0, by norm_num, Or.inl rfl⟩
    · exact ⟨1, by norm_num, Or.inl rfl⟩
    · exact ⟨3, by norm_num, Or.inr rfl⟩
    · exact ⟨2, by norm_num, Or.inr rfl⟩

theorem polygon_enumerates (pg : Polygon) (hne : pg.corners ≠ []) :
    Enumerates pg.edge pg.corners.length pg.corners := by
  have hlen : 0 < pg.corners.length := List.length_pos_iff.2 hne
  constructor
  · intro i hi
    refine ⟨polygonEdge pg.corners i, by simp [Polygon.edge, hi], Or.inl ?_⟩
    rw [mem_polyEdges _ _ hne]
    by_cases h : i < pg.corners.length - 1
    · left
      refine ⟨i, h, ?_⟩
      simp only [polygonEdge]
      rw [Nat.mod_eq_of_lt (by omega)]
    · right
      have : i = pg.corners.length - 1 := by omega
      subst this
      simp only [polygonEdge]
      rw [Nat.sub_add_cancel hlen, Nat.mod_self]
  · intro e he
    rw [mem_polyEdges _ _ hne] at he
    rcases he with ⟨i, hi, rfl⟩ | rfl
    · refine ⟨i, by omega, Or.inl ?_⟩
      simp only [Polygon.edge, polygonEdge]
      rw [if_pos (by omega), Nat.mod_eq_of_lt (by omega)]
    · refine ⟨pg.corners.length - 1, by omega, Or.inl ?_⟩
      simp only [Polygon.edge, polygonEdge]
      rw [if_pos (by omega), Nat.sub_add_cancel hlen, Nat.mod_self]

theorem boundary_loop (edge : ℕ → Outcome Segment) (n : ℕ) (cs : List V3) (p : V3)
    (h : Enumerates edge n cs) :
    ∃ r, distLoop (edgeDist edge p) doubleMax (List.range n) = .val r ∧ r ≤ doubleMax ∧
      (∀ q, OnBoundary cs q → r ≤ Spec.dist p q) ∧
      (r = doubleMax ∨ ∃ e ∈ Spec.polyEdges cs, ∃ q, Spec.OnSegment e.1 e.2 q ∧
        Spec.dist p q ≤ r + 1 / 10 ^ 7 * Spec.dist e.1 e.2) := by
  have hval : ∀ i ∈ List.range n, (edgeDist edge p i).isVal := by
    intro i hi
    obtain ⟨s, hs, _⟩ := h.valid i (List.mem_range.1 hi)
    simp only [edgeDist, hs, Outcome.val_bind]; trivial
  obtain ⟨r, hr, h1, h2, h3⟩ := distLoop_spec (edgeDist edge p) (List.range n) doubleMax hval
  refine ⟨r, hr, h1, ?_, ?_⟩
  · rintro q ⟨e, he, hq⟩
    obtain ⟨i, hi, hs | hs⟩ := h.all e he
    · have := h2 i (List.mem_range.2 hi) (distSegmentPoint ⟨e.1, e.2⟩ p)
        (by simp only [edgeDist, hs, Outcome.val_bind]; rfl)
      exact this.trans ((C24_point_segment p ⟨e.1, e.2⟩).1 q hq)
    · have := h2 i (List.mem_range.2 hi) (distSegmentPoint ⟨e.2, e.1⟩ p)
        (by simp only [edgeDist, hs, Outcome.val_bind]; rfl)
      exact this.trans ((C24_point_segment p ⟨e.2, e.1⟩).1 q (onSegment_symm hq))
  · rcases h3 with h3 | ⟨i, hi, he⟩
    · exact Or.inl h3
    · right
      obtain ⟨s, hs, hmem⟩ := h.valid i (List.mem_range.1 hi)
      simp only [edgeDist, hs, Outcome.val_bind] at he
      have hrs : distPointSegment p s = r := by injection he
      obtain ⟨q, hq, hqd⟩ := (C24_point_segment_error p s).1
      rw [hrs] at hqd
      rcases hmem with hm | hm
      · exact ⟨_, hm, q, hq, hqd⟩
      · refine ⟨_, hm, q, onSegment_symm hq, ?_⟩
        simp only
        rw [Spec.dist_comm s.target]; exact hqd

theorem boundary_result {cs : List V3} {p : V3} {r : ℝ}
    (h3 : r = doubleMax ∨ ∃ e ∈ Spec.polyEdges cs, ∃ q, Spec.OnSegment e.1 e.2 q ∧
        Spec.dist p q ≤ r + 1 / 10 ^ 7 * Spec.dist e.1 e.2)
    (hd : ∃ q, OnBoundary cs q ∧ Spec.dist p q ≤ doubleMax) :
    ∃ e ∈ Spec.polyEdges cs, ∃ q, Spec.OnSegment e.1 e.2 q ∧
        Spec.dist p q ≤ r + 1 / 10 ^ 7 * Spec.dist e.1 e.2 := by
  rcases h3 with h3 | h3
  · obtain ⟨q, ⟨e, he, hq⟩, hm⟩ := hd
    refine ⟨e, he, q, hq, ?_⟩
    have h0 : 0 ≤ Spec.dist e.1 e.2 := Real.sqrt_nonneg _
    rw [h3]
    linarith [mul_nonneg (by norm_num : (0 : ℝ) ≤ 1 / 10 ^ 7) h0]
  · exact h3

/-- The distance between a point and the boundary of a quadrilateral is a lower bound of the
distances to all points on the four edges, and up to the default tolerance of an edge it is attained
on that edge. -/
theorem C25_quadrilateral (p p0 p1 p2 p3 : V3)
    (hd : ∃ q, OnBoundary [p0, p1, p3, p2] q ∧ Spec.dist p q ≤ doubleMax) :
    ∃ r, boundaryDistQuad p (Quadrilateral.make p0 p1 p2 p3) = .val r ∧
      (∀ q, OnBoundary [p0, p1, p3, p2] q → r ≤ Spec.dist p q) ∧
      ∃ e ∈ Spec.polyEdges [p0, p1, p3, p2], ∃ q, Spec.OnSegment e.1 e.2 q ∧
        Spec.dist p q ≤ r + 1 / 10 ^ 7 * Spec.dist e.1 e.2 := by
  obtain ⟨r, hr, _, h2, h3⟩ := boundary_loop _ _ _ p (quad_enumerates p0 p1 p2 p3)
  exact ⟨r, hr, h2, boundary_result h3 hd⟩

/-- The same for the boundary of a polygon with any number of corners, including the closing edge. -/
theorem C25_polygon (p : V3) (cs : List V3) (pg : Polygon) (hm : Polygon.make cs = .val pg)
    (hd : ∃ q, OnBoundary cs q ∧ Spec.dist p q ≤ doubleMax) :
    ∃ r, boundaryDistPolygon p pg = .val r ∧
      (∀ q, OnBoundary cs q → r ≤ Spec.dist p q) ∧
      ∃ e ∈ Spec.polyEdges cs, ∃ q, Spec.OnSegment e.1 e.2 q ∧
        Spec.dist p q ≤ r + 1 / 10 ^ 7 * Spec.dist e.1 e.2 := by
  have hcs : pg.corners = cs ∧ cs ≠ [] := by
    unfold Polygon.make at hm
    split_ifs at hm with h
    obtain ⟨c, hc, hm⟩ := Outcome.bind_eq_val.1 hm
    cases hm
    exact ⟨rfl, by rintro rfl; simp at h⟩
  obtain ⟨h4, h5⟩ := hcs
  obtain ⟨r, hr, _, h2, h3⟩ := boundary_loop _ _ _ p (polygon_enumerates pg (h4 ▸ h5))
  rw [h4] at h2 h3
  exact ⟨r, hr, h2, boundary_result h3 hd⟩

/-! ## C57 Points on the boundary -/

theorem onEdgeLoop_spec (edge : ℕ → Outcome Segment) (p : V3) (eps : ℝ) (l : List ℕ)
    (h : ∀ i ∈ l, (edge i).isVal) :
    ∃ b, onEdgeLoop edge p eps l = .val b ∧
      (b = true ↔ ∃ i ∈ l, ∃ s, edge i = .val s ∧ distPointSegment p s < eps) := by
  induction l with
  | nil => exact ⟨false, rfl, by simp⟩
  | cons i t ih =>
    obtain ⟨b, hb, hbi⟩ := ih fun j hj => h j (by simp [hj])
    cases hs : edge i with
    | val s =>
      by_cases hd : distPointSegment p s < eps
      · refine ⟨true, ?_, ?_⟩
        · simp [onEdgeLoop, hs, pointOnSegment, hd]
        · simp only [true_iff]; exact ⟨i, by simp, s, hs, hd⟩
      · refine ⟨b, ?_, ?_⟩
        · simp [onEdgeLoop, hs, pointOnSegment, hd, hb]
        · rw [hbi]
          constructor
          · rintro ⟨j, hj, q, hq⟩; exact ⟨j, by simp [hj], q, hq⟩
          · rintro ⟨j, hj, q, hq, hqd⟩
            rcases List.mem_cons.1 hj with rfl | hj
            · rw [hs] at hq; cases hq; exact absurd hqd hd
            · exact ⟨j, hj, q, hq, hqd⟩
    | thrown e => have := h i (by simp); rw [hs] at this; cases this
    | nan => have := h i (by simp); rw [hs] at this; cases this
    | ub => have := h i (by simp); rw [hs] at this; cases this

theorem onBoundary_loop (edge : ℕ → Outcome Segment) (n : ℕ) (cs : List V3) (p : V3) (eps : ℝ)
    (h : Enumerates edge n cs) :
    ∃ b, onEdgeLoop edge p eps (List.range n) = .val b ∧
      ((∃ q, OnBoundary cs q ∧ Spec.dist p q < eps) → b = true) ∧
      (b = true → ∃ e ∈ Spec.polyEdges cs, ∃ q, Spec.OnSegment e.1 e.2 q ∧
        Spec.dist p q < eps + 1 / 10 ^ 7 * Spec.dist e.1 e.2) := by
  obtain ⟨b, hb, hbi⟩ := onEdgeLoop_spec edge p eps (List.range n) (by
    intro i hi
    obtain ⟨s, hs, _⟩ := h.valid i (List.mem_range.1 hi)
    rw [hs]; trivial)
  refine ⟨b, hb, ?_, ?_⟩
  · rintro ⟨q, ⟨e, he, hq⟩, hqd⟩
    rw [hbi]
    obtain ⟨i, hi, hs | hs⟩ := h.all e he
    · exact ⟨i, List.mem_range.2 hi, _, hs,
        ((C24_point_segment p ⟨e.1, e.2⟩).1 q hq).trans_lt hqd⟩
    · exact ⟨i, List.mem_range.2 hi, _, hs,
        ((C24_point_segment p ⟨e.2, e.1⟩).1 q (onSegment_symm hq)).trans_lt hqd⟩
  · intro hbt
    obtain ⟨i, hi, s, hs, hd⟩ := hbi.1 hbt
    obtain ⟨s', hs', hmem⟩ := h.valid i (List.mem_range.1 hi)
    rw [hs] at hs'; cases hs'
    obtain ⟨q, hq, hqd⟩ := (C24_point_segment_error p s).1
    rcases hmem with hm | hm
    · exact ⟨_, hm, q, hq, by simp only; linarith⟩
    · refine ⟨_, hm, q, onSegment_symm hq, ?_⟩
      simp only
      rw [Spec.dist_comm s.target]; linarith

/-- A point closer than the tolerance to a point on one of the four edges is reported to be on the
boundary of the quadrilateral; a point reported is closer to some edge than the tolerance plus the
default tolerance of that edge. -/
theorem C57_quadrilateral (p p0 p1 p2 p3 : V3) (eps : ℝ) :
    ∃ b, onBoundaryQuad p (Quadrilateral.make p0 p1 p2 p3) eps = .val b ∧
      ((∃ q, OnBoundary [p0, p1, p3, p2] q ∧ Spec.dist p q < eps) → b = true) ∧
      (b = true → ∃ e ∈ Spec.polyEdges [p0, p1, p3, p2], ∃ q, Spec.OnSegment e.1 e.2 q ∧
        Spec.dist p q < eps + 1 / 10 ^ 7 * Spec.dist e.1 e.2) :=
  onBoundary_loop _ _ _ p eps (quad_enumerates p0 p1 p2 p3)

/-- The same for polygons with any number of corners. -/
theorem C57_polygon (p : V3) (cs : List V3) (pg : Polygon) (eps : ℝ)
    (hm : Polygon.make cs = .val pg) :
    ∃ b, onBoundaryPolygon p pg eps = .val b ∧
      ((∃ q, OnBoundary cs q ∧ Spec.dist p q < eps) → b = true) ∧
      (b = true → ∃ e ∈ Spec.polyEdges cs, ∃ q, Spec.OnSegment e.1 e.2 q ∧
        Spec.dist p q < eps + 1 / 10 ^ 7 * Spec.dist e.1 e.2) := by
  have hcs : pg.corners = cs ∧ cs ≠ [] := by
    unfold Polygon.make at hm
    split_ifs at hm with h
    obtain ⟨c, hc, hm⟩ := Outcome.bind_eq_val.1 hm
    cases hm
    exact ⟨rfl, by rintro rfl; simp at h⟩
  obtain ⟨h4, h5⟩ := hcs
  have := onBoundary_loop _ _ _ p eps (polygon_enumerates pg (h4 ▸ h5))
  unfold onBoundaryPolygon Polygon.numEdges
  rw [h4] at this ⊢
  exact this

/-- The hypotheses are met: the unit square and the point `(2, 0, 0)`. -/
example : ∃ q, OnBoundary [⟨0, 0, 0⟩, ⟨1, 0, 0⟩, ⟨1, 1, 0⟩, ⟨0, 1, 0⟩] q ∧
    Spec.dist ⟨2, 0, 0⟩ q ≤ doubleMax := by
  refine ⟨⟨1, 0, 0⟩, ⟨(⟨0, 0, 0⟩, ⟨1, 0, 0⟩), by simp [Spec.polyEdges], ?_⟩, ?_⟩
  · exact ⟨1, by norm_num, le_rfl, by norm_num, by norm_num, by norm_num⟩
  · have : (1 : ℝ) ≤ 2 ^ 1023 := one_le_pow₀ (by norm_num)
    norm_num [Spec.dist, doubleMax]
    exact this.trans (le_mul_of_one_le_left (by positivity) (by norm_num))

end Props
