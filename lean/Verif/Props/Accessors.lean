import Verif.Props.Plane
import Verif.Props.Polygon
import Verif.Props.SampledPolygons
import Verif.Model.Common.Math
import Verif.Model.Distance.Distance

/-!
# Corners and edges, angles in degrees, projected segments
-/

namespace Props
open Verif Frackit

/-! ## C07 Projection of segments -/

/-- The projection of a segment onto a plane consists of the projections of its points; it is not longer. -/
theorem C07_plane_projection_of_segment (pl : Plane) (s : Segment) (hn : Spec.IsUnit pl.normal) :
    (∀ q, Spec.OnSegment (pl.projectionSegment s).source (pl.projectionSegment s).target q ↔
      ∃ p, Spec.OnSegment s.source s.target p ∧ q = pl.projection p) ∧
    Spec.dist (pl.projectionSegment s).source (pl.projectionSegment s).target
      ≤ Spec.dist s.source s.target := by
  have aff : ∀ p : V3, ∀ t : ℝ, p.x = (1 - t) * s.source.x + t * s.target.x →
      p.y = (1 - t) * s.source.y + t * s.target.y → p.z = (1 - t) * s.source.z + t * s.target.z →
      (pl.projection p).x = (1 - t) * (pl.projection s.source).x + t * (pl.projection s.target).x ∧
      (pl.projection p).y = (1 - t) * (pl.projection s.source).y + t * (pl.projection s.target).y ∧
      (pl.projection p).z = (1 - t) * (pl.projection s.source).z + t * (pl.projection s.target).z := by
    intro p t hx hy hz
    simp only [Plane.projection, V3.add_x, V3.add_y, V3.add_z, V3.smul_x, V3.smul_y, V3.smul_z, V3.dot, V3.sub_x,
      V3.sub_y, V3.sub_z, hx, hy, hz]
    refine ⟨by ring, by ring, by ring⟩
  constructor
  · intro q
    constructor
    · rintro ⟨t, h0, h1, hx, hy, hz⟩
      obtain ⟨a, b, c⟩ := aff ⟨(1 - t) * s.source.x + t * s.target.x, (1 - t) * s.source.y + t * s.target.y,
        (1 - t) * s.source.z + t * s.target.z⟩ t rfl rfl rfl
      exact ⟨_, ⟨t, h0, h1, rfl, rfl, rfl⟩, V3.ext (hx.trans a.symm) (hy.trans b.symm) (hz.trans c.symm)⟩
    · rintro ⟨p, ⟨t, h0, h1, hx, hy, hz⟩, rfl⟩
      obtain ⟨a, b, c⟩ := aff p t hx hy hz
      exact ⟨t, h0, h1, a, b, c⟩
  · rw [Spec.dist_eq_len, Spec.dist_eq_len]
    unfold V3.len
    apply Real.sqrt_le_sqrt
    have hn' := (Spec.isUnit_iff _).1 hn
    have e : ((pl.projectionSegment s).source - (pl.projectionSegment s).target)
        = (s.source - s.target) - (pl.normal.dot (s.source - s.target)) • pl.normal := by
      simp only [Plane.projectionSegment, Plane.projection]
      apply V3.ext <;> simp [V3.dot] <;> ring
    rw [e]
    have : ∀ w n : V3, n.sqLen = 1 → (w - (n.dot w) • n).sqLen = w.sqLen - (n.dot w) ^ 2 := by
      intro w n h
      simp only [V3.sqLen, V3.dot, V3.sub_x, V3.sub_y, V3.sub_z, V3.smul_x, V3.smul_y, V3.smul_z] at h ⊢
      linear_combination (n.x * w.x + n.y * w.y + n.z * w.z) ^ 2 * h
    rw [this _ _ hn']
    nlinarith [sq_nonneg (pl.normal.dot (s.source - s.target))]

/-! ## C81 Degrees and radians -/

/-- The conversions are inverse to each other. -/
theorem C81_inverse (x : ℝ) : toRadians (toDegrees x) = x ∧ toDegrees (toRadians x) = x := by
  have := Real.pi_ne_zero
  unfold toRadians toDegrees
  constructor <;> field_simp

/-- A full turn of 360 degrees is 2π; the conversions respect sums, and hence angles that differ by full turns
have the same direction. -/
theorem C81_turns (x y : ℝ) (k : ℤ) :
    toRadians 360 = 2 * Real.pi ∧ toRadians (x + y) = toRadians x + toRadians y ∧
      toDegrees (x + y) = toDegrees x + toDegrees y ∧
      Real.cos (toRadians (x + k * 360)) = Real.cos (toRadians x) ∧
      Real.sin (toRadians (x + k * 360)) = Real.sin (toRadians x) ∧
      (x < y ↔ toRadians x < toRadians y) := by
  have hp := Real.pi_pos
  have e : toRadians (x + k * 360) = toRadians x + k * (2 * Real.pi) := by unfold toRadians; ring
  refine ⟨by unfold toRadians; ring, by unfold toRadians; ring, by unfold toDegrees; ring, ?_, ?_, ?_⟩
  · rw [e, Real.cos_add_int_mul_two_pi]
  · rw [e, Real.sin_add_int_mul_two_pi]
  · unfold toRadians
    rw [div_lt_div_iff_of_pos_right (by norm_num), mul_lt_mul_iff_left₀ hp]

example : toRadians 180 = Real.pi ∧ toDegrees (Real.pi / 2) = 90 := by
  have := Real.pi_ne_zero
  unfold toRadians toDegrees
  constructor <;> field_simp <;> norm_num

/-! ## C82 Corners and edges -/

/-- The segments, without direction, are the edges of the closed polygon through the points. -/
def ClosedBoundary (edge : ℕ → Outcome Segment) (n : ℕ) (cs : List V3) : Prop :=
  (∀ i < n, ∃ s, edge i = .val s ∧ ∃ j < cs.length,
    (s.source = cs.getD j 0 ∧ s.target = cs.getD ((j + 1) % cs.length) 0) ∨
    (s.target = cs.getD j 0 ∧ s.source = cs.getD ((j + 1) % cs.length) 0)) ∧
  ∀ j < cs.length, ∃ i < n, ∃ s, edge i = .val s ∧
    ((s.source = cs.getD j 0 ∧ s.target = cs.getD ((j + 1) % cs.length) 0) ∨
     (s.target = cs.getD j 0 ∧ s.source = cs.getD ((j + 1) % cs.length) 0))

/-- Triangles: the corners are those of the construction, and the edges connect them; other edge indices raise an
error. -/
theorem C82_triangle (p0 p1 p2 : V3) :
    (∀ i < 3, (Triangle.make p0 p1 p2).corner i = .val ([p0, p1, p2].getD i 0)) ∧
    ClosedBoundary (Triangle.make p0 p1 p2).edge 3 [p0, p1, p2] ∧
    ∀ i, 3 ≤ i → ((Triangle.make p0 p1 p2).edge i).isThrown := by
  refine ⟨?_, ⟨?_, ?_⟩, ?_⟩
  · intro i hi; interval_cases i <;> rfl
  · intro i hi
    interval_cases i
    · exact ⟨_, rfl, 0, by simp, .inl ⟨rfl, rfl⟩⟩
    · exact ⟨_, rfl, 1, by simp, .inl ⟨rfl, rfl⟩⟩
    · exact ⟨_, rfl, 2, by simp, .inl ⟨rfl, by simp [Triangle.make]⟩⟩
  · intro j hj
    simp only [List.length_cons, List.length_nil] at hj
    interval_cases j
    · exact ⟨0, by omega, _, rfl, .inl ⟨rfl, rfl⟩⟩
    · exact ⟨1, by omega, _, rfl, .inl ⟨rfl, rfl⟩⟩
    · exact ⟨2, by omega, _, rfl, .inl ⟨rfl, by simp [Triangle.make]⟩⟩
  · intro i hi
    obtain ⟨k, rfl⟩ := Nat.exists_eq_add_of_le' hi
    exact Outcome.isThrown_thrown _

/-- Quadrilaterals: the third and fourth corner are numbered the other way round; the edges run around the
boundary. -/
theorem C82_quadrilateral (p0 p1 p2 p3 : V3) :
    (∀ i < 4, (Quadrilateral.make p0 p1 p2 p3).corner i = .val ([p0, p1, p2, p3].getD i 0)) ∧
    ClosedBoundary (Quadrilateral.make p0 p1 p2 p3).edge (Quadrilateral.make p0 p1 p2 p3).numEdges
      [p0, p1, p3, p2] ∧
    ∀ i, 4 ≤ i → ((Quadrilateral.make p0 p1 p2 p3).edge i).isThrown := by
  refine ⟨?_, ⟨?_, ?_⟩, ?_⟩
  · intro i hi; interval_cases i <;> rfl
  · intro i hi
    simp only [Quadrilateral.numEdges] at hi
    interval_cases i
    · exact ⟨_, rfl, 0, by simp, .inl ⟨rfl, rfl⟩⟩
    · exact ⟨_, rfl, 1, by simp, .inl ⟨rfl, rfl⟩⟩
    · exact ⟨_, rfl, 3, by simp, .inr ⟨rfl, by simp [Quadrilateral.make]⟩⟩
    · exact ⟨_, rfl, 2, by simp, .inr ⟨rfl, rfl⟩⟩
  · intro j hj
    simp only [List.length_cons, List.length_nil] at hj
    simp only [Quadrilateral.numEdges]
    interval_cases j
    · exact ⟨0, by omega, _, rfl, .inl ⟨rfl, rfl⟩⟩
    · exact ⟨1, by omega, _, rfl, .inl ⟨rfl, rfl⟩⟩
    · exact ⟨3, by omega, _, rfl, .inr ⟨rfl, rfl⟩⟩
    · exact ⟨2, by omega, _, rfl, .inr ⟨rfl, by simp [Quadrilateral.make]⟩⟩
  · intro i hi
    obtain ⟨k, rfl⟩ := Nat.exists_eq_add_of_le' hi
    exact Outcome.isThrown_thrown _

/-- Polygons: the edges run around the boundary, in the order of the corners. -/
theorem C82_polygon (cs : List V3) (pg : Polygon) (h : Polygon.make cs = .val pg) :
    pg.corners = cs ∧ pg.numEdges = cs.length ∧ ClosedBoundary pg.edge pg.numEdges cs := by
  obtain ⟨h3, hp⟩ := polygon_make_val h
  obtain ⟨pg', hm, hcs, _⟩ := polygon_make h3 hp
  rw [h] at hm
  cases hm
  refine ⟨hcs, by rw [Polygon.numEdges, hcs], ?_, ?_⟩
  · intro i hi
    rw [Polygon.numEdges, hcs] at hi
    exact ⟨polygonEdge cs i, by rw [Polygon.edge, hcs, if_pos hi], i, hi, .inl ⟨rfl, rfl⟩⟩
  · intro j hj
    exact ⟨j, by rw [Polygon.numEdges, hcs]; exact hj, polygonEdge cs j, by rw [Polygon.edge, hcs, if_pos hj],
      .inl ⟨rfl, rfl⟩⟩

example : ∃ pg, Polygon.make square5 = .val pg :=
  let ⟨pg, h, _⟩ := polygon_make (cs := square5) (by simp [square5]) square5_proper
  ⟨pg, h⟩

/-! ## C27 Sampled polygons -/

/-- The polygon returned by the sampler has the sampled corners; it is flagged as convex if its edges have no
tiny components. -/
theorem C27_polygon_partial (sort : List V3 → List V3) (hs : SortsBy edgeAngle sort) (d : PolygonDraws) (n : ℕ)
    (Ls Ld : ℝ) (h : Admissible d n Ls Ld) (pg : Polygon) (hr : samplePolygon sort d = .val pg) :
    sampleCorners sort d = .val pg.corners ∧ pg.corners.length = n ∧ Spec.BoxCenter pg.corners d.center ∧
      (Spec.NoTinyEdges d.strikeAngle d.dipAngle pg.corners →
        Spec.SampledPolygon n d.strikeAngle d.dipAngle Ls Ld d.center pg.corners ∧ pg.isConvex) := by
  unfold samplePolygon at hr
  obtain ⟨cs, hcs, hm⟩ := Outcome.bind_eq_val.1 hr
  obtain ⟨h3, hp⟩ := polygon_make_val hm
  obtain ⟨pg', hm', hc, _⟩ := polygon_make h3 hp
  rw [hm] at hm'
  cases hm'
  rw [hc]
  obtain ⟨cs', h1, h2, hpl, hbc, _⟩ := C27_structure sort hs d n Ls Ld h
  rw [hcs] at h1
  cases h1
  refine ⟨hcs, h2, hbc, fun ht => ?_⟩
  obtain ⟨hsp, hcv⟩ := C27_convex_partial sort hs d n Ls Ld h cs hcs ht
  refine ⟨hsp, ?_⟩
  obtain ⟨p, hpm⟩ : ∃ p, p ∈ cs := List.exists_mem_of_ne_nil _ (by rintro rfl; simp at h3)
  exact C20_convex_is_flagged _ _ _ pg (dipNormal_unit _ _) (hpl p hpm) hm hcv

end Props
