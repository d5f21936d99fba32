import Verif.Props.Plane

/-!
# Segments (C08)
-/

namespace Props
open Verif Frackit

/-! ## C08 Segment containment is exact up to the tolerance -/

theorem lt_sq_iff {v : V3} {eps : ℝ} (he : 0 < eps) : v.sqLen < eps * eps ↔ v.len < eps := by
  rw [← V3.len_mul_self]
  constructor
  · intro h; exact lt_of_mul_self_lt_mul_self₀ he.le h
  · intro h; exact mul_self_lt_mul_self v.len_nonneg h

/-- Data of a non-degenerate segment: unit direction `d`, length `L > 0`. -/
theorem segment_frame {s : Segment} (h : s.source ≠ s.target) :
    ∃ (d : V3) (L : ℝ), s.supportingLine = .val ⟨s.source, d⟩ ∧ Spec.IsUnit d ∧ 0 < L ∧
      s.target = s.source + L • d := by
  have h' : s.target - s.source ≠ 0 := fun e => h (sub_eq_zero.1 e).symm
  obtain ⟨d, r, hd, hu, hr, hv⟩ := exists_direction h'
  refine ⟨d, r, ?_, hu, hr, ?_⟩
  · simp [Segment.supportingLine, Segment.direction, hd]
  · rw [← hv]; module

/-- `contains(p, eps)` returns true exactly if some point of the segment is closer to `p` than
`eps`, for every non-degenerate segment, every point and every positive tolerance. -/
theorem C08_contains_iff_within_eps (s : Segment) (p : V3) (eps : ℝ)
    (hs : s.source ≠ s.target) (he : 0 < eps) :
    s.contains p eps ↔ ∃ q, Spec.OnSegment s.source s.target q ∧ Spec.dist p q < eps := by
  obtain ⟨d, L, hl, hu, hL, ht⟩ := segment_frame hs
  have hu' := (Spec.isUnit_iff d).1 hu
  rw [V3.sqLen_eq_dot] at hu'
  set u : ℝ := d.dot (p - s.source) with hudef
  have hd2 : d.dot (p - s.target) = u - L := by
    rw [show p - s.target = (p - s.source) - L • d by rw [ht]; module, V3.dot_sub, V3.dot_smul, hu']
    ring
  have hproj : (⟨s.source, d⟩ : Line).projection p = s.source + u • d := rfl
  -- squared distance to a point of the line
  have hdist : ∀ t : ℝ, (p - (s.source + t • d)).sqLen
      = (p - (s.source + u • d)).sqLen + (t - u) ^ 2 := by
    intro t
    have e : p - (s.source + t • d) = (p - (s.source + u • d)) + (u - t) • d := by module
    have o : (p - (s.source + u • d)).dot d = 0 := by
      rw [show p - (s.source + u • d) = (p - s.source) - u • d by module, V3.sub_dot, V3.smul_dot,
        hu', V3.dot_comm, ← hudef]; ring
    rw [e, V3.sqLen_add, V3.dot_smul, o, V3.sqLen_smul, V3.sqLen_eq_dot d, hu']; ring
  have hunf : s.contains p eps ↔
      ((s.source + u • d) - p).sqLen < eps * eps ∧
      (((u < 0) ↔ ¬ (u - L < 0)) ∨
        ((p - s.source).sqLen < eps * eps ∨ (p - s.target).sqLen < eps * eps)) := by
    unfold Segment.contains
    rw [hl]
    simp only [true_imp_iff]
    rw [hd2]
    exact Iff.rfl
  rw [hunf, V3.sqLen_sub_comm]
  have hmem : ∀ q, Spec.OnSegment s.source s.target q ↔
      ∃ t : ℝ, 0 ≤ t ∧ t ≤ L ∧ q = s.source + t • d := by
    intro q
    rw [Spec.onSegment_iff]
    constructor
    · rintro ⟨t, h0, h1, rfl⟩
      refine ⟨t * L, by positivity, by nlinarith, ?_⟩
      rw [ht]; module
    · rintro ⟨t, h0, h1, rfl⟩
      refine ⟨t / L, by positivity, (div_le_one hL).2 h1, ?_⟩
      rw [ht, show s.source + L • d - s.source = L • d by module, smul_smul,
        div_mul_cancel₀ _ hL.ne']
  constructor
  · rintro ⟨h1, h2⟩
    rcases h2 with h2 | h2 | h2
    · by_cases hu0 : u < 0
      · have := h2.1 hu0; exfalso; linarith
      · have hlt : u - L < 0 := by by_contra hc; exact hu0 (h2.2 hc)
        refine ⟨s.source + u • d, (hmem _).2 ⟨u, not_lt.1 hu0, by linarith, rfl⟩, ?_⟩
        rw [Spec.dist_eq_len]; exact (lt_sq_iff he).1 h1
    · refine ⟨s.source, (hmem _).2 ⟨0, le_rfl, hL.le, by simp⟩, ?_⟩
      rw [Spec.dist_eq_len]; exact (lt_sq_iff he).1 h2
    · refine ⟨s.target, (hmem _).2 ⟨L, hL.le, le_rfl, ht⟩, ?_⟩
      rw [Spec.dist_eq_len]; exact (lt_sq_iff he).1 h2
  · rintro ⟨q, hq, hqd⟩
    obtain ⟨t, h0, h1, rfl⟩ := (hmem q).1 hq
    rw [Spec.dist_eq_len, ← lt_sq_iff he, hdist] at hqd
    refine ⟨by nlinarith [sq_nonneg (t - u)], ?_⟩
    by_cases hu0 : u < 0
    · right; left
      have := hdist 0
      simp only [zero_smul, add_zero] at this
      rw [this]; nlinarith
    · by_cases huL : u - L < 0
      · left; exact ⟨fun h => absurd h hu0, fun h => absurd huL h⟩
      · right; right
        have := hdist L
        rw [← ht] at this
        rw [this]; nlinarith

/-- Every point of the segment is contained, for every positive tolerance. -/
theorem C08_points_contained (s : Segment) (p : V3) (eps : ℝ) (hs : s.source ≠ s.target)
    (he : 0 < eps) (hp : Spec.OnSegment s.source s.target p) : s.contains p eps := by
  rw [C08_contains_iff_within_eps s p eps hs he]
  refine ⟨p, hp, ?_⟩
  rw [Spec.dist_eq_len]; simp [V3.len, V3.sqLen, he]

/-- If the point is on the supporting line, skipping the check on the line does not change the
result. -/
theorem C08_skip_line_check (s : Segment) (p : V3) (eps : ℝ) (hs : s.source ≠ s.target)
    (he : 0 < eps) (hp : Spec.Collinear s.source s.target p) :
    s.contains p eps false ↔ s.contains p eps true := by
  obtain ⟨d, L, hl, hu, hL, ht⟩ := segment_frame hs
  have honline : (⟨s.source, d⟩ : Line).contains p eps := by
    have hu' := (Spec.isUnit_iff d).1 hu
    rw [V3.sqLen_eq_dot] at hu'
    have hc := (collinear_iff_cross _ _ _).1 hp
    rw [show s.target - s.source = L • d by rw [ht]; module] at hc
    have hdc : d.cross (p - s.source) = 0 := by
      have e : (L • d).cross (p - s.source) = L • (d.cross (p - s.source)) := by
        ext <;> simp [V3.cross] <;> ring
      rw [e] at hc
      exact (smul_eq_zero_iff_right hL.ne').1 hc
    have hsq : ((⟨s.source, d⟩ : Line).projection p - p).sqLen = 0 := by
      have e : (⟨s.source, d⟩ : Line).projection p - p
          = d.dot (p - s.source) • d - (p - s.source) := by
        unfold Line.projection; module
      have h1 := V3.sqLen_cross d (p - s.source)
      rw [hdc, V3.sqLen_eq_dot d, hu', show (0 : V3).sqLen = 0 by simp [V3.sqLen]] at h1
      rw [e, V3.sqLen_sub, V3.sqLen_smul, V3.smul_dot, V3.sqLen_eq_dot d, hu']
      nlinarith
    unfold Line.contains
    rw [hsq]; positivity
  unfold Segment.contains
  rw [hl]
  simp [honline]

/-- `getPoint` yields exactly the points of the segment, starting at the source and ending at the
target, and reversing a segment does not change its points. -/
theorem C08_getPoint_on_segment (s : Segment) :
    (∀ t, 0 ≤ t → t ≤ 1 → Spec.OnSegment s.source s.target (s.getPoint t)) ∧
    (∀ p, Spec.OnSegment s.source s.target p → ∃ t, 0 ≤ t ∧ t ≤ 1 ∧ s.getPoint t = p) ∧
    s.getPoint 0 = s.source ∧ s.getPoint 1 = s.target ∧
    (∀ t, s.getReversed.getPoint t = s.getPoint (1 - t)) ∧
    s.getReversed.getReversed = s ∧
    (∀ p, Spec.OnSegment s.getReversed.source s.getReversed.target p ↔
      Spec.OnSegment s.source s.target p) := by
  refine ⟨?_, ?_, ?_, ?_, ?_, rfl, ?_⟩
  · intro t h0 h1
    exact (Spec.onSegment_iff _ _ _).2 ⟨t, h0, h1, rfl⟩
  · intro p hp
    obtain ⟨t, h0, h1, rfl⟩ := (Spec.onSegment_iff _ _ _).1 hp
    exact ⟨t, h0, h1, rfl⟩
  · simp [Segment.getPoint]
  · simp [Segment.getPoint]
  · intro t; simp only [Segment.getPoint, Segment.getReversed]; module
  · intro p
    simp only [Segment.getReversed, Spec.onSegment_iff]
    constructor
    · rintro ⟨t, h0, h1, rfl⟩
      exact ⟨1 - t, by linarith, by linarith, by module⟩
    · rintro ⟨t, h0, h1, rfl⟩
      exact ⟨1 - t, by linarith, by linarith, by module⟩

/-- Containment does not depend on the orientation of the segment. -/
theorem C08_reversed_contains (s : Segment) (p : V3) (eps : ℝ) (hs : s.source ≠ s.target)
    (he : 0 < eps) : s.getReversed.contains p eps ↔ s.contains p eps := by
  rw [C08_contains_iff_within_eps s p eps hs he,
    C08_contains_iff_within_eps s.getReversed p eps (by
      simpa [Segment.getReversed] using hs.symm) he]
  simp only [(C08_getPoint_on_segment s).2.2.2.2.2.2]

/-- A segment of zero length contains no point, not even its own end points (its direction is
invalid): the hypothesis `source ≠ target` of the theorems above cannot be dropped. -/
theorem C08_degenerate_contains_nothing (a p : V3) (eps : ℝ) :
    ¬ (⟨a, a⟩ : Segment).contains p eps := by
  have : (⟨a, a⟩ : Segment).supportingLine = .nan := by
    have h : mkDirection (0 : V3) = .nan := (C02_direction_invalid_iff_zero _).2 rfl
    simp [Segment.supportingLine, Segment.direction, h]
  unfold Segment.contains
  rw [this]
  simp

/-- The tolerance is sharp at both sides: on the x-axis from 0 to 2, the point at height 1/2 over
the middle is contained for the tolerance 1 but not for the tolerance 1/4. -/
example : (⟨⟨0, 0, 0⟩, ⟨2, 0, 0⟩⟩ : Segment).contains ⟨1, 1 / 2, 0⟩ 1 ∧
    ¬ (⟨⟨0, 0, 0⟩, ⟨2, 0, 0⟩⟩ : Segment).contains ⟨1, 1 / 2, 0⟩ (1 / 4) := by
  have hne : (⟨⟨0, 0, 0⟩, ⟨2, 0, 0⟩⟩ : Segment).source ≠ (⟨⟨0, 0, 0⟩, ⟨2, 0, 0⟩⟩ : Segment).target := by
    intro e; have := congrArg V3.x e; norm_num at this
  constructor
  · rw [C08_contains_iff_within_eps _ _ _ hne (by norm_num)]
    refine ⟨⟨1, 0, 0⟩, ⟨1 / 2, by norm_num⟩, ?_⟩
    unfold Spec.dist
    rw [Real.sqrt_lt' (by norm_num)]; norm_num
  · rw [C08_contains_iff_within_eps _ _ _ hne (by norm_num)]
    rintro ⟨q, ⟨t, h0, h1, hx, hy, hz⟩, hd⟩
    unfold Spec.dist at hd
    rw [Real.sqrt_lt' (by norm_num)] at hd
    norm_num at hy hz
    simp only [hy, hz] at hd
    nlinarith [sq_nonneg (1 - q.x)]

end Props
