import Verif.Model.Geometry.Box
import Verif.Spec.Box
import Verif.Spec.Euclid
import Mathlib.Tactic.IntervalCases

/-!
# Boxes and the bounding-box pre-check (C05, C06, C13)
-/

namespace Props
open Verif Frackit

/-- Lower corner of a box. -/
def Box.lo (b : Box) : V3 := ⟨b.xMin, b.yMin, b.zMin⟩
/-- Upper corner of a box. -/
def Box.hi (b : Box) : V3 := ⟨b.xMax, b.yMax, b.zMax⟩

/-! ## C05 Bounding-box pre-check never discards touching geometries -/

theorem overlap_of_common (i1 i2 : Interval) (eps x : ℝ) (he : 0 < eps)
    (h1 : i1.lo ≤ x) (h2 : x ≤ i1.hi) (h3 : i2.lo ≤ x) (h4 : x ≤ i2.hi) :
    intervalsOverlap i1 i2 eps := by
  unfold intervalsOverlap
  split_ifs <;> first | trivial | linarith

theorem overlap_gap (i1 i2 : Interval) (eps : ℝ) (he : 0 ≤ eps)
    (h : intervalsOverlap i1 i2 eps) (h1 : i1.lo ≤ i1.hi) (h2 : i2.lo ≤ i2.hi) :
    i1.lo ≤ i2.hi + eps ∧ i2.lo ≤ i1.hi + eps := by
  unfold intervalsOverlap at h
  split_ifs at h <;> constructor <;> linarith

/-- If the boxes have a common point, then the pre-check with any positive tolerance passes. -/
theorem C05_common_point_detected (b1 b2 : Box) (p : V3) (eps : ℝ) (he : 0 < eps)
    (h1 : Spec.InBox (Box.lo b1) (Box.hi b1) p) (h2 : Spec.InBox (Box.lo b2) (Box.hi b2) p) :
    doIntersect b1 b2 eps := by
  obtain ⟨a1, a2, a3, a4, a5, a6⟩ := h1
  obtain ⟨c1, c2, c3, c4, c5, c6⟩ := h2
  simp only [Box.lo, Box.hi] at *
  unfold doIntersect
  rw [if_neg (not_not.2 (overlap_of_common _ _ _ p.x he a1 a2 c1 c2)),
    if_neg (not_not.2 (overlap_of_common _ _ _ p.y he a3 a4 c3 c4))]
  exact overlap_of_common _ _ _ p.z he a5 a6 c5 c6

/-- The pre-check with the default tolerance detects every common point, provided one of the boxes
is not a single point. -/
theorem C05_default_tolerance (b1 b2 : Box) (p : V3)
    (h1 : Spec.InBox (Box.lo b1) (Box.hi b1) p) (h2 : Spec.InBox (Box.lo b2) (Box.hi b2) p)
    (hne : Box.lo b1 ≠ Box.hi b1 ∨ Box.lo b2 ≠ Box.hi b2) : doIntersectDefault b1 b2 := by
  apply C05_common_point_detected b1 b2 p _ _ h1 h2
  have hc := confusion_pos
  have e : ∀ b : Box, b.defaultEps = confusion * (Box.hi b - Box.lo b).len := fun b => rfl
  have n1 : 0 ≤ b1.defaultEps := by rw [e]; exact mul_nonneg hc.le (V3.len_nonneg _)
  have n2 : 0 ≤ b2.defaultEps := by rw [e]; exact mul_nonneg hc.le (V3.len_nonneg _)
  rcases hne with h | h
  · have : 0 < b1.defaultEps := by
      rw [e]; exact mul_pos hc (V3.len_pos.2 (fun q => h (sub_eq_zero.1 q).symm))
    norm_num; linarith
  · have : 0 < b2.defaultEps := by
      rw [e]; exact mul_pos hc (V3.len_pos.2 (fun q => h (sub_eq_zero.1 q).symm))
    norm_num; linarith

/-- If the pre-check passes, the boxes are at most the tolerance apart in every direction. -/
theorem C05_detected_is_close (b1 b2 : Box) (eps : ℝ) (he : 0 ≤ eps)
    (v1 : Spec.InBox (Box.lo b1) (Box.hi b1) (Box.lo b1))
    (v2 : Spec.InBox (Box.lo b2) (Box.hi b2) (Box.lo b2)) (h : doIntersect b1 b2 eps) :
    ∃ p q, Spec.InBox (Box.lo b1) (Box.hi b1) p ∧ Spec.InBox (Box.lo b2) (Box.hi b2) q ∧
      |p.x - q.x| ≤ eps ∧ |p.y - q.y| ≤ eps ∧ |p.z - q.z| ≤ eps := by
  have key : ∀ i1 i2 : Interval, i1.lo ≤ i1.hi → i2.lo ≤ i2.hi → intervalsOverlap i1 i2 eps →
      ∃ s t, i1.lo ≤ s ∧ s ≤ i1.hi ∧ i2.lo ≤ t ∧ t ≤ i2.hi ∧ |s - t| ≤ eps := by
    intro i1 i2 h1 h2 ho
    obtain ⟨g1, g2⟩ := overlap_gap i1 i2 eps he ho h1 h2
    refine ⟨max i1.lo (min i1.hi i2.lo), max i2.lo (min i2.hi i1.lo), le_max_left _ _,
      max_le h1 (min_le_left _ _), le_max_left _ _, max_le h2 (min_le_left _ _), ?_⟩
    rw [abs_le]
    constructor <;>
    · rcases max_cases i1.lo (min i1.hi i2.lo) with ⟨e1, _⟩ | ⟨e1, _⟩ <;>
      rcases max_cases i2.lo (min i2.hi i1.lo) with ⟨e2, _⟩ | ⟨e2, _⟩ <;>
      rcases min_cases i1.hi i2.lo with ⟨e3, _⟩ | ⟨e3, _⟩ <;>
      rcases min_cases i2.hi i1.lo with ⟨e4, _⟩ | ⟨e4, _⟩ <;>
      simp only [e1, e2, e3, e4] at * <;> linarith
  simp only [Spec.InBox, Box.lo, Box.hi] at v1 v2 ⊢
  unfold doIntersect at h
  split_ifs at h with hx hy
  obtain ⟨s1, t1, a1, a2, a3, a4, a5⟩ := key ⟨_, _⟩ ⟨_, _⟩ v1.2.1 v2.2.1 hx
  obtain ⟨s2, t2, b1', b2', b3, b4, b5⟩ := key ⟨_, _⟩ ⟨_, _⟩ v1.2.2.2.1 v2.2.2.2.1 hy
  obtain ⟨s3, t3, c1, c2, c3, c4, c5⟩ := key ⟨_, _⟩ ⟨_, _⟩ v1.2.2.2.2.2 v2.2.2.2.2.2 h
  exact ⟨⟨s1, s2, s3⟩, ⟨t1, t2, t3⟩, ⟨a1, a2, b1', b2', c1, c2⟩, ⟨a3, a4, b3, b4, c3, c4⟩,
    a5, b5, c5⟩

/-- If the pre-check with the default tolerance passes, the boxes are at most 1e-7 times their mean diagonal apart in
every direction. -/
theorem C05_default_is_close (b1 b2 : Box)
    (v1 : Spec.InBox (Box.lo b1) (Box.hi b1) (Box.lo b1))
    (v2 : Spec.InBox (Box.lo b2) (Box.hi b2) (Box.lo b2)) (h : doIntersectDefault b1 b2) :
    ∃ p q, Spec.InBox (Box.lo b1) (Box.hi b1) p ∧ Spec.InBox (Box.lo b2) (Box.hi b2) q ∧
      ∀ m, m = 1 / 10 ^ 7 * ((Spec.dist (Box.lo b1) (Box.hi b1) + Spec.dist (Box.lo b2) (Box.hi b2)) / 2) →
        |p.x - q.x| ≤ m ∧ |p.y - q.y| ≤ m ∧ |p.z - q.z| ≤ m := by
  have e : ∀ b : Box, b.defaultEps = 1 / 10 ^ 7 * Spec.dist (Box.lo b) (Box.hi b) := fun b => by
    rw [Spec.dist_comm, Spec.dist_eq_len]; rfl
  have n : ∀ b : Box, 0 ≤ b.defaultEps := fun b => mul_nonneg confusion_pos.le (V3.len_nonneg _)
  obtain ⟨p, q, hp, hq, hd⟩ := C05_detected_is_close b1 b2 _ (by have := n b1; have := n b2; positivity) v1 v2 h
  refine ⟨p, q, hp, hq, fun m hm => ?_⟩
  have : m = 0.5 * (b1.defaultEps + b2.defaultEps) := by rw [hm, e, e]; norm_num; ring
  rw [this]
  exact hd

/-- With a zero tolerance the documented behaviour for touching intervals ("if the upper limit of
interval1 is equal to the lower limit of interval2, true is returned", frackit/common/math.hh:48-51)
does not hold: this is why the tolerance has to be positive above. -/
theorem C05_touching_zero_tolerance_not_detected :
    ¬ doIntersect ⟨0, 1, 0, 1, 0, 1⟩ ⟨1, 2, 0, 1, 0, 1⟩ 0 := by
  unfold doIntersect intervalsOverlap
  norm_num

/-- Boxes touching in one corner are a non-trivial instance. -/
example : Spec.InBox (Box.lo ⟨0, 1, 0, 1, 0, 1⟩) (Box.hi ⟨0, 1, 0, 1, 0, 1⟩) ⟨1, 1, 1⟩ ∧
    Spec.InBox (Box.lo ⟨1, 2, 1, 3, 1, 4⟩) (Box.hi ⟨1, 2, 1, 3, 1, 4⟩) ⟨1, 1, 1⟩ := by
  norm_num [Spec.InBox, Box.lo, Box.hi]

/-! ## C06 Bounding-box pre-check is symmetric -/

/-- The property claimed. -/
def DoIntersectSymmetric : Prop :=
  ∀ (b1 b2 : Box) (eps : ℝ), 0 ≤ eps →
    Spec.InBox (Box.lo b1) (Box.hi b1) (Box.lo b1) → Spec.InBox (Box.lo b2) (Box.hi b2) (Box.lo b2) →
    (doIntersect b1 b2 eps ↔ doIntersect b2 b1 eps)

/-- **The code violates the property**: a flat box exactly one tolerance above another one is
detected in one order of the arguments and not in the other. -/
theorem C06_disproof : ¬ DoIntersectSymmetric := by
  intro h
  have := h ⟨2, 2, 0, 1, 0, 1⟩ ⟨0, 1, 0, 1, 0, 1⟩ 1 (by norm_num)
    (by norm_num [Spec.InBox, Box.lo, Box.hi]) (by norm_num [Spec.InBox, Box.lo, Box.hi])
  unfold doIntersect intervalsOverlap at this
  norm_num at this

/-- What does hold (missing: boxes of zero extent in some direction, at a distance of exactly the
tolerance): for boxes with positive extent in each direction the pre-check is symmetric. -/
theorem C06_symmetric_partial (b1 b2 : Box) (eps : ℝ) (he : 0 ≤ eps)
    (x1 : b1.xMin < b1.xMax) (y1 : b1.yMin < b1.yMax) (z1 : b1.zMin < b1.zMax)
    (x2 : b2.xMin < b2.xMax) (y2 : b2.yMin < b2.yMax) (z2 : b2.zMin < b2.zMax) :
    doIntersect b1 b2 eps ↔ doIntersect b2 b1 eps := by
  have key : ∀ i1 i2 : Interval, i1.lo < i1.hi → i2.lo < i2.hi →
      (intervalsOverlap i1 i2 eps ↔ (i1.lo < i2.hi + eps ∧ i2.lo < i1.hi + eps)) := by
    intro i1 i2 h1 h2
    unfold intervalsOverlap
    split_ifs with a b
    · constructor
      · intro h; exact ⟨h, by linarith⟩
      · intro h; exact h.1
    · constructor
      · intro h; exact ⟨by linarith, by linarith⟩
      · intro h; linarith [h.2]
    · simp only [true_iff]; constructor <;> linarith
  have e : ∀ c1 c2 : Box, doIntersect c1 c2 eps ↔
      (intervalsOverlap ⟨c1.xMin, c1.xMax⟩ ⟨c2.xMin, c2.xMax⟩ eps ∧
       intervalsOverlap ⟨c1.yMin, c1.yMax⟩ ⟨c2.yMin, c2.yMax⟩ eps ∧
       intervalsOverlap ⟨c1.zMin, c1.zMax⟩ ⟨c2.zMin, c2.zMax⟩ eps) := by
    intro c1 c2; unfold doIntersect; split_ifs <;> tauto
  rw [e, e, key _ _ x1 x2, key _ _ y1 y2, key _ _ z1 z2, key _ _ x2 x1, key _ _ y2 y1,
    key _ _ z2 z1]
  tauto

example : (⟨0, 1, 0, 2, 0, 3⟩ : Box).xMin < (⟨0, 1, 0, 2, 0, 3⟩ : Box).xMax := by norm_num

/-! ## C13 Box topology and containment are consistent -/

/-- A box is constructed exactly if the bounds are ordered, and then has these bounds; otherwise an
error is raised. -/
theorem C13_construction (lo hi : V3) :
    (lo.x ≤ hi.x ∧ lo.y ≤ hi.y ∧ lo.z ≤ hi.z →
      ∃ b, Box.ofCorners lo hi = .val b ∧ Box.lo b = lo ∧ Box.hi b = hi) ∧
    (¬ (lo.x ≤ hi.x ∧ lo.y ≤ hi.y ∧ lo.z ≤ hi.z) → (Box.ofCorners lo hi).isThrown) := by
  unfold Box.ofCorners Box.make
  constructor
  · rintro ⟨hx, hy, hz⟩
    rw [if_neg (not_lt.2 hx), if_neg (not_lt.2 hy), if_neg (not_lt.2 hz)]
    exact ⟨_, rfl, rfl, rfl⟩
  · intro h
    split_ifs with hx hy hz
    · trivial
    · trivial
    · trivial
    · exact absurd ⟨not_lt.1 hx, not_lt.1 hy, not_lt.1 hz⟩ h

/-- The eight corners are exactly the combinations of the bounds; the i-th corner has the upper x
(y, z) bound exactly if bit 0 (1, 2) of `i` is set; other indices are rejected. -/
theorem C13_corners (b : Box) :
    (∀ i < 8, b.corner i = .val
      ⟨if i.testBit 0 then b.xMax else b.xMin, if i.testBit 1 then b.yMax else b.yMin,
       if i.testBit 2 then b.zMax else b.zMin⟩) ∧
    (∀ p, Spec.IsBoxCorner (Box.lo b) (Box.hi b) p ↔ ∃ i < 8, b.corner i = .val p) ∧
    (∀ i, 8 ≤ i → (b.corner i).isThrown) := by
  refine ⟨?_, ?_, ?_⟩
  · intro i hi
    interval_cases i <;> simp [Box.corner, Nat.testBit]
  · intro p
    obtain ⟨x, y, z⟩ := p
    simp only [Spec.IsBoxCorner, Box.lo, Box.hi]
    constructor
    · rintro ⟨rfl | rfl, rfl | rfl, rfl | rfl⟩
      · exact ⟨0, by norm_num, rfl⟩
      · exact ⟨4, by norm_num, rfl⟩
      · exact ⟨2, by norm_num, rfl⟩
      · exact ⟨6, by norm_num, rfl⟩
      · exact ⟨1, by norm_num, rfl⟩
      · exact ⟨5, by norm_num, rfl⟩
      · exact ⟨3, by norm_num, rfl⟩
      · exact ⟨7, by norm_num, rfl⟩
    · rintro ⟨i, hi, h⟩
      interval_cases i <;> simp [Box.corner] at h <;> obtain ⟨rfl, rfl, rfl⟩ := h <;> simp
  · intro i hi
    obtain ⟨k, rfl⟩ := Nat.exists_eq_add_of_le' hi
    simp [Box.corner]

/-- For a box of positive extents: each edge joins two corners which differ in exactly one
coordinate, any two such corners are joined by an edge, no two of the 12 edges coincide (also not
with opposite orientation), and other indices are rejected. -/
theorem C13_edges (b : Box) (hx : b.xMin < b.xMax) (hy : b.yMin < b.yMax) (hz : b.zMin < b.zMax) :
    (∀ i < 12, ∃ s, b.edge i = .val s ∧ Spec.IsBoxCorner (Box.lo b) (Box.hi b) s.source ∧
      Spec.IsBoxCorner (Box.lo b) (Box.hi b) s.target ∧
      Spec.DifferInOneCoordinate s.source s.target) ∧
    (∀ p q, Spec.IsBoxCorner (Box.lo b) (Box.hi b) p → Spec.IsBoxCorner (Box.lo b) (Box.hi b) q →
      Spec.DifferInOneCoordinate p q → ∃ i < 12, b.edge i = .val ⟨p, q⟩ ∨ b.edge i = .val ⟨q, p⟩) ∧
    (∀ i < 12, ∀ j < 12, ∀ p q, b.edge i = .val ⟨p, q⟩ →
      (b.edge j = .val ⟨p, q⟩ ∨ b.edge j = .val ⟨q, p⟩) → i = j) ∧
    (∀ i, 12 ≤ i → (b.edge i).isThrown) := by
  have hx' := hx.ne
  have hy' := hy.ne
  have hz' := hz.ne
  have hx'' := hx.ne'
  have hy'' := hy.ne'
  have hz'' := hz.ne'
  refine ⟨?_, ?_, ?_, ?_⟩
  · intro i hi
    interval_cases i <;>
      refine ⟨_, rfl, ?_, ?_, ?_⟩ <;>
      simp [Spec.IsBoxCorner, Box.lo, Box.hi, Spec.DifferInOneCoordinate, hx', hy', hz']
  · rintro ⟨px, py, pz⟩ ⟨qx, qy, qz⟩
    simp only [Spec.IsBoxCorner, Box.lo, Box.hi, Spec.DifferInOneCoordinate]
    rintro ⟨rfl | rfl, rfl | rfl, rfl | rfl⟩ ⟨rfl | rfl, rfl | rfl, rfl | rfl⟩ hd
    all_goals first
      | (exfalso; simp_all; done)
      | exact ⟨0, by norm_num, Or.inl rfl⟩
      | exact ⟨0, by norm_num, Or.inr rfl⟩
      | exact ⟨1, by norm_num, Or.inl rfl⟩
      | exact ⟨1, by norm_num, Or.inr rfl⟩
      | exact ⟨2, by norm_num, Or.inl rfl⟩
      | exact ⟨2, by norm_num, Or.inr rfl⟩
      | exact ⟨3, by norm_num, Or.inl rfl⟩
      | exact ⟨3, by norm_num, Or.inr rfl⟩
      | exact ⟨4, by norm_num, Or.inl rfl⟩
      | exact ⟨4, by norm_num, Or.inr rfl⟩
      | exact ⟨5, by norm_num, Or.inl rfl⟩
      | exact ⟨5, by norm_num, Or.inr rfl⟩
      | exact ⟨6, by norm_num, Or.inl rfl⟩
      | exact ⟨6, by norm_num, Or.inr rfl⟩
      | exact ⟨7, by norm_num, Or.inl rfl⟩
      | exact ⟨7, by norm_num, Or.inr rfl⟩
      | exact ⟨8, by norm_num, Or.inl rfl⟩
      | exact ⟨8, by norm_num, Or.inr rfl⟩
      | exact ⟨9, by norm_num, Or.inl rfl⟩
      | exact ⟨9, by norm_num, Or.inr rfl⟩
      | exact ⟨10, by norm_num, Or.inl rfl⟩
      | exact ⟨10, by norm_num, Or.inr rfl⟩
      | exact ⟨11, by norm_num, Or.inl rfl⟩
      | exact ⟨11, by norm_num, Or.inr rfl⟩
  · intro i hi j hj p q h1 h2
    have hi1 : ∃ s, b.edge i = .val s := ⟨_, h1⟩
    interval_cases i <;> simp only [Box.edge, Box.mkEdge, Box.corner, Outcome.val_bind,
      Outcome.pure_eq, Outcome.val.injEq, Segment.mk.injEq] at h1 <;>
    obtain ⟨rfl, rfl⟩ := h1 <;>
    interval_cases j <;> first
      | rfl
      | (exfalso
         simp [Box.edge, Box.mkEdge, Box.corner, hx', hy', hz', hx'', hy'', hz''] at h2)
  · intro i hi
    obtain ⟨k, rfl⟩ := Nat.exists_eq_add_of_le' hi
    simp [Box.edge]

theorem interp {a b x : ℝ} (h1 : a ≤ x) (h2 : x ≤ b) : ∃ t : ℝ, 0 ≤ t ∧ t ≤ 1 ∧
    x = a + t * (b - a) := by
  rcases eq_or_lt_of_le (le_trans h1 h2) with e | e
  · exact ⟨0, le_rfl, zero_le_one, by rw [zero_mul, add_zero]; exact le_antisymm (by rw [e]; exact h2) h1⟩
  · have hp : 0 < b - a := by linarith
    exact ⟨(x - a) / (b - a), div_nonneg (by linarith) hp.le, (div_le_one hp).2 (by linarith), by
      field_simp; ring⟩

theorem interp_bounds {a b t : ℝ} (h : a ≤ b) (h0 : 0 ≤ t) (h1 : t ≤ 1) :
    a ≤ a + t * (b - a) ∧ a + t * (b - a) ≤ b := by
  constructor
  · nlinarith
  · nlinarith

/-- The six faces are parallelograms whose union is exactly the boundary of the box; other indices
are rejected. -/
theorem C13_faces (b : Box) (hx : b.xMin ≤ b.xMax) (hy : b.yMin ≤ b.yMax) (hz : b.zMin ≤ b.zMax) :
    (∀ i < 6, ∃ f, b.face i = .val f ∧ f.p3 = f.p1 + f.p2 - f.p0) ∧
    (∀ p, Spec.OnBoxBoundary (Box.lo b) (Box.hi b) p ↔
      ∃ i < 6, ∃ f, b.face i = .val f ∧ Spec.InParallelogram f.p0 f.p1 f.p2 p) ∧
    (∀ i, 6 ≤ i → (b.face i).isThrown) := by
  refine ⟨?_, ?_, ?_⟩
  · intro i hi
    interval_cases i <;> refine ⟨_, rfl, ?_⟩ <;>
      ext <;> simp [Quadrilateral.make]
  · rintro ⟨x, y, z⟩
    simp only [Spec.OnBoxBoundary, Spec.InBox, Box.lo, Box.hi, Spec.InParallelogram]
    constructor
    · rintro ⟨⟨h1, h2, h3, h4, h5, h6⟩, h⟩
      obtain ⟨sx, sx0, sx1, ex⟩ := interp h1 h2
      obtain ⟨sy, sy0, sy1, ey⟩ := interp h3 h4
      obtain ⟨sz, sz0, sz1, ez⟩ := interp h5 h6
      rcases h with h | h | h | h | h | h
      · refine ⟨2, by norm_num, _, rfl, sy, sz, sy0, sy1, sz0, sz1, ?_, ?_, ?_⟩ <;>
          simp [Quadrilateral.make] <;> linarith
      · refine ⟨3, by norm_num, _, rfl, sy, sz, sy0, sy1, sz0, sz1, ?_, ?_, ?_⟩ <;>
          simp [Quadrilateral.make] <;> linarith
      · refine ⟨1, by norm_num, _, rfl, sx, sz, sx0, sx1, sz0, sz1, ?_, ?_, ?_⟩ <;>
          simp [Quadrilateral.make] <;> linarith
      · refine ⟨4, by norm_num, _, rfl, sx, sz, sx0, sx1, sz0, sz1, ?_, ?_, ?_⟩ <;>
          simp [Quadrilateral.make] <;> linarith
      · refine ⟨0, by norm_num, _, rfl, sx, sy, sx0, sx1, sy0, sy1, ?_, ?_, ?_⟩ <;>
          simp [Quadrilateral.make] <;> linarith
      · refine ⟨5, by norm_num, _, rfl, sx, sy, sx0, sx1, sy0, sy1, ?_, ?_, ?_⟩ <;>
          simp [Quadrilateral.make] <;> linarith
    · rintro ⟨i, hi, f, hf, s, t, s0, s1, t0, t1, ex, ey, ez⟩
      have bx := fun u (h0 : 0 ≤ u) (h1 : u ≤ 1) => interp_bounds (t := u) hx h0 h1
      have by' := fun u (h0 : 0 ≤ u) (h1 : u ≤ 1) => interp_bounds (t := u) hy h0 h1
      have bz := fun u (h0 : 0 ≤ u) (h1 : u ≤ 1) => interp_bounds (t := u) hz h0 h1
      have bxs := bx s s0 s1
      have bys := by' s s0 s1
      have byt := by' t t0 t1
      have bzt := bz t t0 t1
      interval_cases i <;>
        simp only [Box.face, Box.mkFace, Box.corner, Outcome.val_bind, Outcome.pure_eq,
          Outcome.val.injEq] at hf <;> subst hf <;>
        simp only [Quadrilateral.make, sub_self, mul_zero, add_zero] at ex ey ez <;>
        subst ex ey ez <;>
        refine ⟨⟨?_, ?_, ?_, ?_, ?_, ?_⟩, ?_⟩ <;>
        first
          | linarith
          | simp
  · intro i hi
    obtain ⟨k, rfl⟩ := Nat.exists_eq_add_of_le' hi
    simp [Box.face]

/-- Every point of the box is contained for every positive tolerance, and every contained point is
in the box enlarged by the tolerance: containment is exactly membership in the open enlarged box. -/
theorem C13_contains (b : Box) (p : V3) (eps : ℝ) :
    (0 < eps → Spec.InBox (Box.lo b) (Box.hi b) p → b.contains p eps) ∧
    (b.contains p eps → Spec.InBox (Box.lo b - ⟨eps, eps, eps⟩) (Box.hi b + ⟨eps, eps, eps⟩) p) ∧
    ((∀ e, 0 < e → b.contains p e) → Spec.InBox (Box.lo b) (Box.hi b) p) := by
  simp only [Spec.InBox, Box.lo, Box.hi, Box.contains, V3.sub_x, V3.sub_y, V3.sub_z, V3.add_x,
    V3.add_y, V3.add_z]
  refine ⟨?_, ?_, ?_⟩
  · rintro he ⟨h1, h2, h3, h4, h5, h6⟩
    refine ⟨?_, ?_, ?_, ?_, ?_, ?_⟩ <;> linarith
  · rintro ⟨h1, h2, h3, h4, h5, h6⟩
    refine ⟨?_, ?_, ?_, ?_, ?_, ?_⟩ <;> linarith
  · intro h
    refine ⟨?_, ?_, ?_, ?_, ?_, ?_⟩ <;>
    · apply le_of_forall_pos_lt_add
      intro e he
      have := h e he
      linarith [this.1, this.2.1, this.2.2.1, this.2.2.2.1, this.2.2.2.2.1, this.2.2.2.2.2]

/-- The centre is in the box and the volume is the product of the extents, not negative. -/
theorem C13_center_volume (b : Box) (hx : b.xMin ≤ b.xMax) (hy : b.yMin ≤ b.yMax)
    (hz : b.zMin ≤ b.zMax) :
    Spec.InBox (Box.lo b) (Box.hi b) b.center ∧ b.center = (1 / 2 : ℝ) • (Box.lo b + Box.hi b) ∧
      0 ≤ b.volume := by
  refine ⟨?_, ?_, ?_⟩
  · simp only [Spec.InBox, Box.lo, Box.hi, Box.center]
    norm_num
    refine ⟨?_, ?_, ?_, ?_, ?_, ?_⟩ <;> linarith
  · ext <;> simp [Box.center, Box.lo, Box.hi] <;> ring
  · unfold Box.volume
    have h1 : 0 ≤ b.xMax - b.xMin := by linarith
    have h2 : 0 ≤ b.yMax - b.yMin := by linarith
    have h3 : 0 ≤ b.zMax - b.zMin := by linarith
    positivity

example : ∃ b, Box.ofCorners ⟨0, 0, 0⟩ ⟨1, 2, 3⟩ = .val b ∧ b.xMin < b.xMax ∧ b.yMin < b.yMax ∧
    b.zMin < b.zMax ∧ b.contains ⟨1, 2, 3⟩ (1 / 10) ∧ ¬ b.contains ⟨1, 2, 4⟩ (1 / 10) := by
  refine ⟨⟨0, 1, 0, 2, 0, 3⟩, ?_, ?_⟩
  · norm_num [Box.ofCorners, Box.make]
  · norm_num [Box.contains]

end Props
