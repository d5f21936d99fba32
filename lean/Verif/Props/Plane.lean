import Verif.Props.Common

/-!
# Planes and projections (C03, C07)
-/

namespace Props
open Verif Frackit

/-! ## Helpers -/

theorem mkDirection_of_unit {d : V3} (h : Spec.IsUnit d) : mkDirection d = .val d :=
  C02_direction_unique d d 1 one_pos h (one_smul ℝ d).symm

theorem unit_ne_zero {d : V3} (h : Spec.IsUnit d) : d ≠ 0 := by
  rintro rfl; simp [Spec.IsUnit] at h

theorem cross_unit {n b : V3} (hn : Spec.IsUnit n) (hb : Spec.IsUnit b) (ho : n.dot b = 0) :
    Spec.IsUnit (n.cross b) := by
  rw [Spec.isUnit_iff] at *
  rw [V3.sqLen_cross, hn, hb, ho]; norm_num

theorem frame_of_cross {n b : V3} (hn : Spec.IsUnit n) (hb : Spec.IsUnit b) (ho : n.dot b = 0) :
    Spec.RightHandedOrthonormal b (n.cross b) n := by
  have hc := cross_unit hn hb ho
  have hn' := (Spec.isUnit_iff n).1 hn
  have hb' := (Spec.isUnit_iff b).1 hb
  refine ⟨hb, hc, hn, ?_, ?_, ?_, ?_⟩
  · unfold Spec.Orthogonal; rw [Spec.inner_eq_dot, V3.dot_cross_right]
  · unfold Spec.Orthogonal; rw [Spec.inner_eq_dot, V3.dot_comm, V3.dot_cross_left]
  · unfold Spec.Orthogonal; rw [Spec.inner_eq_dot, V3.dot_comm, ho]
  · have : Spec.det b (n.cross b) n = b.sqLen * n.sqLen - (n.dot b) ^ 2 := by
      simp [Spec.det, V3.cross, V3.sqLen, V3.dot]; ring
    rw [this, hn', hb', ho]; norm_num

theorem makeOrthogonalVector_orthogonal (v : V3) : v.dot (makeOrthogonalVector v) = 0 := by
  unfold makeOrthogonalVector V3.dot
  split_ifs <;> simp_all; ring

theorem makeOrthogonalVector_ne_zero (v : V3) : makeOrthogonalVector v ≠ 0 := by
  unfold makeOrthogonalVector
  split_ifs with h1 h2 h3
  · intro e; simpa using congrArg V3.x e
  · intro e; simpa using congrArg V3.y e
  · intro e; simpa using congrArg V3.z e
  · intro e; exact h2 (by simpa using congrArg V3.x e)

/-- Every non-zero vector has a unit direction which is a positive multiple. -/
theorem exists_direction {v : V3} (h : v ≠ 0) :
    ∃ (d : V3) (r : ℝ), mkDirection v = .val d ∧ Spec.IsUnit d ∧ 0 < r ∧ v = r • d := by
  obtain ⟨d, h1, h2, r, h3, h4⟩ := C02_direction_unit v h
  exact ⟨d, r, h1, h2, h3, h4⟩

/-! ## C03 Planes carry a right-handed orthonormal basis -/

/-- The vector selected by `makeOrthogonalVector` is orthogonal to its argument and never zero,
for each of the four branches and also for the zero vector. -/
theorem C03_orthogonal_vector (v : V3) :
    Spec.Orthogonal v (makeOrthogonalVector v) ∧ makeOrthogonalVector v ≠ ⟨0, 0, 0⟩ :=
  ⟨makeOrthogonalVector_orthogonal v, makeOrthogonalVector_ne_zero v⟩

/-- Construction from a point and a unit normal always succeeds, with a right-handed orthonormal
basis, keeping point and normal; the point is on the plane for every positive tolerance. -/
theorem C03_plane_from_normal (p n : V3) (hn : Spec.IsUnit n) :
    ∃ pl, Plane.ofNormal p n = .val pl ∧ pl.supp = p ∧ pl.normal = n ∧
      Spec.RightHandedOrthonormal pl.base1 pl.base2 pl.normal ∧
      ∀ eps, 0 < eps → pl.contains p eps := by
  obtain ⟨b, r, hb, hu, hr, hv⟩ := exists_direction (makeOrthogonalVector_ne_zero n)
  have ho : n.dot b = 0 := by
    have := makeOrthogonalVector_orthogonal n
    rw [hv, V3.dot_smul] at this
    rcases mul_eq_zero.1 this with h | h
    · exact absurd h hr.ne'
    · exact h
  have hc := mkDirection_of_unit (cross_unit hn hu ho)
  refine ⟨⟨p, b, n.cross b, n⟩, ?_, rfl, rfl, frame_of_cross hn hu ho, ?_⟩
  · simp [Plane.ofNormal, hb, hc]
  · intro eps he
    simpa [Plane.contains, V3.dot] using he

theorem collinear_iff_cross (p1 p2 p3 : V3) :
    Spec.Collinear p1 p2 p3 ↔ (p2 - p1).cross (p3 - p1) = 0 := by
  constructor
  · rintro ⟨q, d, h1, h2, h3⟩
    rw [Spec.onLine_iff] at h1 h2 h3
    obtain ⟨a, rfl⟩ := h1
    obtain ⟨b, rfl⟩ := h2
    obtain ⟨c, rfl⟩ := h3
    ext <;> simp [V3.cross] <;> ring
  · intro h
    by_cases h12 : p2 - p1 = 0
    · have e : p2 = p1 := by rw [sub_eq_zero] at h12; exact h12
      refine ⟨p1, p3 - p1, ?_, ?_, ?_⟩ <;> rw [Spec.onLine_iff]
      · exact ⟨0, by simp⟩
      · exact ⟨0, by simp [e]⟩
      · exact ⟨1, by simp⟩
    · refine ⟨p1, p2 - p1, ?_, ?_, ?_⟩ <;> rw [Spec.onLine_iff]
      · exact ⟨0, by simp⟩
      · exact ⟨1, by simp⟩
      · have hs : (p2 - p1).sqLen ≠ 0 := (V3.sqLen_pos.2 h12).ne'
        refine ⟨(p2 - p1).dot (p3 - p1) / (p2 - p1).sqLen, ?_⟩
        generalize hu : p2 - p1 = u at *
        have hw : p3 = p1 + (p3 - p1) := by simp
        rw [hw]
        generalize p3 - p1 = w at *
        have hx := congrArg V3.x h
        have hy := congrArg V3.y h
        have hz := congrArg V3.z h
        simp only [V3.cross, V3.zero_x, V3.zero_y, V3.zero_z] at hx hy hz
        have key : ∀ t : ℝ, t * u.sqLen = u.dot w → w = t • u := by
          intro t ht
          unfold V3.sqLen V3.dot at ht
          unfold V3.sqLen at hs
          ext
          · apply mul_left_cancel₀ hs
            simp only [V3.smul_x]
            linear_combination (-u.x) * ht - u.y * hz + u.z * hy
          · apply mul_left_cancel₀ hs
            simp only [V3.smul_y]
            linear_combination (-u.y) * ht - u.z * hx + u.x * hz
          · apply mul_left_cancel₀ hs
            simp only [V3.smul_z]
            linear_combination (-u.z) * ht - u.x * hy + u.y * hx
        have := key (u.dot w / u.sqLen) (by field_simp)
        simp [← this]

/-- Construction from three points that are not on a common line succeeds; the basis is
right-handed orthonormal and the three points are on the plane for every positive tolerance. -/
theorem C03_plane_from_points (p1 p2 p3 : V3) (h : ¬ Spec.Collinear p1 p2 p3) :
    ∃ pl, Plane.ofPoints p1 p2 p3 = .val pl ∧
      Spec.RightHandedOrthonormal pl.base1 pl.base2 pl.normal ∧
      Spec.OnPlane pl.supp pl.normal p1 ∧ Spec.OnPlane pl.supp pl.normal p2 ∧
      Spec.OnPlane pl.supp pl.normal p3 ∧
      ∀ eps, 0 < eps → pl.contains p1 eps ∧ pl.contains p2 eps ∧ pl.contains p3 eps := by
  have hc : (p2 - p1).cross (p3 - p1) ≠ 0 := fun e => h ((collinear_iff_cross _ _ _).2 e)
  have h12 : p2 - p1 ≠ 0 := by
    intro e; apply hc; rw [e]; ext <;> simp [V3.cross]
  obtain ⟨b, r, hb, hu, hr, hv⟩ := exists_direction h12
  have hbc : b.cross (p3 - p1) ≠ 0 := by
    intro e; apply hc; rw [hv]
    have : (r • b).cross (p3 - p1) = r • (b.cross (p3 - p1)) := by
      ext <;> simp [V3.cross] <;> ring
    rw [this, e, smul_zero]
  obtain ⟨n, r', hn, hnu, hr', hv'⟩ := exists_direction hbc
  have hnb : n.dot b = 0 := by
    have := V3.dot_cross_left b (p3 - p1)
    rw [hv', V3.dot_smul] at this
    rcases mul_eq_zero.1 this with h | h
    · exact absurd h hr'.ne'
    · rw [V3.dot_comm]; exact h
  have hn3 : n.dot (p3 - p1) = 0 := by
    have := V3.dot_cross_right b (p3 - p1)
    rw [hv', V3.dot_smul] at this
    rcases mul_eq_zero.1 this with h | h
    · exact absurd h hr'.ne'
    · rw [V3.dot_comm]; exact h
  have hn2 : n.dot (p2 - p1) = 0 := by rw [hv, V3.dot_smul, hnb, mul_zero]
  have hb2 := mkDirection_of_unit (cross_unit hnu hu hnb)
  refine ⟨⟨p1, b, n.cross b, n⟩, ?_, frame_of_cross hnu hu hnb, ?_, ?_, ?_, ?_⟩
  · simp [Plane.ofPoints, hb, hn, hb2]
  · rw [Spec.onPlane_iff]; simp
  · rw [Spec.onPlane_iff]; exact hn2
  · rw [Spec.onPlane_iff]; exact hn3
  · intro eps he
    unfold Plane.contains
    refine ⟨by simpa using he, ?_, ?_⟩
    · rw [V3.dot_comm]; simpa [hn2] using he
    · rw [V3.dot_comm]; simpa [hn3] using he

/-- Three points on a common line never give a plane: the normal is invalid. -/
theorem C03_plane_from_collinear_points (p1 p2 p3 : V3) (h : Spec.Collinear p1 p2 p3) :
    Plane.ofPoints p1 p2 p3 = .nan := by
  have hc := (collinear_iff_cross _ _ _).1 h
  unfold Plane.ofPoints
  by_cases h12 : p2 - p1 = 0
  · rw [h12]
    have : mkDirection (0 : V3) = .nan := (C02_direction_invalid_iff_zero _).2 rfl
    simp [this]
  · obtain ⟨b, r, hb, hu, hr, hv⟩ := exists_direction h12
    have : b.cross (p3 - p1) = 0 := by
      rw [hv] at hc
      have e : (r • b).cross (p3 - p1) = r • (b.cross (p3 - p1)) := by
        ext <;> simp [V3.cross] <;> ring
      rw [e] at hc
      exact (smul_eq_zero_iff_right hr.ne').1 hc
    rw [hb]
    simp only [Outcome.val_bind]
    rw [this]
    have : mkDirection (0 : V3) = .nan := (C02_direction_invalid_iff_zero _).2 rfl
    simp [this]

/-- Non-trivial instance: three points off the coordinate planes which are not collinear. -/
example : ¬ Spec.Collinear ⟨1, 0, 0⟩ ⟨0, 2, 0⟩ ⟨0, 0, 3⟩ := by
  rw [collinear_iff_cross]
  intro e
  have := congrArg V3.x e
  norm_num [V3.cross] at this

/-! ## C07 Projections return the nearest point -/

/-- The projection onto a plane lies on the plane, is contained for every positive tolerance, is
the unique nearest point of the plane, and projecting again does not change it. -/
theorem C07_plane_projection_nearest (pl : Plane) (p : V3) (hn : Spec.IsUnit pl.normal) :
    Spec.OnPlane pl.supp pl.normal (pl.projection p) ∧
    (∀ eps, 0 < eps → pl.contains (pl.projection p) eps) ∧
    (∀ q, Spec.OnPlane pl.supp pl.normal q →
      Spec.dist p (pl.projection p) ≤ Spec.dist p q ∧
      (Spec.dist p q = Spec.dist p (pl.projection p) → q = pl.projection p)) ∧
    pl.projection (pl.projection p) = pl.projection p := by
  have hn' := (Spec.isUnit_iff _).1 hn
  rw [V3.sqLen_eq_dot] at hn'
  have h0 : pl.normal.dot (pl.projection p - pl.supp) = 0 := by
    have : pl.projection p - pl.supp
        = (p - pl.supp) - (pl.normal.dot (p - pl.supp)) • pl.normal := by
      unfold Plane.projection; module
    rw [this, V3.dot_sub, V3.dot_smul, hn']; ring
  have hpy : ∀ q, Spec.OnPlane pl.supp pl.normal q →
      (p - q).sqLen = (p - pl.projection p).sqLen + (pl.projection p - q).sqLen := by
    intro q hq
    rw [Spec.onPlane_iff] at hq
    have e : p - q = (p - pl.projection p) + (pl.projection p - q) := by module
    have e1 : p - pl.projection p = (pl.normal.dot (p - pl.supp)) • pl.normal := by
      unfold Plane.projection; module
    have e2 : pl.normal.dot (pl.projection p - q) = 0 := by
      have : pl.projection p - q = (pl.projection p - pl.supp) - (q - pl.supp) := by module
      rw [this, V3.dot_sub, h0, hq]; ring
    rw [e, V3.sqLen_add]
    have : (p - pl.projection p).dot (pl.projection p - q) = 0 := by
      rw [e1, V3.smul_dot, e2, mul_zero]
    rw [this]; ring
  refine ⟨(Spec.onPlane_iff _ _ _).2 h0, ?_, ?_, ?_⟩
  · intro eps he
    unfold Plane.contains
    rw [V3.dot_comm, h0]; simpa using he
  · intro q hq
    have h := hpy q hq
    rw [Spec.dist_eq_len, Spec.dist_eq_len]
    constructor
    · exact Real.sqrt_le_sqrt (by rw [h]; linarith [V3.sqLen_nonneg (pl.projection p - q)])
    · intro he
      have : (p - q).len ^ 2 = (p - pl.projection p).len ^ 2 := by rw [he]
      rw [V3.len_sq, V3.len_sq] at this
      have : (pl.projection p - q).sqLen = 0 := by linarith
      exact (sub_eq_zero.1 (V3.sqLen_eq_zero.1 this)).symm
  · have : pl.projection (pl.projection p) = pl.projection p
        + (-1 : ℝ) • (pl.normal.dot (pl.projection p - pl.supp) • pl.normal) := rfl
    rw [this, h0]; simp

/-- The projection onto a line lies on the line, is contained for every positive tolerance, is the
unique nearest point of the line, and projecting again does not change it. -/
theorem C07_line_projection_nearest (l : Line) (p : V3) (hd : Spec.IsUnit l.dir) :
    Spec.OnLine l.supp l.dir (l.projection p) ∧
    (∀ eps, 0 < eps → l.contains (l.projection p) eps) ∧
    (∀ q, Spec.OnLine l.supp l.dir q →
      Spec.dist p (l.projection p) ≤ Spec.dist p q ∧
      (Spec.dist p q = Spec.dist p (l.projection p) → q = l.projection p)) ∧
    l.projection (l.projection p) = l.projection p := by
  have hd' := (Spec.isUnit_iff _).1 hd
  rw [V3.sqLen_eq_dot] at hd'
  have hidem : l.projection (l.projection p) = l.projection p := by
    have : l.dir.dot (l.projection p - l.supp) = l.dir.dot (p - l.supp) := by
      have : l.projection p - l.supp = (l.dir.dot (p - l.supp)) • l.dir := by
        unfold Line.projection; module
      rw [this, V3.dot_smul, hd']; ring
    have e : l.projection (l.projection p)
        = l.supp + l.dir.dot (l.projection p - l.supp) • l.dir := rfl
    rw [e, this]; rfl
  have horth : l.dir.dot (p - l.projection p) = 0 := by
    have : p - l.projection p = (p - l.supp) - (l.dir.dot (p - l.supp)) • l.dir := by
      unfold Line.projection; module
    rw [this, V3.dot_sub, V3.dot_smul, hd']; ring
  refine ⟨(Spec.onLine_iff _ _ _).2 ⟨_, rfl⟩, ?_, ?_, hidem⟩
  · intro eps he
    unfold Line.contains
    rw [hidem]
    simp [V3.sqLen]; exact he.ne'
  · intro q hq
    obtain ⟨t, rfl⟩ := (Spec.onLine_iff _ _ _).1 hq
    have h : (p - (l.supp + t • l.dir)).sqLen
        = (p - l.projection p).sqLen + (l.projection p - (l.supp + t • l.dir)).sqLen := by
      have e : p - (l.supp + t • l.dir)
          = (p - l.projection p) + (l.projection p - (l.supp + t • l.dir)) := by module
      have e2 : l.projection p - (l.supp + t • l.dir)
          = (l.dir.dot (p - l.supp) - t) • l.dir := by
        unfold Line.projection; module
      rw [e, V3.sqLen_add]
      have : (p - l.projection p).dot (l.projection p - (l.supp + t • l.dir)) = 0 := by
        rw [e2, V3.dot_smul, V3.dot_comm _ l.dir, horth, mul_zero]
      rw [this]; ring
    rw [Spec.dist_eq_len, Spec.dist_eq_len]
    constructor
    · exact Real.sqrt_le_sqrt (by
        rw [h]; linarith [V3.sqLen_nonneg (l.projection p - (l.supp + t • l.dir))])
    · intro he
      have : (p - (l.supp + t • l.dir)).len ^ 2 = (p - l.projection p).len ^ 2 := by rw [he]
      rw [V3.len_sq, V3.len_sq] at this
      have : (l.projection p - (l.supp + t • l.dir)).sqLen = 0 := by linarith
      exact (sub_eq_zero.1 (V3.sqLen_eq_zero.1 this)).symm

/-- The projection of a line which is not orthogonal to the plane is a line of the plane with a
unit direction, and it consists exactly of the projections of the points of the line. -/
theorem C07_plane_projection_of_line (pl : Plane) (l : Line) (hn : Spec.IsUnit pl.normal)
    (hl : ∀ t : ℝ, l.dir ≠ t • pl.normal) :
    ∃ l', pl.projectionLine l = .val l' ∧ Spec.IsUnit l'.dir ∧
      (∀ q, Spec.OnLine l'.supp l'.dir q ↔ ∃ p, Spec.OnLine l.supp l.dir p ∧ q = pl.projection p) := by
  have hn' := (Spec.isUnit_iff _).1 hn
  rw [V3.sqLen_eq_dot] at hn'
  set w : V3 := l.dir - (pl.normal.dot l.dir) • pl.normal with hw
  have hproj : ∀ t : ℝ, pl.projection (l.supp + t • l.dir) = pl.projection l.supp + t • w := by
    intro t
    unfold Plane.projection
    rw [show l.supp + t • l.dir - pl.supp = (l.supp - pl.supp) + t • l.dir by module,
      V3.dot_add, V3.dot_smul, hw]
    module
  have hw0 : w ≠ 0 := by
    intro e; exact hl _ (sub_eq_zero.1 e)
  have hdir : ∃ c : ℝ, 0 < c ∧ ∀ L, pl.projectionLine l = L →
      L = (do let d ← mkDirection (c • w); pure ⟨pl.projection l.supp, d⟩) := by
    by_cases hc : pointIsEqual (l.supp + l.dir) (pl.projection l.supp) confusion
    · refine ⟨2, by norm_num, ?_⟩
      rintro L rfl
      unfold Plane.projectionLine
      simp only [if_pos hc]
      have := hproj 2
      rw [show l.supp + l.dir + l.dir = l.supp + (2 : ℝ) • l.dir by module, this,
        show pl.projection l.supp + (2 : ℝ) • w - pl.projection l.supp = (2 : ℝ) • w by module]
    · refine ⟨1, by norm_num, ?_⟩
      rintro L rfl
      unfold Plane.projectionLine
      simp only [if_neg hc]
      have := hproj 1
      rw [show l.supp + l.dir = l.supp + (1 : ℝ) • l.dir by module, this,
        show pl.projection l.supp + (1 : ℝ) • w - pl.projection l.supp = (1 : ℝ) • w by module]
  obtain ⟨c, hc, hL⟩ := hdir
  have hcw : c • w ≠ 0 := by
    intro e; exact hw0 ((smul_eq_zero_iff_right hc.ne').1 e)
  obtain ⟨d, r, hd, hu, hr, hv⟩ := exists_direction hcw
  refine ⟨⟨pl.projection l.supp, d⟩, ?_, hu, ?_⟩
  · rw [hL _ rfl, hd]; rfl
  · intro q
    simp only [Spec.onLine_iff]
    have hwd : w = (r / c) • d := by
      have : c⁻¹ • (c • w) = c⁻¹ • (r • d) := by rw [hv]
      rw [smul_smul, inv_mul_cancel₀ hc.ne', one_smul, smul_smul] at this
      rw [this]; congr 1; field_simp
    constructor
    · rintro ⟨t, rfl⟩
      refine ⟨l.supp + (t * (c / r)) • l.dir, ⟨_, rfl⟩, ?_⟩
      rw [hproj, hwd, smul_smul]
      congr 2
      field_simp
    · rintro ⟨p, ⟨t, rfl⟩, rfl⟩
      refine ⟨t * (r / c), ?_⟩
      rw [hproj, hwd, smul_smul]

example : Spec.IsUnit (⟨⟨1, 2, 3⟩, ⟨1, 0, 0⟩, ⟨0, 3 / 5, -4 / 5⟩, ⟨0, 4 / 5, 3 / 5⟩⟩ : Plane).normal ∧
    ∀ t : ℝ, (⟨1, 1, 1⟩ : V3) ≠ t • (⟨0, 4 / 5, 3 / 5⟩ : V3) := by
  refine ⟨by norm_num [Spec.IsUnit], fun t e => ?_⟩
  have := congrArg V3.x e
  norm_num at this

end Props
