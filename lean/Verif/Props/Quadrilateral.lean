import Verif.Props.Triangle

/-!
# Quadrilaterals (C18 second part, C19)

The boundary of a quadrilateral `(p0, p1, p2, p3)` runs `p0 - p1 - p3 - p2`.
-/

namespace Props
open Verif Frackit Lemmas

/-- The boundary of a quadrilateral in the order of its edges. -/
theorem quad_edges (p0 p1 p2 p3 : V3) :
    Spec.polyEdges [p0, p1, p3, p2] = [(p0, p1), (p1, p3), (p3, p2), (p2, p0)] := rfl

theorem quad_convex_iff (n p0 p1 p2 p3 : V3) :
    Spec.ConvexPolygon n [p0, p1, p3, p2] ↔
      0 ≤ Spec.turn n p2 p0 p1 ∧ 0 ≤ Spec.turn n p0 p1 p3 ∧ 0 ≤ Spec.turn n p1 p3 p2 ∧
        0 ≤ Spec.turn n p3 p2 p0 := by
  unfold Spec.ConvexPolygon
  rw [quad_edges]
  simp only [List.forall_mem_cons, List.not_mem_nil, false_imp_iff, implies_true, and_true,
    turn_self_left, turn_self_right, le_refl, true_and]
  rw [turn_rotate n p0 p1 p2, turn_rotate n p1 p2 p0, turn_rotate n p1 p3 p0,
    turn_rotate n p3 p0 p1, turn_rotate n p3 p2 p1, turn_rotate n p2 p1 p3, turn_rotate n p2 p0 p3,
    turn_rotate n p0 p3 p2]
  tauto

theorem quad_cross {n q a b c d e f : V3} (hn : Spec.IsUnit n) (ha : Spec.OnPlane q n a)
    (hb : Spec.OnPlane q n b) (hc : Spec.OnPlane q n c) (hd : Spec.OnPlane q n d)
    (he : Spec.OnPlane q n e) (hf : Spec.OnPlane q n f) :
    ((b - a).cross (c - b)).dot ((e - d).cross (f - e)) = Spec.turn n a b c * Spec.turn n d e f := by
  have e1 := cross_inplane hn (sub_inplane ha hb) (sub_inplane hb hc)
  have e2 := cross_inplane hn (sub_inplane hd he) (sub_inplane he hf)
  rw [e1, e2, V3.dot_smul, V3.smul_dot, ← V3.sqLen_eq_dot, (Spec.isUnit_iff n).1 hn]
  have t1 : Spec.turn n a b c = n.dot ((b - a).cross (c - b)) := by
    simp [Spec.turn, Spec.det, V3.dot, V3.cross]; ring
  have t2 : Spec.turn n d e f = n.dot ((e - d).cross (f - e)) := by
    simp [Spec.turn, Spec.det, V3.dot, V3.cross]; ring
  rw [t1, t2]; ring

theorem nonneg_mul_neg {a b : ℝ} (h : a < 0) : 0 ≤ a * b ↔ b ≤ 0 := by
  constructor
  · intro hb; by_contra hc; push Not at hc; nlinarith
  · intro hb; nlinarith

/-! ## C19 Quadrilateral convexity flag is correct -/

/-- The flag compares the turns of corners 1, 3 and 2 with the turn of corner 0. -/
theorem quad_flag_iff (n q p0 p1 p2 p3 : V3) (hn : Spec.IsUnit n)
    (hpl : Spec.PlanarPolygon n q [p0, p1, p3, p2]) :
    (Quadrilateral.make p0 p1 p2 p3).isConvex ↔
      0 ≤ Spec.turn n p2 p0 p1 * Spec.turn n p0 p1 p3 ∧
      0 ≤ Spec.turn n p2 p0 p1 * Spec.turn n p1 p3 p2 ∧
      0 ≤ Spec.turn n p2 p0 p1 * Spec.turn n p3 p2 p0 := by
  have h0 : Spec.OnPlane q n p0 := hpl _ (by simp)
  have h1 : Spec.OnPlane q n p1 := hpl _ (by simp)
  have h2 : Spec.OnPlane q n p2 := hpl _ (by simp)
  have h3 : Spec.OnPlane q n p3 := hpl _ (by simp)
  show quadConvexity p0 p1 p2 p3 ↔ _
  unfold quadConvexity
  simp only [not_lt]
  rw [quad_cross hn h2 h0 h1 h0 h1 h3, quad_cross hn h2 h0 h1 h1 h3 h2,
    quad_cross hn h2 h0 h1 h3 h2 h0]

/-- For every planar quadrilateral with a proper first corner, in any plane and either orientation:
the flag is set exactly if the boundary `p0-p1-p3-p2` is a convex polygon (every corner on the same
side of every edge). -/
theorem C19_flag_iff_convex (n q p0 p1 p2 p3 : V3) (hn : Spec.IsUnit n)
    (hpl : Spec.PlanarPolygon n q [p0, p1, p3, p2]) (h0 : Spec.turn n p2 p0 p1 ≠ 0) :
    (Quadrilateral.make p0 p1 p2 p3).isConvex ↔
      Spec.ConvexPolygon n [p0, p1, p3, p2] ∨ Spec.ConvexPolygon (-n) [p0, p1, p3, p2] := by
  rw [quad_flag_iff n q p0 p1 p2 p3 hn hpl, quad_convex_iff, quad_convex_iff]
  simp only [turn_neg]
  rcases lt_or_gt_of_ne h0 with h | h
  · rw [nonneg_mul_neg h, nonneg_mul_neg h, nonneg_mul_neg h]
    constructor
    · rintro ⟨a, b, c⟩; right; refine ⟨?_, ?_, ?_, ?_⟩ <;> linarith
    · rintro (⟨a, b, c, d⟩ | ⟨a, b, c, d⟩)
      · linarith
      · refine ⟨?_, ?_, ?_⟩ <;> linarith
  · rw [mul_nonneg_iff_of_pos_left h, mul_nonneg_iff_of_pos_left h, mul_nonneg_iff_of_pos_left h]
    constructor
    · rintro ⟨a, b, c⟩; left; exact ⟨h.le, a, b, c⟩
    · rintro (⟨a, b, c, d⟩ | ⟨a, b, c, d⟩)
      · exact ⟨b, c, d⟩
      · linarith

/-- With four proper corners: the flag is set exactly if the boundary turns strictly the same way
at all four corners. -/
theorem C19_flag_iff_same_turns (n q p0 p1 p2 p3 : V3) (hn : Spec.IsUnit n)
    (hpl : Spec.PlanarPolygon n q [p0, p1, p3, p2])
    (hc : ∀ i < 4, Spec.cornerTurn n [p0, p1, p3, p2] i ≠ 0) :
    (Quadrilateral.make p0 p1 p2 p3).isConvex ↔
      (∀ i < 4, 0 < Spec.cornerTurn n [p0, p1, p3, p2] i) ∨
      (∀ i < 4, Spec.cornerTurn n [p0, p1, p3, p2] i < 0) := by
  have e0 : Spec.cornerTurn n [p0, p1, p3, p2] 0 = Spec.turn n p2 p0 p1 := by
    simp [Spec.cornerTurn]
  have e1 : Spec.cornerTurn n [p0, p1, p3, p2] 1 = Spec.turn n p0 p1 p3 := by
    simp [Spec.cornerTurn]
  have e2 : Spec.cornerTurn n [p0, p1, p3, p2] 2 = Spec.turn n p1 p3 p2 := by
    simp [Spec.cornerTurn]
  have e3 : Spec.cornerTurn n [p0, p1, p3, p2] 3 = Spec.turn n p3 p2 p0 := by
    simp [Spec.cornerTurn]
  have all : ∀ P : ℕ → Prop, (∀ i < 4, P i) ↔ P 0 ∧ P 1 ∧ P 2 ∧ P 3 := by
    intro P
    constructor
    · intro h; exact ⟨h 0 (by omega), h 1 (by omega), h 2 (by omega), h 3 (by omega)⟩
    · rintro ⟨a, b, c, d⟩ i hi
      match i, hi with
      | 0, _ => exact a
      | 1, _ => exact b
      | 2, _ => exact c
      | 3, _ => exact d
  rw [all] at hc
  rw [all, all, quad_flag_iff n q p0 p1 p2 p3 hn hpl]
  rw [e0, e1, e2, e3] at hc ⊢
  obtain ⟨c0, c1, c2, c3⟩ := hc
  rcases lt_or_gt_of_ne c0 with h | h
  · rw [nonneg_mul_neg h, nonneg_mul_neg h, nonneg_mul_neg h]
    constructor
    · rintro ⟨a, b, c⟩; right
      exact ⟨h, lt_of_le_of_ne a c1, lt_of_le_of_ne b c2, lt_of_le_of_ne c c3⟩
    · rintro (⟨a, b, c, d⟩ | ⟨a, b, c, d⟩)
      · exact absurd a h.not_gt
      · exact ⟨b.le, c.le, d.le⟩
  · rw [mul_nonneg_iff_of_pos_left h, mul_nonneg_iff_of_pos_left h, mul_nonneg_iff_of_pos_left h]
    constructor
    · rintro ⟨a, b, c⟩; left
      exact ⟨h, lt_of_le_of_ne a c1.symm, lt_of_le_of_ne b c2.symm, lt_of_le_of_ne c c3.symm⟩
    · rintro (⟨a, b, c, d⟩ | ⟨a, b, c, d⟩)
      · exact ⟨b.le, c.le, d.le⟩
      · exact absurd a h.not_gt

/-- Instances in a tilted plane (normal `(3/5, 0, 4/5)`): a convex and a concave quadrilateral with
proper corners. -/
example : Spec.IsUnit ⟨3 / 5, 0, 4 / 5⟩ ∧
    Spec.PlanarPolygon ⟨3 / 5, 0, 4 / 5⟩ ⟨0, 0, 0⟩
      [⟨0, 0, 0⟩, ⟨4, 0, -3⟩, ⟨4, 2, -3⟩, ⟨0, 1, 0⟩] ∧
    (∀ i < 4, Spec.cornerTurn ⟨3 / 5, 0, 4 / 5⟩
      [⟨0, 0, 0⟩, ⟨4, 0, -3⟩, ⟨4, 2, -3⟩, ⟨0, 1, 0⟩] i ≠ 0) := by
  refine ⟨by norm_num [Spec.IsUnit, Spec.norm], ?_, ?_⟩
  · intro c hc
    simp only [List.mem_cons, List.not_mem_nil, or_false] at hc
    rcases hc with rfl | rfl | rfl | rfl <;> norm_num [Spec.OnPlane, Spec.inner]
  · intro i hi
    match i, hi with
    | 0, _ => norm_num [Spec.cornerTurn, Spec.turn, Spec.det]
    | 1, _ => norm_num [Spec.cornerTurn, Spec.turn, Spec.det]
    | 2, _ => norm_num [Spec.cornerTurn, Spec.turn, Spec.det]
    | 3, _ => norm_num [Spec.cornerTurn, Spec.turn, Spec.det]

/-! ## C18 Area-based containment accepts exactly the figure: convex quadrilaterals -/

/-- A plane through three independent points of a plane is that plane. -/
theorem plane_of_corners {n q a b c : V3} (hn : Spec.IsUnit n) (ha : Spec.OnPlane q n a)
    (hb : Spec.OnPlane q n b) (hc : Spec.OnPlane q n c) (ht : Spec.turn n a b c ≠ 0) :
    ∃ pl, Plane.ofPoints a b c = .val pl ∧
      ∀ p, Spec.OnPlane pl.supp pl.normal p ↔ Spec.OnPlane q n p := by
  have hcol : ¬ Spec.Collinear a b c := by
    intro h
    apply ht
    rw [turn_eq, (collinear_iff_cross _ _ _).1 h]; simp [V3.dot]
  obtain ⟨pl, h, hf, pa, pb, pc, _⟩ := C03_plane_from_points a b c hcol
  refine ⟨pl, h, fun p => ?_⟩
  have hm : Spec.IsUnit pl.normal := hf.2.2.1
  have ub := sub_inplane ha hb
  have uc := sub_inplane ha hc
  have vb := sub_inplane pa pb
  have vc := sub_inplane pa pc
  rw [turn_eq] at ht
  have ht2 : pl.normal.dot ((b - a).cross (c - a)) ≠ 0 := by
    intro e
    have := cross_inplane hm vb vc
    rw [e, zero_smul] at this
    apply ht; rw [this]; simp [V3.dot]
  constructor
  · intro hp
    have := dot_inplane_zero hm vb vc (sub_inplane pa hp) ht2 ub uc
    rw [Spec.onPlane_iff] at *
    have e : p - q = (p - a) + (a - q) := by module
    rw [e, V3.dot_add, this, ha, add_zero]
  · intro hp
    have := dot_inplane_zero hn ub uc (sub_inplane ha hp) ht vb vc
    rw [Spec.onPlane_iff] at *
    have e : p - pl.supp = (p - a) + (a - pl.supp) := by module
    rw [e, V3.dot_add, this, pa, add_zero]

theorem quad_area {n q p0 p1 p2 p3 : V3} (hn : Spec.IsUnit n)
    (hpl : Spec.PlanarPolygon n q [p0, p1, p3, p2]) (hc : Spec.ConvexPolygon n [p0, p1, p3, p2]) :
    (Quadrilateral.make p0 p1 p2 p3).area
      = 1 / 2 * (Spec.turn n p0 p1 p3 + Spec.turn n p3 p2 p0) := by
  have h0 : Spec.OnPlane q n p0 := hpl _ (by simp)
  have h1 : Spec.OnPlane q n p1 := hpl _ (by simp)
  have h2 : Spec.OnPlane q n p2 := hpl _ (by simp)
  have h3 : Spec.OnPlane q n p3 := hpl _ (by simp)
  obtain ⟨_, c1, _, c3⟩ := (quad_convex_iff _ _ _ _ _).1 hc
  show (Triangle.make p0 p1 p3).area + (Triangle.make p0 p3 p2).area = _
  rw [area_inplane hn h0 h1 h3, area_inplane hn h0 h3 h2, turn_rotate n p0 p3 p2, abs_of_nonneg c1,
    abs_of_nonneg c3]
  ring

theorem turn_sum4 (n p0 p1 p2 p3 p : V3) :
    Spec.turn n p0 p1 p + Spec.turn n p1 p3 p + Spec.turn n p3 p2 p + Spec.turn n p2 p0 p
      = Spec.turn n p0 p1 p3 + Spec.turn n p3 p2 p0 := by
  simp [Spec.turn, Spec.det]; ring

/-- The area of a convex quadrilateral is the shoelace area of its boundary. -/
theorem C18_quadrilateral_area (n q p0 p1 p2 p3 : V3) (hn : Spec.IsUnit n)
    (hpl : Spec.PlanarPolygon n q [p0, p1, p3, p2]) (hc : Spec.ConvexPolygon n [p0, p1, p3, p2]) :
    (Quadrilateral.make p0 p1 p2 p3).area = 1 / 2 * Spec.shoelace n [p0, p1, p3, p2] := by
  rw [quad_area hn hpl hc, Spec.shoelace, quad_edges]
  simp [Spec.turn, Spec.det]; ring

/-- Every point of a convex quadrilateral with a proper first corner (including its boundary) is
contained, for every positive tolerance, whether or not the plane check is requested. -/
theorem C18_quadrilateral_points_contained (n q p0 p1 p2 p3 p : V3) (eps : ℝ) (check : Bool)
    (hn : Spec.IsUnit n) (hpl : Spec.PlanarPolygon n q [p0, p1, p3, p2])
    (hc : Spec.ConvexPolygon n [p0, p1, p3, p2]) (h0 : Spec.turn n p2 p0 p1 ≠ 0) (he : 0 < eps)
    (hp : Spec.InPolygon n q [p0, p1, p3, p2] p) :
    (Quadrilateral.make p0 p1 p2 p3).contains p eps check := by
  have o0 : Spec.OnPlane q n p0 := hpl _ (by simp)
  have o1 : Spec.OnPlane q n p1 := hpl _ (by simp)
  have o2 : Spec.OnPlane q n p2 := hpl _ (by simp)
  have o3 : Spec.OnPlane q n p3 := hpl _ (by simp)
  obtain ⟨hpp, hin⟩ := hp
  rw [quad_edges] at hin
  have i1 := hin (p0, p1) (by simp)
  have i2 := hin (p1, p3) (by simp)
  have i3 := hin (p3, p2) (by simp)
  have i4 := hin (p2, p0) (by simp)
  simp only at i1 i2 i3 i4
  refine ⟨fun _ => ?_, ?_⟩
  · rw [turn_rotate] at h0
    obtain ⟨pl, hv, hon⟩ := plane_of_corners hn o0 o1 o2 h0
    show planeContains (Plane.ofPoints p0 p1 p2) p eps
    rw [hv]
    exact planeContains_of_onPlane he ((hon p).2 hpp)
  · rw [quad_area hn hpl hc]
    show |_ - ((Triangle.make p0 p1 p).area + (Triangle.make p1 p3 p).area
      + (Triangle.make p3 p2 p).area + (Triangle.make p2 p0 p).area)| < _
    rw [area_inplane hn o0 o1 hpp, area_inplane hn o1 o3 hpp, area_inplane hn o3 o2 hpp,
      area_inplane hn o2 o0 hpp, abs_of_nonneg i1, abs_of_nonneg i2, abs_of_nonneg i3,
      abs_of_nonneg i4, ← turn_sum4 n p0 p1 p2 p3 p]
    ring_nf
    rw [abs_zero]; positivity

/-- A point accepted for every positive tolerance is a point of the convex quadrilateral. -/
theorem C18_quadrilateral_accepted_in_quadrilateral (n q p0 p1 p2 p3 p : V3)
    (hn : Spec.IsUnit n) (hpl : Spec.PlanarPolygon n q [p0, p1, p3, p2])
    (hc : Spec.ConvexPolygon n [p0, p1, p3, p2]) (h0 : Spec.turn n p2 p0 p1 ≠ 0)
    (hacc : ∀ eps, 0 < eps → (Quadrilateral.make p0 p1 p2 p3).contains p eps) :
    Spec.InPolygon n q [p0, p1, p3, p2] p := by
  have o0 : Spec.OnPlane q n p0 := hpl _ (by simp)
  have o1 : Spec.OnPlane q n p1 := hpl _ (by simp)
  have o2 : Spec.OnPlane q n p2 := hpl _ (by simp)
  have o3 : Spec.OnPlane q n p3 := hpl _ (by simp)
  have hpp : Spec.OnPlane q n p := by
    rw [turn_rotate] at h0
    obtain ⟨pl, hv, hon⟩ := plane_of_corners hn o0 o1 o2 h0
    refine (hon p).1 (onPlane_of_planeContains fun eps he => ?_)
    have h : planeContains (Plane.ofPoints p0 p1 p2) p eps := (hacc eps he).1 rfl
    rwa [hv] at h
  have harea : (Quadrilateral.make p0 p1 p2 p3).area = (Triangle.make p0 p1 p).area
      + (Triangle.make p1 p3 p).area + (Triangle.make p3 p2 p).area
      + (Triangle.make p2 p0 p).area := eq_of_abs_lt_sq (fun eps he => (hacc eps he).2)
  rw [quad_area hn hpl hc, area_inplane hn o0 o1 hpp, area_inplane hn o1 o3 hpp,
    area_inplane hn o3 o2 hpp, area_inplane hn o2 o0 hpp, ← turn_sum4 n p0 p1 p2 p3 p] at harea
  have l1 := le_abs_self (Spec.turn n p0 p1 p)
  have l2 := le_abs_self (Spec.turn n p1 p3 p)
  have l3 := le_abs_self (Spec.turn n p3 p2 p)
  have l4 := le_abs_self (Spec.turn n p2 p0 p)
  refine ⟨hpp, fun e he => ?_⟩
  rw [quad_edges] at he
  simp only [List.mem_cons, List.not_mem_nil, or_false] at he
  rcases he with rfl | rfl | rfl | rfl <;> rw [← abs_eq_self] <;> simp only <;> linarith

/-- Non-trivial instance: a convex quadrilateral in a tilted plane and the middle of an edge. -/
example : Spec.IsUnit ⟨3 / 5, 0, 4 / 5⟩ ∧
    Spec.ConvexPolygon ⟨3 / 5, 0, 4 / 5⟩ [⟨0, 0, 0⟩, ⟨4, 0, -3⟩, ⟨4, 2, -3⟩, ⟨0, 1, 0⟩] ∧
    Spec.InPolygon ⟨3 / 5, 0, 4 / 5⟩ ⟨0, 0, 0⟩
      [⟨0, 0, 0⟩, ⟨4, 0, -3⟩, ⟨4, 2, -3⟩, ⟨0, 1, 0⟩] ⟨2, 0, -3 / 2⟩ := by
  refine ⟨by norm_num [Spec.IsUnit, Spec.norm], ?_, ?_, ?_⟩
  · rw [quad_convex_iff]; norm_num [Spec.turn, Spec.det]
  · norm_num [Spec.OnPlane, Spec.inner]
  · rw [quad_edges]
    simp only [List.forall_mem_cons, List.not_mem_nil, false_imp_iff, implies_true, and_true]
    norm_num [Spec.turn, Spec.det]

/-- The convexity is needed: for the concave quadrilateral `(0,0) (2,1) (4,0) (2,4)` with the reflex
corner at `(2,1)` the stored area is `10`, although the enclosed area is `6`. -/
theorem C18_concave_area_wrong :
    ¬ (Quadrilateral.make ⟨0, 0, 0⟩ ⟨2, 1, 0⟩ ⟨2, 4, 0⟩ ⟨4, 0, 0⟩).isConvex ∧
    (Quadrilateral.make ⟨0, 0, 0⟩ ⟨2, 1, 0⟩ ⟨2, 4, 0⟩ ⟨4, 0, 0⟩).area = 10 ∧
    1 / 2 * Spec.shoelace ⟨0, 0, 1⟩ [⟨0, 0, 0⟩, ⟨2, 1, 0⟩, ⟨4, 0, 0⟩, ⟨2, 4, 0⟩] = 6 := by
  have hn : Spec.IsUnit ⟨0, 0, 1⟩ := by norm_num [Spec.IsUnit, Spec.norm]
  have hpl : Spec.PlanarPolygon ⟨0, 0, 1⟩ ⟨0, 0, 0⟩
      [⟨0, 0, 0⟩, ⟨2, 1, 0⟩, ⟨4, 0, 0⟩, ⟨2, 4, 0⟩] := by
    intro c hc
    simp only [List.mem_cons, List.not_mem_nil, or_false] at hc
    rcases hc with rfl | rfl | rfl | rfl <;> norm_num [Spec.OnPlane, Spec.inner]
  refine ⟨?_, ?_, ?_⟩
  · rw [quad_flag_iff ⟨0, 0, 1⟩ ⟨0, 0, 0⟩ _ _ _ _ hn hpl]
    norm_num [Spec.turn, Spec.det]
  · show (Triangle.make _ _ _).area + (Triangle.make _ _ _).area = _
    rw [area_inplane hn (hpl _ (by simp)) (hpl _ (by simp)) (hpl _ (by simp)),
      area_inplane hn (hpl _ (by simp)) (hpl _ (by simp)) (hpl _ (by simp))]
    norm_num [Spec.turn, Spec.det]
  · norm_num [Spec.shoelace, Spec.polyEdges, Spec.det]

end Props
