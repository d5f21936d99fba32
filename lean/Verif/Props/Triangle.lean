import Verif.Lemmas.Planar

/-!
# Triangles (C17, C18 first part)
-/

namespace Props
open Verif Frackit Lemmas

/-! ## C17 Triangle containment with the default tolerance is defined -/

/-- The property claimed: the call returns a value, namely `true` for every point of the triangle. -/
def TriangleDefaultContainsDefined : Prop :=
  ∀ (a b c p : V3), ¬ Spec.Collinear a b c → Spec.InTriangle a b c p →
    ∃ r : Prop, (Triangle.make a b c).containsDefault p = .val r ∧ r

/-- **The code violates the property**: for every triangle and every point the call reads beyond the
array of corners, i.e. has undefined behaviour. -/
theorem C17_default_contains_is_ub (t : Triangle) (p : V3) (checkIfOnPlane : Bool) :
    t.containsDefault p checkIfOnPlane = .ub := by
  simp [Triangle.containsDefault, Triangle.corner]

theorem not_collinear_example : ¬ Spec.Collinear ⟨0, 0, 0⟩ ⟨1, 0, 0⟩ ⟨0, 1, 0⟩ := by
  rw [collinear_iff_cross]
  intro e
  have := congrArg V3.z e
  norm_num [V3.cross] at this

theorem C17_disproof : ¬ TriangleDefaultContainsDefined := by
  intro h
  obtain ⟨r, hr, _⟩ := h ⟨0, 0, 0⟩ ⟨1, 0, 0⟩ ⟨0, 1, 0⟩ ⟨0, 0, 0⟩ not_collinear_example
    ⟨1, 0, 0, by norm_num⟩
  rw [C17_default_contains_is_ub] at hr
  cases hr

/-- Corner and edge access: indices 0, 1, 2 are valid, the edges close the triangle, an invalid edge
index is rejected but an invalid corner index is undefined behaviour. -/
theorem C17_corner_access_partial (a b c : V3) :
    (∀ i < 3, ∃ p, (Triangle.make a b c).corner i = .val p) ∧
    (∀ i < 3, ∃ p q, (Triangle.make a b c).corner i = .val p ∧
      (Triangle.make a b c).corner ((i + 1) % 3) = .val q ∧
      (Triangle.make a b c).edge i = .val ⟨p, q⟩) ∧
    (∀ i, 3 ≤ i → (Triangle.make a b c).corner i = .ub ∧
      ((Triangle.make a b c).edge i).isThrown) := by
  refine ⟨?_, ?_, ?_⟩
  · intro i hi
    match i, hi with
    | 0, _ => exact ⟨_, rfl⟩
    | 1, _ => exact ⟨_, rfl⟩
    | 2, _ => exact ⟨_, rfl⟩
  · intro i hi
    match i, hi with
    | 0, _ => exact ⟨_, _, rfl, rfl, rfl⟩
    | 1, _ => exact ⟨_, _, rfl, rfl, rfl⟩
    | 2, _ => exact ⟨_, _, rfl, rfl, rfl⟩
  · intro i hi
    obtain ⟨k, rfl⟩ := Nat.exists_eq_add_of_le' hi
    exact ⟨rfl, trivial⟩

/-! ## C18 Area-based containment accepts exactly the figure: triangles -/

/-- Frame of a non-degenerate triangle: unit normal, valid plane, positive signed area. -/
theorem triangle_frame {a b c : V3} (h : ¬ Spec.Collinear a b c) :
    ∃ (n : V3) (pl : Plane), Spec.IsUnit n ∧ (Triangle.make a b c).normal = .val n ∧
      (Triangle.make a b c).supportingPlane = .val pl ∧ pl.supp = a ∧ pl.normal = n ∧
      0 < Spec.turn n a b c ∧ Spec.OnPlane a n a ∧ Spec.OnPlane a n b ∧ Spec.OnPlane a n c := by
  have hc : (b - a).cross (c - a) ≠ 0 := fun e => h ((collinear_iff_cross _ _ _).2 e)
  obtain ⟨n, r, hn, hu, hr, hv⟩ := exists_direction hc
  obtain ⟨pl, hpl, hs, hnn, _, _⟩ := C03_plane_from_normal a n hu
  have hnr : (Triangle.make a b c).normal = .val n := hn
  refine ⟨n, pl, hu, hnr, ?_, hs, hnn, ?_, ?_, ?_, ?_⟩
  · unfold Triangle.supportingPlane
    rw [hnr]; exact hpl
  · rw [turn_eq, hv, V3.dot_smul, ← V3.sqLen_eq_dot, (Spec.isUnit_iff n).1 hu]; linarith
  · rw [Spec.onPlane_iff]; simp
  · rw [Spec.onPlane_iff]
    have := V3.dot_cross_left (b - a) (c - a)
    rw [hv, V3.dot_smul] at this
    rw [V3.dot_comm]
    exact (mul_eq_zero.1 this).resolve_left hr.ne'
  · rw [Spec.onPlane_iff]
    have := V3.dot_cross_right (b - a) (c - a)
    rw [hv, V3.dot_smul] at this
    rw [V3.dot_comm]
    exact (mul_eq_zero.1 this).resolve_left hr.ne'

theorem planeContains_of_onPlane {pl : Plane} {p : V3} {eps : ℝ} (he : 0 < eps)
    (h : Spec.OnPlane pl.supp pl.normal p) : planeContains (.val pl) p eps := by
  rw [Spec.onPlane_iff, V3.dot_comm] at h
  simp only [planeContains, Plane.contains, h]
  simpa using he

theorem onPlane_of_planeContains {pl : Plane} {p : V3}
    (h : ∀ eps, 0 < eps → planeContains (.val pl) p eps) : Spec.OnPlane pl.supp pl.normal p := by
  rw [Spec.onPlane_iff, V3.dot_comm]
  by_contra hc
  have := h _ (abs_pos.2 hc)
  simp [planeContains, Plane.contains] at this

theorem eq_of_abs_lt_sq {A B : ℝ} (h : ∀ eps : ℝ, 0 < eps → |A - B| < eps * eps) : A = B := by
  by_contra hc
  have hp : 0 < |A - B| := abs_pos.2 (sub_ne_zero.2 hc)
  have := h (Real.sqrt |A - B|) (Real.sqrt_pos.2 hp)
  rw [Real.mul_self_sqrt hp.le] at this
  exact lt_irrefl _ this

/-- Every point of a non-degenerate triangle (including its edges and corners) is contained, for
every positive tolerance, whether or not the plane check is requested. -/
theorem C18_triangle_points_contained (a b c p : V3) (eps : ℝ) (check : Bool)
    (h : ¬ Spec.Collinear a b c) (he : 0 < eps) (hp : Spec.InTriangle a b c p) :
    (Triangle.make a b c).contains p eps check := by
  obtain ⟨n, pl, hu, hn, hpl, hs, hnn, hT, pa, pb, pc⟩ := triangle_frame h
  obtain ⟨r, s, t, r0, s0, t0, hsum, hx, hy, hz⟩ := hp
  have hp' : p = r • a + s • b + t • c := by ext <;> simp [hx, hy, hz]
  have hpp : Spec.OnPlane a n p := by
    rw [Spec.onPlane_iff] at *
    have : p - a = s • (b - a) + t • (c - a) := by
      rw [hp', show r = 1 - s - t by linarith]; module
    rw [this, V3.dot_add, V3.dot_smul, V3.dot_smul, pb, pc]; ring
  have h1 : Spec.turn n a b p = t * Spec.turn n a b c := by
    rw [hp', show r = 1 - s - t by linarith]; simp [Spec.turn, Spec.det]; ring
  have h2 : Spec.turn n b c p = r * Spec.turn n a b c := by
    rw [hp', show r = 1 - s - t by linarith]; simp [Spec.turn, Spec.det]; ring
  have h3 : Spec.turn n c a p = s * Spec.turn n a b c := by
    rw [hp', show r = 1 - s - t by linarith]; simp [Spec.turn, Spec.det]; ring
  refine ⟨fun _ => ?_, ?_⟩
  · rw [hpl]
    apply planeContains_of_onPlane he
    rw [hs, hnn]; exact hpp
  · have e0 : (Triangle.make a b c).c0 = a := rfl
    have e1 : (Triangle.make a b c).c1 = b := rfl
    have e2 : (Triangle.make a b c).c2 = c := rfl
    rw [e0, e1, e2, area_inplane hu pa pb pc, area_inplane hu pa pb hpp, area_inplane hu pb pc hpp,
      area_inplane hu pc pa hpp, h1, h2, h3, abs_mul, abs_mul, abs_mul, abs_of_nonneg r0,
      abs_of_nonneg s0, abs_of_nonneg t0]
    have : 1 / 2 * |Spec.turn n a b c| - (1 / 2 * (t * |Spec.turn n a b c|)
        + 1 / 2 * (r * |Spec.turn n a b c|) + 1 / 2 * (s * |Spec.turn n a b c|)) = 0 := by
      have : r = 1 - s - t := by linarith
      rw [this]; ring
    rw [this, abs_zero]; positivity

/-- If a point in the plane of the triangle is accepted, then it is outside of each edge by an area
of less than `eps²/2`: for an edge of length `L` the point is less than `eps²/L` beyond the edge. -/
theorem C18_triangle_accepted_is_close (a b c p : V3) (eps : ℝ) (check : Bool)
    (h : ¬ Spec.Collinear a b c)
    (hacc : (Triangle.make a b c).contains p eps check) :
    ∃ n, Spec.IsUnit n ∧ 0 < Spec.turn n a b c ∧
      (Spec.OnPlane a n p → - (eps ^ 2) < Spec.turn n a b p ∧ - (eps ^ 2) < Spec.turn n b c p ∧
        - (eps ^ 2) < Spec.turn n c a p) := by
  obtain ⟨n, pl, hu, hn, hpl, hs, hnn, hT, pa, pb, pc⟩ := triangle_frame h
  refine ⟨n, hu, hT, fun hpp => ?_⟩
  have hacc2 := hacc.2
  have e0 : (Triangle.make a b c).c0 = a := rfl
  have e1 : (Triangle.make a b c).c1 = b := rfl
  have e2 : (Triangle.make a b c).c2 = c := rfl
  rw [e0, e1, e2, area_inplane hu pa pb pc, area_inplane hu pa pb hpp, area_inplane hu pb pc hpp,
      area_inplane hu pc pa hpp, abs_of_pos hT, ← turn_sum3 n a b c p, abs_lt] at hacc2
  have l1 := le_abs_self (Spec.turn n a b p)
  have l2 := le_abs_self (Spec.turn n b c p)
  have l3 := le_abs_self (Spec.turn n c a p)
  have m1 := neg_abs_le (Spec.turn n a b p)
  have m2 := neg_abs_le (Spec.turn n b c p)
  have m3 := neg_abs_le (Spec.turn n c a p)
  obtain ⟨hl, _⟩ := hacc2
  refine ⟨?_, ?_, ?_⟩
  · rcases abs_cases (Spec.turn n a b p) with ⟨e, _⟩ | ⟨e, _⟩ <;> nlinarith [sq_nonneg eps]
  · rcases abs_cases (Spec.turn n b c p) with ⟨e, _⟩ | ⟨e, _⟩ <;> nlinarith [sq_nonneg eps]
  · rcases abs_cases (Spec.turn n c a p) with ⟨e, _⟩ | ⟨e, _⟩ <;> nlinarith [sq_nonneg eps]

/-- A point accepted for every positive tolerance is a point of the triangle. -/
theorem C18_triangle_accepted_in_triangle (a b c p : V3) (h : ¬ Spec.Collinear a b c)
    (hacc : ∀ eps, 0 < eps → (Triangle.make a b c).contains p eps) : Spec.InTriangle a b c p := by
  obtain ⟨n, pl, hu, hn, hpl, hs, hnn, hT, pa, pb, pc⟩ := triangle_frame h
  have hpp : Spec.OnPlane a n p := by
    have := onPlane_of_planeContains (pl := pl) (p := p) (fun eps he => by
      have := (hacc eps he).1 rfl
      rwa [hpl] at this)
    rwa [hs, hnn] at this
  have harea := eq_of_abs_lt_sq (fun eps he => (hacc eps he).2)
  have e0 : (Triangle.make a b c).c0 = a := rfl
  have e1 : (Triangle.make a b c).c1 = b := rfl
  have e2 : (Triangle.make a b c).c2 = c := rfl
  rw [e0, e1, e2, area_inplane hu pa pb pc, area_inplane hu pa pb hpp, area_inplane hu pb pc hpp,
    area_inplane hu pc pa hpp, abs_of_pos hT, ← turn_sum3 n a b c p] at harea
  have l1 := le_abs_self (Spec.turn n a b p)
  have l2 := le_abs_self (Spec.turn n b c p)
  have l3 := le_abs_self (Spec.turn n c a p)
  have n1 : 0 ≤ Spec.turn n a b p := by
    have : |Spec.turn n a b p| = Spec.turn n a b p := by linarith
    rw [← this]; exact abs_nonneg _
  have n2 : 0 ≤ Spec.turn n b c p := by
    have : |Spec.turn n b c p| = Spec.turn n b c p := by linarith
    rw [← this]; exact abs_nonneg _
  have n3 : 0 ≤ Spec.turn n c a p := by
    have : |Spec.turn n c a p| = Spec.turn n c a p := by linarith
    rw [← this]; exact abs_nonneg _
  have hsum := turn_sum3 n a b c p
  set T := Spec.turn n a b c with hTdef
  -- expansion of p in the basis of the triangle
  have hexp : T • (p - a) = (Spec.turn n c a p) • (b - a) + (Spec.turn n a b p) • (c - a) := by
    have hb0 := sub_inplane pa pb
    have hc0 := sub_inplane pa pc
    have hp0 := sub_inplane pa hpp
    rw [hTdef, turn_eq]
    have t1 : Spec.turn n c a p = n.dot ((p - a).cross (c - a)) := by
      simp [Spec.turn, Spec.det, V3.dot, V3.cross]; ring
    have t2 : Spec.turn n a b p = n.dot ((b - a).cross (p - a)) := turn_eq n a b p
    rw [t1, t2]
    generalize b - a = u at *
    generalize c - a = v at *
    generalize p - a = w at *
    exact inplane_expand hu hb0 hc0 hp0
  refine ⟨Spec.turn n b c p / T, Spec.turn n c a p / T, Spec.turn n a b p / T,
    by positivity, by positivity, by positivity, ?_, ?_⟩
  · rw [← add_div, ← add_div, div_eq_one_iff_eq hT.ne']; linarith
  · have hx := congrArg V3.x hexp
    have hy := congrArg V3.y hexp
    have hz := congrArg V3.z hexp
    simp only [V3.smul_x, V3.smul_y, V3.smul_z, V3.sub_x, V3.sub_y, V3.sub_z, V3.add_x, V3.add_y,
      V3.add_z] at hx hy hz
    have hr : Spec.turn n b c p = T - Spec.turn n a b p - Spec.turn n c a p := by linarith
    rw [hr]
    refine ⟨?_, ?_, ?_⟩ <;> field_simp <;> linarith

/-- Non-trivial instance: the middle of an edge of a triangle off the coordinate planes. -/
example : ¬ Spec.Collinear ⟨1, 0, 0⟩ ⟨0, 2, 0⟩ ⟨0, 0, 3⟩ ∧
    Spec.InTriangle ⟨1, 0, 0⟩ ⟨0, 2, 0⟩ ⟨0, 0, 3⟩ ⟨1 / 2, 1, 0⟩ := by
  constructor
  · rw [collinear_iff_cross]
    intro e
    have := congrArg V3.x e
    norm_num [V3.cross] at this
  · exact ⟨1 / 2, 1 / 2, 0, by norm_num⟩

end Props
