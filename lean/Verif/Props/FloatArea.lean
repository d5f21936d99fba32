import Verif.Props.FloatBox
import Verif.Props.FloatPlane
import Verif.Props.FloatSegment
import Verif.Spec.TriangleArea

/-!
# C151 Areas of triangles and quadrilaterals in double precision
-/

namespace Props
open Verif Frackit Spec

theorem cross_len_le (u b : V3) : (u.cross b).len ≤ u.len * b.len := by
  apply le_of_sq_le_sq _ (mul_nonneg (V3.len_nonneg _) (V3.len_nonneg _))
  have := sq_cross u b
  nlinarith [mul_self_nonneg (u.dot b)]

/-- The error of a computed area. -/
theorem triangleArea_error (p q r : V3) :
    |Fp.triangleArea p q r - ((q - p).cross (r - p)).len / 2| ≤ 6.5 / 2 ^ 53 * ((q - p).len * (r - p).len) := by
  have hc := crossProduct_error (u := q - p) (b := r - p) (err_between_x p q) (err_between_y p q) (err_between_z p q)
    (err_between_x p r) (err_between_y p r) (err_between_z p r)
  set c' := Fp.crossProduct (Fp.vectorBetween p q) (Fp.vectorBetween p r) with hc'
  set c := (q - p).cross (r - p)
  have hcm : c.len ≤ (q - p).len * (r - p).len := cross_len_le _ _
  have m0 : 0 ≤ (q - p).len * (r - p).len := mul_nonneg (V3.len_nonneg _) (V3.len_nonneg _)
  set m := (q - p).len * (r - p).len
  have r4 : rho ^ (1 + 1 + 2) - 1 ≤ 4.01 / 2 ^ 53 := (rho_pow_sub_one_le (by norm_num)).trans (by norm_num)
  have r3 : rho ^ 3 - 1 ≤ 3.01 / 2 ^ 53 := (rho_pow_sub_one_le (by norm_num)).trans (by norm_num)
  have h1 : |c'.len - c.len| ≤ 8.02 / 2 ^ 53 * m := by
    refine (abs_len_sub_le _ _).trans (hc.trans ?_)
    have := mul_le_mul_of_nonneg_right r4 (show 0 ≤ 2 * m by positivity)
    norm_num at this ⊢
    linarith
  have h2 : |Fp.length c' - c'.len| ≤ 3.01 / 2 ^ 53 * c'.len :=
    (close_length c').abs_sub_le.trans (mul_le_mul_of_nonneg_right r3 (V3.len_nonneg _))
  have h3 : Fp.triangleArea p q r = Fp.rnd (1 / 2 * Fp.length c') := rfl
  have h4 := rnd_error_num (1 / 2 * Fp.length c')
  have l0 : 0 ≤ Fp.length c' := (close_length c').1
  rw [abs_of_nonneg (show 0 ≤ 1 / 2 * Fp.length c' by positivity)] at h4
  rw [h3]
  obtain ⟨a1, a2⟩ := abs_le.1 h1
  obtain ⟨b1, b2⟩ := abs_le.1 h2
  obtain ⟨e1, e2⟩ := abs_le.1 h4
  rw [abs_le]
  norm_num at a1 a2 b1 b2 e1 e2 ⊢
  constructor <;> linarith

theorem isTriangleArea_cross (p q r : V3) : IsTriangleArea p q r (((q - p).cross (r - p)).len / 2) := by
  refine ⟨div_nonneg (V3.len_nonneg _) (by norm_num), ?_⟩
  rw [div_pow, V3.len_sq]
  unfold Spec.dist
  rw [Real.sq_sqrt (by positivity), Real.sq_sqrt (by positivity), Real.sq_sqrt (by positivity)]
  simp only [V3.sqLen, V3.cross, V3.sub_x, V3.sub_y, V3.sub_z]
  ring

/-- **Area of a triangle.**  The computed area differs from the area by at most 2^-50 times the product of the two
sides at the first corner. -/
theorem C151_triangle (p q r : V3) : ∃ T, IsTriangleArea p q r T ∧
    |Fp.triangleArea p q r - T| ≤ 1 / 2 ^ 50 * (Spec.dist p q * Spec.dist p r) := by
  refine ⟨_, isTriangleArea_cross p q r, (triangleArea_error p q r).trans ?_⟩
  rw [Spec.dist_comm p q, Spec.dist_comm p r, dist_eq_len, dist_eq_len]
  exact mul_le_mul_of_nonneg_right (by norm_num) (mul_nonneg (V3.len_nonneg _) (V3.len_nonneg _))

/-- **Area of a quadrilateral.**  The computed area differs from the sum of the areas of the triangles on both sides of
the diagonal from the first to the last corner by at most 2^-50 times the length of this diagonal times the sum of the
sides at the first corner. -/
theorem C151_quadrilateral (p0 p1 p2 p3 : V3) : ∃ T1 T2, IsTriangleArea p0 p1 p3 T1 ∧ IsTriangleArea p0 p3 p2 T2 ∧
    |Fp.quadArea p0 p1 p2 p3 - (T1 + T2)| ≤
      1 / 2 ^ 50 * (Spec.dist p0 p3 * (Spec.dist p0 p1 + Spec.dist p0 p2)) := by
  refine ⟨_, _, isTriangleArea_cross p0 p1 p3, isTriangleArea_cross p0 p3 p2, ?_⟩
  have h1 := triangleArea_error p0 p1 p3
  have h2 := triangleArea_error p0 p3 p2
  have c1 := cross_len_le (p1 - p0) (p3 - p0)
  have c2 := cross_len_le (p3 - p0) (p2 - p0)
  rw [Spec.dist_comm p0 p1, Spec.dist_comm p0 p2, Spec.dist_comm p0 p3, dist_eq_len, dist_eq_len, dist_eq_len]
  have h3 := rnd_error_num (Fp.triangleArea p0 p1 p3 + Fp.triangleArea p0 p3 p2)
  have h4 : Fp.quadArea p0 p1 p2 p3 = Fp.rnd (Fp.triangleArea p0 p1 p3 + Fp.triangleArea p0 p3 p2) := rfl
  have p1' : 0 ≤ Fp.triangleArea p0 p1 p3 := rnd_nonneg (mul_nonneg (by norm_num) (close_length _).1)
  have p2' : 0 ≤ Fp.triangleArea p0 p3 p2 := rnd_nonneg (mul_nonneg (by norm_num) (close_length _).1)
  rw [abs_of_nonneg (add_nonneg p1' p2')] at h3
  rw [h4]
  obtain ⟨a1, a2⟩ := abs_le.1 h1
  obtain ⟨b1, b2⟩ := abs_le.1 h2
  obtain ⟨e1, e2⟩ := abs_le.1 h3
  have m1 : 0 ≤ (p1 - p0).len * (p3 - p0).len := mul_nonneg (V3.len_nonneg _) (V3.len_nonneg _)
  have m2 : 0 ≤ (p3 - p0).len * (p2 - p0).len := mul_nonneg (V3.len_nonneg _) (V3.len_nonneg _)
  have e : (p3 - p0).len * ((p1 - p0).len + (p2 - p0).len) =
      (p1 - p0).len * (p3 - p0).len + (p3 - p0).len * (p2 - p0).len := by ring
  rw [e, abs_le]
  norm_num at a1 a2 b1 b2 e1 e2 ⊢
  constructor <;> linarith

/-- A point that is found on a plane is close to it. -/
theorem near_plane (pl : Plane) (p : V3) (eps : ℝ) (hn : |norm pl.normal - 1| ≤ 1 / 2 ^ 50)
    (h : Fp.planeContains pl p eps) :
    ∃ q, OnPlane pl.supp pl.normal q ∧ Spec.dist p q ≤ 1.001 * eps + 1 / 2 ^ 50 * Spec.dist pl.supp p := by
  rw [norm_eq_len] at hn
  obtain ⟨n1, n2⟩ := abs_le.1 hn
  have d0 : 0 ≤ Spec.dist pl.supp p := Real.sqrt_nonneg _
  have r4 : rho ^ 4 - 1 ≤ 4.01 / 2 ^ 53 := (rho_pow_sub_one_le (by norm_num)).trans (by norm_num)
  set n := pl.normal with hnd
  set N := n.len with hN
  set e := (p - pl.supp).dot n with he
  have Npos : 0 < N := by norm_num at n1; linarith
  have Nlo : 0.9999 ≤ N := by norm_num at n1 ⊢; linarith
  have Nhi : N ≤ 1.001 := by norm_num at n2 ⊢; linarith
  have nn : n.sqLen = N * N := (V3.len_mul_self n).symm
  have h4 := (err_between_dot pl.supp p n).1
  rw [V3.len_sub_comm, ← dist_eq_len] at h4
  change |Fp.scalarProduct (Fp.vectorBetween pl.supp p) n - e| ≤ (rho ^ 4 - 1) * (N * Spec.dist pl.supp p) at h4
  have h1 : |Fp.scalarProduct (Fp.vectorBetween pl.supp p) n| < eps := h
  generalize Fp.scalarProduct (Fp.vectorBetween pl.supp p) n = S at *
  have h5 : (rho ^ 4 - 1) * (N * Spec.dist pl.supp p) ≤ 4.01 / 2 ^ 53 * (1.001 * Spec.dist pl.supp p) :=
    mul_le_mul r4 (mul_le_mul_of_nonneg_right Nhi d0) (by positivity) (by norm_num)
  let q0 : V3 := p - (e / (N * N)) • n
  refine ⟨q0, ?_, ?_⟩
  · rw [onPlane_iff, show q0 - pl.supp = (p - pl.supp) - (e / (N * N)) • n by ext <;> simp [q0] <;> ring, V3.dot_sub,
      V3.dot_smul, ← V3.sqLen_eq_dot, nn, V3.dot_comm, ← he]
    field_simp
    ring
  · have e1 : p - q0 = (e / (N * N)) • n := by ext <;> simp [q0]
    rw [dist_eq_len, e1, V3.len_smul, abs_div, abs_of_pos (mul_pos Npos Npos), ← hN]
    have e2 : |e| / (N * N) * N = |e| / N := by field_simp
    rw [e2, div_le_iff₀ Npos]
    have k := abs_sub_abs_le_abs_sub e S
    rw [abs_sub_comm e] at k
    have e0 : 0 ≤ eps := (abs_nonneg _).trans h1.le
    have k1 : 0.9999 * (1.001 * eps + 1 / 2 ^ 50 * Spec.dist pl.supp p) ≤
        (1.001 * eps + 1 / 2 ^ 50 * Spec.dist pl.supp p) * N := by
      rw [mul_comm]
      exact mul_le_mul_of_nonneg_left Nlo (by positivity)
    refine le_trans ?_ k1
    norm_num at *
    linarith

theorem planeOfPoints_val {p1 p2 p3 : V3} {pl : Plane} (h : Fp.planeOfPoints p1 p2 p3 = .val pl) :
    pl.supp = p1 ∧ |norm pl.normal - 1| ≤ 1 / 2 ^ 50 := by
  unfold Fp.planeOfPoints at h
  obtain ⟨b1, h1, h⟩ := Outcome.bind_eq_val.1 h
  obtain ⟨n, h2, h⟩ := Outcome.bind_eq_val.1 h
  obtain ⟨b2, h3, h⟩ := Outcome.bind_eq_val.1 h
  obtain rfl := Outcome.val.inj h
  refine ⟨rfl, ?_⟩
  rw [norm_eq_len]
  refine (len_direction h2 fun hc => ?_).2
  rw [hc] at h2
  unfold Fp.mkDirection at h2
  rw [if_pos (length_eq_zero.2 rfl)] at h2
  cases h2

/-- **Points of a quadrilateral are on its plane.**  Unless told otherwise, `contains` checks that the point is on the
plane of the first three corners, up to 1.01e-7 times the diagonal from the first to the last corner. -/
theorem C151_default_check (p0 p1 p2 p3 p : V3) (h : Fp.quadContainsDefault p0 p1 p2 p3 p) :
    Fp.quadContainsDefault p0 p1 p2 p3 p false ∧
      ∃ pl q, Fp.planeOfPoints p0 p1 p2 = .val pl ∧ OnPlane p0 pl.normal q ∧
        Spec.dist p q ≤ 1.01 / 10 ^ 7 * Spec.dist p0 p3 + 1 / 2 ^ 50 * Spec.dist p0 p := by
  obtain ⟨h1, h2⟩ := h
  refine ⟨⟨nofun, h2⟩, ?_⟩
  obtain ⟨pl, hp, hc⟩ := h1 rfl
  obtain ⟨rfl, hn⟩ := planeOfPoints_val hp
  obtain ⟨q, hq, hd⟩ := near_plane pl p _ hn hc
  refine ⟨pl, q, hp, hq, hd.trans ?_⟩
  have d0 : 0 ≤ Spec.dist pl.supp p3 := Real.sqrt_nonneg _
  have l1 := (close_distPointPoint pl.supp p3).abs_sub_le
  have r4 : rho ^ 4 - 1 ≤ 1 / 1000000 := (rho_pow_sub_one_le (by norm_num)).trans (by norm_num)
  have l2 := l1.trans (mul_le_mul_of_nonneg_right r4 d0)
  change |Fp.length (Fp.vectorBetween pl.supp p3) - _| ≤ _ at l2
  have l3 : Fp.length (Fp.vectorBetween pl.supp p3) ≤ 1.001 * Spec.dist pl.supp p3 := by
    have := (abs_le.1 l2).2
    norm_num at *
    linarith
  have c := confusion_bounds
  have c0 : 0 ≤ Fp.confusion := le_trans (by norm_num) c.1
  have l0 : 0 ≤ Fp.length (Fp.vectorBetween pl.supp p3) := (close_length _).1
  have l4 : Fp.confusion * Fp.length (Fp.vectorBetween pl.supp p3) ≤ 1.001 / 10 ^ 7 * (1.001 * Spec.dist pl.supp p3) :=
    mul_le_mul c.2 l3 l0 (by norm_num)
  have l5 := (abs_le.1 (rnd_error_num (Fp.confusion * Fp.length (Fp.vectorBetween pl.supp p3)))).2
  rw [abs_of_nonneg (mul_nonneg c0 l0)] at l5
  have l6 : Fp.quadEps pl.supp p3 = Fp.rnd (Fp.confusion * Fp.length (Fp.vectorBetween pl.supp p3)) := rfl
  rw [l6]
  norm_num at *
  linarith

/-- The full property: a convex quadrilateral contains its first corner. -/
def C151_full : Prop := ∀ p0 p1 p2 p3 : V3, DoubleCoordinates p0 → DoubleCoordinates p1 → DoubleCoordinates p2 →
  DoubleCoordinates p3 → ConvexInPlane p0 p1 p2 p3 → Fp.quadContainsDefault p0 p1 p2 p3 p0

theorem vectorBetween_self (a : V3) : Fp.vectorBetween a a = 0 := by
  unfold Fp.vectorBetween Fp.sub
  simp only [sub_self, rnd_zero]
  rfl

theorem triangleArea_zero (c : V3) (h : c = 0) : Fp.mul (1 / 2) (Fp.length c) = 0 := by
  have hl : Fp.length c = 0 := by
    rw [h]
    have h1 := (close_length 0).2.2.2
    have h2 : (0 : V3).len = 0 := V3.len_eq_zero.2 rfl
    rw [h2, mul_zero] at h1
    exact le_antisymm h1 (close_length 0).1
  rw [hl]
  unfold Fp.mul
  rw [mul_zero, rnd_zero]

theorem triangleArea_first (a b : V3) : Fp.triangleArea a b a = 0 := by
  apply triangleArea_zero
  rw [vectorBetween_self]
  unfold Fp.crossProduct Fp.sub Fp.mul
  ext <;> simp [rnd_zero]

theorem triangleArea_second (a b : V3) : Fp.triangleArea a b b = 0 := by
  apply triangleArea_zero
  unfold Fp.crossProduct Fp.sub Fp.mul
  ext <;> simp [rnd_zero, mul_comm]

theorem cross_rotate (a b c : V3) : ((c - b).cross (a - b)).len = ((b - a).cross (c - a)).len := by
  unfold V3.len
  congr 1
  simp only [V3.sqLen, V3.cross, V3.sub_x, V3.sub_y, V3.sub_z]
  ring

theorem rnd_triangleArea (a b c : V3) : Fp.rnd (Fp.triangleArea a b c) = Fp.triangleArea a b c := rnd_rnd _

/-- Two sums of areas of the same triangles. -/
theorem areas_close {T1 T2 T1' T2' a1 a2 b1 b2 D eps : ℝ} (hD : 0 < D) (a0 : 0 ≤ a1) (a0' : 0 ≤ a2) (b0 : 0 ≤ b1) (b0' : 0 ≤ b2)
    (hT1 : T1 ≤ D * D) (hT2 : T2 ≤ D * D) (hT : T1' + T2' = T1 + T2)
    (h1 : |a1 - T1| ≤ 6.5 / 2 ^ 53 * (2 * (D * D))) (h2 : |a2 - T2| ≤ 6.5 / 2 ^ 53 * (2 * (D * D)))
    (h34 : |b1 - T1'| + |b2 - T2'| ≤ 6.5 / 2 ^ 53 * (6 * (D * D)))
    (he : 0.99 / 10 ^ 7 * D ≤ eps) : |Fp.sub (Fp.rnd (a1 + a2)) (Fp.rnd (b1 + b2))| < Fp.mul eps eps := by
  have epos : 0 < eps := lt_of_lt_of_le (by positivity) he
  have k1 := rnd_error_num (a1 + a2)
  have k2 := rnd_error_num (b1 + b2)
  have k3 := rnd_error_num (Fp.rnd (a1 + a2) - Fp.rnd (b1 + b2))
  have k4 := rnd_error_num (eps * eps)
  rw [abs_of_nonneg (add_nonneg a0 a0')] at k1
  rw [abs_of_nonneg (add_nonneg b0 b0')] at k2
  rw [abs_of_nonneg (mul_nonneg epos.le epos.le)] at k4
  have q : 0.9801 / 10 ^ 14 * (D * D) ≤ eps * eps := by
    have := mul_self_le_mul_self (by positivity) he
    norm_num at this ⊢
    linarith
  have D2 : 0 < D * D := mul_pos hD hD
  set x := Fp.rnd (a1 + a2)
  set y := Fp.rnd (b1 + b2)
  have hxy : |x - y| ≤ 80 / 2 ^ 53 * (D * D) := by
    have t3 := le_abs_self (b1 - T1')
    have t3' := neg_le_abs (b1 - T1')
    have t4 := le_abs_self (b2 - T2')
    have t4' := neg_le_abs (b2 - T2')
    obtain ⟨a1', a2'⟩ := abs_le.1 h1
    obtain ⟨b1', b2'⟩ := abs_le.1 h2
    obtain ⟨c1', c2'⟩ := abs_le.1 k1
    obtain ⟨d1', d2'⟩ := abs_le.1 k2
    rw [abs_le]
    norm_num at a1' a2' b1' b2' c1' c2' d1' d2' h34 ⊢
    constructor <;> linarith
  have h5 : |Fp.sub x y| ≤ |x - y| + 1 / 2 ^ 53 * |x - y| := by
    have := abs_sub_abs_le_abs_sub (Fp.rnd (x - y)) (x - y)
    have e : Fp.sub x y = Fp.rnd (x - y) := rfl
    rw [e]
    linarith
  have h6 : Fp.mul eps eps = Fp.rnd (eps * eps) := rfl
  rw [h6]
  have h7 := (abs_le.1 k4).1
  norm_num at h5 hxy h7 q ⊢
  linarith

/-- **Corners of a quadrilateral.**  If no side is longer than twice the diagonal from the first to the last corner, the
quadrilateral contains these two corners with the default tolerance; for the last one, the assertion in the constructor
must hold if the distance from the plane is to be checked. -/
theorem C151_corners_partial (p0 p1 p2 p3 : V3) (hD : 0 < Spec.dist p0 p3)
    (h01 : Spec.dist p0 p1 ≤ 2 * Spec.dist p0 p3) (h02 : Spec.dist p0 p2 ≤ 2 * Spec.dist p0 p3)
    (h13 : Spec.dist p1 p3 ≤ 2 * Spec.dist p0 p3) (h23 : Spec.dist p2 p3 ≤ 2 * Spec.dist p0 p3) :
    Fp.quadContainsDefault p0 p1 p2 p3 p0 false ∧ Fp.quadContainsDefault p0 p1 p2 p3 p3 false ∧
    ((∃ pl, Fp.planeOfPoints p0 p1 p2 = .val pl) → Fp.quadContainsDefault p0 p1 p2 p3 p0) ∧
    (Fp.quadAssertion p0 p1 p2 p3 → Fp.quadContainsDefault p0 p1 p2 p3 p3) := by
  have he := (segment_eps ⟨p0, p3⟩ hD).1
  change 0.99 / 10 ^ 7 * Spec.dist p0 p3 ≤ Fp.quadEps p0 p3 at he
  have nn : ∀ a b c, 0 ≤ Fp.triangleArea a b c := fun a b c => rnd_nonneg (mul_nonneg (by norm_num) (close_length _).1)
  have dl : ∀ a b : V3, (b - a).len = Spec.dist a b := fun a b => by rw [Spec.dist_comm, dist_eq_len]
  have d0 : ∀ a b : V3, 0 ≤ Spec.dist a b := fun a b => Real.sqrt_nonneg _
  set D := Spec.dist p0 p3 with hDd
  have err : ∀ (a b c : V3) (x y z : ℝ), x * y = z → Spec.dist a b ≤ x → Spec.dist a c ≤ y →
      |Fp.triangleArea a b c - ((b - a).cross (c - a)).len / 2| ≤ 6.5 / 2 ^ 53 * z := by
    intro a b c x y z hz hx hy
    rw [← hz]
    refine (triangleArea_error a b c).trans (mul_le_mul_of_nonneg_left ?_ (by norm_num))
    rw [dl, dl]
    exact mul_le_mul hx hy (d0 _ _) ((d0 _ _).trans hx)
  have hT1 : ((p1 - p0).cross (p3 - p0)).len / 2 ≤ D * D := by
    have := cross_len_le (p1 - p0) (p3 - p0)
    rw [dl, dl] at this
    nlinarith
  have hT2 : ((p3 - p0).cross (p2 - p0)).len / 2 ≤ D * D := by
    have := cross_len_le (p3 - p0) (p2 - p0)
    rw [dl, dl] at this
    nlinarith
  have e1 := err p0 p1 p3 (2 * D) D (2 * (D * D)) (by ring) h01 le_rfl
  have e2 := err p0 p3 p2 D (2 * D) (2 * (D * D)) (by ring) le_rfl h02
  -- first corner
  have e3 := err p1 p3 p0 (2 * D) (2 * D) (4 * (D * D)) (by ring) h13 (by rw [Spec.dist_comm]; exact h01)
  have e4 := err p3 p2 p0 (2 * D) D (2 * (D * D)) (by ring) (by rw [Spec.dist_comm]; exact h23) (by rw [Spec.dist_comm])
  rw [cross_rotate] at e3
  have r4 : ((p2 - p3).cross (p0 - p3)).len = ((p3 - p0).cross (p2 - p0)).len := cross_rotate p0 p3 p2
  rw [r4] at e4
  -- last corner
  have e5 := err p2 p0 p3 (2 * D) (2 * D) (4 * (D * D)) (by ring) (by rw [Spec.dist_comm]; exact h02) h23
  have r5 : ((p0 - p2).cross (p3 - p2)).len = ((p3 - p0).cross (p2 - p0)).len := by
    rw [← cross_rotate p0 p3 p2, ← cross_rotate p3 p2 p0]
  rw [r5] at e5
  have A0 : |Fp.sub (Fp.quadArea p0 p1 p2 p3)
    (Fp.add (Fp.add (Fp.add (Fp.add 0 (Fp.triangleArea p0 p1 p0)) (Fp.triangleArea p1 p3 p0)) (Fp.triangleArea p3 p2 p0))
      (Fp.triangleArea p2 p0 p0))| < Fp.mul (Fp.quadEps p0 p3) (Fp.quadEps p0 p3) := by
    have e : Fp.add (Fp.add (Fp.add (Fp.add 0 (Fp.triangleArea p0 p1 p0)) (Fp.triangleArea p1 p3 p0))
        (Fp.triangleArea p3 p2 p0)) (Fp.triangleArea p2 p0 p0) =
        Fp.rnd (Fp.triangleArea p1 p3 p0 + Fp.triangleArea p3 p2 p0) := by
      rw [triangleArea_first, triangleArea_second]
      unfold Fp.add
      simp only [add_zero, zero_add, rnd_zero, rnd_triangleArea, rnd_rnd]
    rw [e]
    exact areas_close (a1 := Fp.triangleArea p0 p1 p3) (a2 := Fp.triangleArea p0 p3 p2) hD (nn _ _ _) (nn _ _ _) (nn _ _ _) (nn _ _ _) hT1 hT2 rfl e1 e2 ((add_le_add e3 e4).trans_eq (by ring)) he
  have A3 : |Fp.sub (Fp.quadArea p0 p1 p2 p3)
    (Fp.add (Fp.add (Fp.add (Fp.add 0 (Fp.triangleArea p0 p1 p3)) (Fp.triangleArea p1 p3 p3)) (Fp.triangleArea p3 p2 p3))
      (Fp.triangleArea p2 p0 p3))| < Fp.mul (Fp.quadEps p0 p3) (Fp.quadEps p0 p3) := by
    have e : Fp.add (Fp.add (Fp.add (Fp.add 0 (Fp.triangleArea p0 p1 p3)) (Fp.triangleArea p1 p3 p3))
        (Fp.triangleArea p3 p2 p3)) (Fp.triangleArea p2 p0 p3) =
        Fp.rnd (Fp.triangleArea p0 p1 p3 + Fp.triangleArea p2 p0 p3) := by
      rw [triangleArea_first, triangleArea_second]
      unfold Fp.add
      simp only [add_zero, zero_add, rnd_triangleArea]
    rw [e]
    exact areas_close (a1 := Fp.triangleArea p0 p1 p3) (a2 := Fp.triangleArea p0 p3 p2) hD (nn _ _ _) (nn _ _ _) (nn _ _ _) (nn _ _ _) hT1 hT2 rfl e1 e2 ((add_le_add e1 e5).trans_eq (by ring)) he
  have epos : 0 < Fp.quadEps p0 p3 := lt_of_lt_of_le (by positivity) he
  refine ⟨⟨by simp, A0⟩, ⟨by simp, A3⟩, fun ⟨pl, hpl⟩ => ⟨fun _ => ⟨pl, hpl, ?_⟩, A0⟩, fun h => ⟨fun _ => h, A3⟩⟩
  have hs : pl.supp = p0 := by
    unfold Fp.planeOfPoints at hpl
    obtain ⟨b1, -, hpl⟩ := Outcome.bind_eq_val.1 hpl
    obtain ⟨n, -, hpl⟩ := Outcome.bind_eq_val.1 hpl
    obtain ⟨b2, -, hpl⟩ := Outcome.bind_eq_val.1 hpl
    have := Outcome.val.inj hpl
    rw [← this]
  unfold Fp.planeContains
  rw [hs, vectorBetween_self]
  unfold Fp.scalarProduct Fp.add Fp.mul
  simpa [rnd_zero] using epos

/-- The length of the cross product of the sides of a triangle in the plane `z = 0`. -/
theorem cross_len_flat (a b c : V3) (ha : a.z = 0) (hb : b.z = 0) (hc : c.z = 0)
    (h : 0 ≤ (b.x - a.x) * (c.y - b.y) - (b.y - a.y) * (c.x - b.x)) :
    ((b - a).cross (c - a)).len = (b.x - a.x) * (c.y - b.y) - (b.y - a.y) * (c.x - b.x) := by
  have e : (b - a).cross (c - a) = ⟨0, 0, (b.x - a.x) * (c.y - b.y) - (b.y - a.y) * (c.x - b.x)⟩ := by
    ext <;> simp [V3.cross, ha, hb, hc]
    ring
  rw [e]
  unfold V3.len V3.sqLen
  simp only [mul_zero, zero_add]
  exact Real.sqrt_mul_self h

/-- The normal of the plane through points with `z = 0`. -/
theorem planeOfPoints_flat {p0 p1 p2 : V3} {pl : Plane} (h0 : p0.z = 0) (h1 : p1.z = 0) (h2 : p2.z = 0)
    (h : Fp.planeOfPoints p0 p1 p2 = .val pl) : pl.supp = p0 ∧ pl.normal.x = 0 ∧ pl.normal.y = 0 := by
  unfold Fp.planeOfPoints at h
  obtain ⟨b1, hb1, h⟩ := Outcome.bind_eq_val.1 h
  obtain ⟨n, hn, h⟩ := Outcome.bind_eq_val.1 h
  obtain ⟨b2, -, h⟩ := Outcome.bind_eq_val.1 h
  have hpl := Outcome.val.inj h
  have z1 : b1.z = 0 := by
    unfold Fp.mkDirection at hb1
    split at hb1
    · cases hb1
    · rw [← Outcome.val.inj hb1]
      unfold Fp.vectorBetween Fp.sub Fp.div
      simp [h0, h1, rnd_zero]
  have zw : (Fp.vectorBetween p0 p2).z = 0 := by
    unfold Fp.vectorBetween Fp.sub
    simp [h0, h2, rnd_zero]
  have hxy : n.x = 0 ∧ n.y = 0 := by
    unfold Fp.mkDirection at hn
    split at hn
    · cases hn
    · rw [← Outcome.val.inj hn]
      unfold Fp.crossProduct Fp.sub Fp.div Fp.mul
      simp [z1, zw, rnd_zero]
  rw [← hpl]
  exact ⟨rfl, hxy⟩

/-- **The other corners of a quadrilateral.**  If no side of a convex quadrilateral in the plane `z = 0` is longer than
the diagonal from the first to the last corner, it contains the other two corners with the default tolerance, if the
computed plane has a normal. -/
theorem C151_other_corners_partial (p0 p1 p2 p3 : V3) (hc : ConvexInPlane p0 p1 p2 p3)
    (h01 : Spec.dist p0 p1 ≤ Spec.dist p0 p3) (h02 : Spec.dist p0 p2 ≤ Spec.dist p0 p3)
    (h13 : Spec.dist p1 p3 ≤ Spec.dist p0 p3) (h23 : Spec.dist p2 p3 ≤ Spec.dist p0 p3) :
    Fp.quadContainsDefault p0 p1 p2 p3 p1 false ∧ Fp.quadContainsDefault p0 p1 p2 p3 p2 false ∧
    ((∃ pl, Fp.planeOfPoints p0 p1 p2 = .val pl) →
      Fp.quadContainsDefault p0 p1 p2 p3 p1 ∧ Fp.quadContainsDefault p0 p1 p2 p3 p2) := by
  have d0 : ∀ a b : V3, 0 ≤ Spec.dist a b := fun a b => Real.sqrt_nonneg _
  have dl : ∀ a b : V3, (b - a).len = Spec.dist a b := fun a b => by rw [Spec.dist_comm, dist_eq_len]
  obtain ⟨z0, z1, z2, z3, t0, t1, t3, t2⟩ := hc
  unfold TurnsLeft at t0 t1 t2 t3
  have f1 := cross_len_flat p0 p1 p3 z0 z1 z3 t1.le
  have f0 := cross_len_flat p2 p0 p1 z2 z0 z1 t0.le
  have f3 := cross_len_flat p1 p3 p2 z1 z3 z2 t3.le
  have f2 := cross_len_flat p3 p2 p0 z3 z2 z0 t2.le
  have r2 : ((p3 - p0).cross (p2 - p0)).len = ((p2 - p3).cross (p0 - p3)).len := (cross_rotate p0 p3 p2).symm
  have r0 : ((p1 - p0).cross (p2 - p0)).len = ((p0 - p2).cross (p1 - p2)).len := by
    rw [← cross_rotate p2 p0 p1]
  have r3 : ((p2 - p3).cross (p1 - p3)).len = ((p3 - p1).cross (p2 - p1)).len := cross_rotate p1 p3 p2
  have hD : 0 < Spec.dist p0 p3 := by
    rcases (d0 p0 p3).lt_or_eq with h | h
    · exact h
    · exfalso
      have c := cross_len_le (p1 - p0) (p3 - p0)
      rw [f1, dl p0 p3, ← h, mul_zero] at c
      linarith
  have he := (segment_eps ⟨p0, p3⟩ hD).1
  change 0.99 / 10 ^ 7 * Spec.dist p0 p3 ≤ Fp.quadEps p0 p3 at he
  have nn : ∀ a b c, 0 ≤ Fp.triangleArea a b c := fun a b c => rnd_nonneg (mul_nonneg (by norm_num) (close_length _).1)
  have h12 : Spec.dist p1 p2 ≤ 2 * Spec.dist p0 p3 := by
    have e : p1 - p2 = (p1 - p0) + (p0 - p2) := by ext <;> simp
    have := V3.len_add_le (p1 - p0) (p0 - p2)
    rw [← e, ← dist_eq_len, dl, ← dist_eq_len] at this
    linarith
  set D := Spec.dist p0 p3 with hDd
  have D2 : 0 < D * D := mul_pos hD hD
  have err : ∀ (a b c : V3) (x y z : ℝ), x * y ≤ z → Spec.dist a b ≤ x → Spec.dist a c ≤ y →
      |Fp.triangleArea a b c - ((b - a).cross (c - a)).len / 2| ≤ 6.5 / 2 ^ 53 * z := by
    intro a b c x y z hz hx hy
    refine (triangleArea_error a b c).trans (mul_le_mul_of_nonneg_left (le_trans ?_ hz) (by norm_num))
    rw [dl, dl]
    exact mul_le_mul hx hy (d0 _ _) ((d0 _ _).trans hx)
  have hT1 : ((p1 - p0).cross (p3 - p0)).len / 2 ≤ D * D := by
    have := cross_len_le (p1 - p0) (p3 - p0)
    rw [dl, dl] at this
    nlinarith
  have hT2 : ((p3 - p0).cross (p2 - p0)).len / 2 ≤ D * D := by
    have := cross_len_le (p3 - p0) (p2 - p0)
    rw [dl, dl] at this
    nlinarith
  have e1 := err p0 p1 p3 D D (2 * (D * D)) (by linarith) h01 le_rfl
  have e2 := err p0 p3 p2 D D (2 * (D * D)) (by linarith) le_rfl h02
  -- the other triangles
  have g1 := err p3 p2 p1 D D (2 * (D * D)) (by linarith) (by rw [Spec.dist_comm]; exact h23) (by rw [Spec.dist_comm]; exact h13)
  have g2 := err p2 p0 p1 D (2 * D) (4 * (D * D)) (by nlinarith) (by rw [Spec.dist_comm]; exact h02)
    (by rw [Spec.dist_comm]; exact h12)
  have g3 := err p0 p1 p2 D D (2 * (D * D)) (by linarith) h01 h02
  have g4 := err p1 p3 p2 D (2 * D) (4 * (D * D)) (by nlinarith) h13 h12
  rw [r3] at g1
  rw [r0] at g3
  have hT : ((p3 - p1).cross (p2 - p1)).len / 2 + ((p0 - p2).cross (p1 - p2)).len / 2 =
      ((p1 - p0).cross (p3 - p0)).len / 2 + ((p3 - p0).cross (p2 - p0)).len / 2 := by
    rw [r2, f0, f1, f2, f3]
    ring
  have A1 : |Fp.sub (Fp.quadArea p0 p1 p2 p3)
    (Fp.add (Fp.add (Fp.add (Fp.add 0 (Fp.triangleArea p0 p1 p1)) (Fp.triangleArea p1 p3 p1)) (Fp.triangleArea p3 p2 p1))
      (Fp.triangleArea p2 p0 p1))| < Fp.mul (Fp.quadEps p0 p3) (Fp.quadEps p0 p3) := by
    have e : Fp.add (Fp.add (Fp.add (Fp.add 0 (Fp.triangleArea p0 p1 p1)) (Fp.triangleArea p1 p3 p1))
        (Fp.triangleArea p3 p2 p1)) (Fp.triangleArea p2 p0 p1) =
        Fp.rnd (Fp.triangleArea p3 p2 p1 + Fp.triangleArea p2 p0 p1) := by
      rw [triangleArea_first, triangleArea_second]
      unfold Fp.add
      simp only [add_zero, zero_add, rnd_zero, rnd_triangleArea]
    rw [e]
    exact areas_close (a1 := Fp.triangleArea p0 p1 p3) (a2 := Fp.triangleArea p0 p3 p2) hD (nn _ _ _) (nn _ _ _) (nn _ _ _)
      (nn _ _ _) hT1 hT2 hT e1 e2 ((add_le_add g1 g2).trans_eq (by ring)) he
  have A2 : |Fp.sub (Fp.quadArea p0 p1 p2 p3)
    (Fp.add (Fp.add (Fp.add (Fp.add 0 (Fp.triangleArea p0 p1 p2)) (Fp.triangleArea p1 p3 p2)) (Fp.triangleArea p3 p2 p2))
      (Fp.triangleArea p2 p0 p2))| < Fp.mul (Fp.quadEps p0 p3) (Fp.quadEps p0 p3) := by
    have e : Fp.add (Fp.add (Fp.add (Fp.add 0 (Fp.triangleArea p0 p1 p2)) (Fp.triangleArea p1 p3 p2))
        (Fp.triangleArea p3 p2 p2)) (Fp.triangleArea p2 p0 p2) =
        Fp.rnd (Fp.triangleArea p0 p1 p2 + Fp.triangleArea p1 p3 p2) := by
      rw [triangleArea_first, triangleArea_second]
      unfold Fp.add
      simp only [add_zero, zero_add, rnd_triangleArea, rnd_rnd]
    rw [e]
    exact areas_close (a1 := Fp.triangleArea p0 p1 p3) (a2 := Fp.triangleArea p0 p3 p2) hD (nn _ _ _) (nn _ _ _) (nn _ _ _)
      (nn _ _ _) hT1 hT2 (by rw [add_comm]; exact hT) e1 e2 ((add_le_add g3 g4).trans_eq (by ring)) he
  have epos : 0 < Fp.quadEps p0 p3 := lt_of_lt_of_le (by positivity) he
  have inPlane : ∀ pl, Fp.planeOfPoints p0 p1 p2 = .val pl → ∀ p : V3, p.z = 0 → Fp.planeContains pl p (Fp.quadEps p0 p3) := by
    intro pl hpl p hp
    obtain ⟨hs, hx, hy⟩ := planeOfPoints_flat z0 z1 z2 hpl
    unfold Fp.planeContains Fp.scalarProduct Fp.vectorBetween Fp.sub Fp.add Fp.mul
    simpa [hs, hx, hy, z0, hp, rnd_zero] using epos
  exact ⟨⟨by simp, A1⟩, ⟨by simp, A2⟩, fun ⟨pl, hpl⟩ => ⟨⟨fun _ => ⟨pl, hpl, inPlane pl hpl p1 z1⟩, A1⟩,
    ⟨fun _ => ⟨pl, hpl, inPlane pl hpl p2 z2⟩, A2⟩⟩⟩

/-- The computed area of a triangle in the plane `z = 0`. -/
theorem triangleArea_flat (a b c : V3) (x1 y1 x2 y2 z : ℝ) (h1 : Fp.vectorBetween a b = ⟨x1, y1, 0⟩)
    (h2 : Fp.vectorBetween a c = ⟨x2, y2, 0⟩) (hz : Fp.sub (Fp.mul x1 y2) (Fp.mul y1 x2) = z) (z0 : 0 ≤ z) :
    |Fp.triangleArea a b c - z / 2| ≤ 2.1 / 2 ^ 53 * z := by
  have hc : Fp.crossProduct (Fp.vectorBetween a b) (Fp.vectorBetween a c) = ⟨0, 0, z⟩ := by
    rw [h1, h2, ← hz]
    unfold Fp.crossProduct Fp.sub Fp.mul
    simp [rnd_zero]
  have hl : (⟨0, 0, z⟩ : V3).len = z := by
    unfold V3.len V3.sqLen
    simp only [mul_zero, zero_add]
    exact Real.sqrt_mul_self z0
  have r3 : rho ^ 3 - 1 ≤ 3.01 / 2 ^ 53 := (rho_pow_sub_one_le (by norm_num)).trans (by norm_num)
  have h3 : |Fp.length ⟨0, 0, z⟩ - z| ≤ 3.01 / 2 ^ 53 * z := by
    have := (close_length ⟨0, 0, z⟩).abs_sub_le
    rw [hl] at this
    exact this.trans (mul_le_mul_of_nonneg_right r3 z0)
  have h4 : Fp.triangleArea a b c = Fp.rnd (1 / 2 * Fp.length ⟨0, 0, z⟩) := by
    unfold Fp.triangleArea
    rw [hc]
    rfl
  have l0 : 0 ≤ Fp.length ⟨0, 0, z⟩ := (close_length _).1
  have h5 := rnd_error_num (1 / 2 * Fp.length ⟨0, 0, z⟩)
  rw [abs_of_nonneg (mul_nonneg (by norm_num) l0), ← h4] at h5
  obtain ⟨a1, a2⟩ := abs_le.1 h3
  obtain ⟨b1, b2⟩ := abs_le.1 h5
  rw [abs_le]
  norm_num at a1 a2 b1 b2 ⊢
  constructor <;> linarith

/-- The full property fails for quadrilaterals with a short diagonal between the first and the last corner: the
tolerance for the difference of the areas is relative to the square of this diagonal, the rounding of the areas is
relative to the squares of the sides. -/
theorem C151_disproof : ¬ C151_full := by
  intro hfull
  have ri : ∀ m : ℤ, |m| ≤ 2 ^ 53 → Fp.rnd (m : ℝ) = m := fun m hm => rnd_of_isDouble (isDouble_int hm)
  have di : ∀ m : ℤ, |m| ≤ 2 ^ 53 → IsDouble (m : ℝ) := fun m hm => isDouble_int hm
  have d0 : IsDouble (0 : ℝ) := by exact_mod_cast di 0 (by norm_num)
  let p0 : V3 := ⟨0, 0, 0⟩
  let p1 : V3 := ⟨134217730, 134217729, 0⟩
  let p2 : V3 := ⟨-2097152, 0, 0⟩
  let p3 : V3 := ⟨-2097152, 2097152, 0⟩
  have h := hfull p0 p1 p2 p3 ⟨d0, d0, d0⟩
    ⟨by exact_mod_cast di 134217730 (by norm_num), by exact_mod_cast di 134217729 (by norm_num), d0⟩
    ⟨⟨-2097152, 0, by norm_num, by norm_num [p2]⟩, d0, d0⟩
    ⟨⟨-2097152, 0, by norm_num, by norm_num [p3]⟩, by exact_mod_cast di 2097152 (by norm_num), d0⟩
    { z0 := rfl, z1 := rfl, z2 := rfl, z3 := rfl
      t0 := by norm_num [TurnsLeft, p0, p1, p2, p3], t1 := by norm_num [TurnsLeft, p0, p1, p2, p3]
      t2 := by norm_num [TurnsLeft, p0, p1, p2, p3], t3 := by norm_num [TurnsLeft, p0, p1, p2, p3] }
  have h' := h.2
  rw [triangleArea_first, triangleArea_second] at h'
  -- the triangles of the area
  have a1 := triangleArea_flat p0 p1 p3 134217730 134217729 (-2097152) 2097152 562949959712768
    (by
      have e1 : Fp.rnd 134217730 = 134217730 := by exact_mod_cast ri 134217730 (by norm_num)
      have e2 : Fp.rnd 134217729 = 134217729 := by exact_mod_cast ri 134217729 (by norm_num)
      unfold Fp.vectorBetween Fp.sub
      norm_num [p0, p1, e1, e2, rnd_zero])
    (by
      have e1 : Fp.rnd (-2097152) = -2097152 := by exact_mod_cast ri (-2097152) (by norm_num)
      have e2 : Fp.rnd 2097152 = 2097152 := by exact_mod_cast ri 2097152 (by norm_num)
      unfold Fp.vectorBetween Fp.sub
      norm_num [p0, p3, e1, e2, rnd_zero])
    (by
      have e1 : Fp.rnd 281474980904960 = 281474980904960 := by exact_mod_cast ri 281474980904960 (by norm_num)
      have e2 : Fp.rnd (-281474978807808) = -281474978807808 := by exact_mod_cast ri (-281474978807808) (by norm_num)
      have e3 : Fp.rnd 562949959712768 = 562949959712768 := by exact_mod_cast ri 562949959712768 (by norm_num)
      unfold Fp.sub Fp.mul
      norm_num [e1, e2, e3])
    (by norm_num)
  have a2 := triangleArea_flat p0 p3 p2 (-2097152) 2097152 (-2097152) 0 4398046511104
    (by
      have e1 : Fp.rnd (-2097152) = -2097152 := by exact_mod_cast ri (-2097152) (by norm_num)
      have e2 : Fp.rnd 2097152 = 2097152 := by exact_mod_cast ri 2097152 (by norm_num)
      unfold Fp.vectorBetween Fp.sub
      norm_num [p0, p3, e1, e2, rnd_zero])
    (by
      have e1 : Fp.rnd (-2097152) = -2097152 := by exact_mod_cast ri (-2097152) (by norm_num)
      unfold Fp.vectorBetween Fp.sub
      norm_num [p0, p2, e1, rnd_zero])
    (by
      have e1 : Fp.rnd (-4398046511104) = -4398046511104 := by exact_mod_cast ri (-4398046511104) (by norm_num)
      have e2 : Fp.rnd 4398046511104 = 4398046511104 := by exact_mod_cast ri 4398046511104 (by norm_num)
      unfold Fp.sub Fp.mul
      norm_num [e1, e2, rnd_zero])
    (by norm_num)
  -- the triangles of the query
  have b1 := triangleArea_flat p1 p3 p0 (-136314882) (-132120577) (-134217730) (-134217729) 562949959712766
    (by
      have e1 : Fp.rnd (-136314882) = -136314882 := by exact_mod_cast ri (-136314882) (by norm_num)
      have e2 : Fp.rnd (-132120577) = -132120577 := by exact_mod_cast ri (-132120577) (by norm_num)
      unfold Fp.vectorBetween Fp.sub
      norm_num [p1, p3, e1, e2, rnd_zero])
    (by
      have e1 : Fp.rnd (-134217730) = -134217730 := by exact_mod_cast ri (-134217730) (by norm_num)
      have e2 : Fp.rnd (-134217729) = -134217729 := by exact_mod_cast ri (-134217729) (by norm_num)
      unfold Fp.vectorBetween Fp.sub
      norm_num [p0, p1, e1, e2, rnd_zero])
    (by
      have e1 : Fp.rnd 18295873890942978 = 18295873890942976 := by
        have hu : Fp.ulpExponent 18295873890942978 = 2 := by
          apply ulpExponent_eq <;> rw [abs_of_pos (by norm_num)] <;> norm_num
        unfold Fp.rnd
        rw [hu]
        have : Fp.nearestEven ((18295873890942978 : ℝ) / 2 ^ (2 : ℤ)) = 4573968472735744 := by
          apply nearestEven_unique
          · push_cast
            rw [abs_le]
            constructor <;> norm_num
          · intro _
            exact ⟨2286984236367872, by norm_num⟩
        rw [this]
        norm_num
      have e2 : Fp.rnd 17732923931230210 = 17732923931230210 :=
        rnd_of_isDouble ⟨8866461965615105, 1, by norm_num, by norm_num⟩
      have e3 : Fp.rnd 562949959712766 = 562949959712766 := by exact_mod_cast ri 562949959712766 (by norm_num)
      unfold Fp.sub Fp.mul
      norm_num [e1, e2, e3])
    (by norm_num)
  have b2 := triangleArea_flat p3 p2 p0 0 (-2097152) 2097152 (-2097152) 4398046511104
    (by
      have e1 : Fp.rnd (-2097152) = -2097152 := by exact_mod_cast ri (-2097152) (by norm_num)
      unfold Fp.vectorBetween Fp.sub
      norm_num [p3, p2, e1, rnd_zero])
    (by
      have e1 : Fp.rnd (-2097152) = -2097152 := by exact_mod_cast ri (-2097152) (by norm_num)
      have e2 : Fp.rnd 2097152 = 2097152 := by exact_mod_cast ri 2097152 (by norm_num)
      unfold Fp.vectorBetween Fp.sub
      norm_num [p0, p3, e1, e2, rnd_zero])
    (by
      have e1 : Fp.rnd (-4398046511104) = -4398046511104 := by exact_mod_cast ri (-4398046511104) (by norm_num)
      have e2 : Fp.rnd 4398046511104 = 4398046511104 := by exact_mod_cast ri 4398046511104 (by norm_num)
      unfold Fp.sub Fp.mul
      norm_num [e1, e2, rnd_zero])
    (by norm_num)
  have hD : Spec.dist p0 p3 ≤ 2970000 := by
    unfold Spec.dist
    apply Real.sqrt_le_iff.2
    norm_num [p0, p3]
  have hD0 : 0 < Spec.dist p0 p3 := by
    unfold Spec.dist
    apply Real.sqrt_pos.2
    norm_num [p0, p3]
  have he := segment_eps ⟨p0, p3⟩ hD0
  change _ ≤ Fp.quadEps p0 p3 ∧ Fp.quadEps p0 p3 ≤ 1.001 / 10 ^ 7 * Spec.dist p0 p3 at he
  set eps := Fp.quadEps p0 p3
  have epos : 0 < eps := lt_of_lt_of_le (by positivity) he.1
  have eps1 : eps ≤ 0.3 := by
    refine he.2.trans ?_
    norm_num at hD ⊢
    linarith
  have eps2 : Fp.mul eps eps ≤ 0.1 := by
    have k := rnd_error_num (eps * eps)
    rw [abs_of_nonneg (mul_nonneg epos.le epos.le)] at k
    have k' := (abs_le.1 k).2
    have q : eps * eps ≤ 0.3 * 0.3 := mul_le_mul eps1 eps1 epos.le (by norm_num)
    have e : Fp.mul eps eps = Fp.rnd (eps * eps) := rfl
    rw [e]
    norm_num at k' q ⊢
    linarith
  have nn : ∀ a b c, 0 ≤ Fp.triangleArea a b c := fun a b c => rnd_nonneg (mul_nonneg (by norm_num) (close_length _).1)
  have eS : Fp.add (Fp.add (Fp.add (Fp.add 0 0) (Fp.triangleArea p1 p3 p0)) (Fp.triangleArea p3 p2 p0)) 0 =
      Fp.rnd (Fp.triangleArea p1 p3 p0 + Fp.triangleArea p3 p2 p0) := by
    unfold Fp.add
    simp only [add_zero, zero_add, rnd_zero, rnd_triangleArea, rnd_rnd]
  have eA : Fp.quadArea p0 p1 p2 p3 = Fp.rnd (Fp.triangleArea p0 p1 p3 + Fp.triangleArea p0 p3 p2) := rfl
  rw [eS, eA] at h'
  have k1 := rnd_error_num (Fp.triangleArea p0 p1 p3 + Fp.triangleArea p0 p3 p2)
  have k2 := rnd_error_num (Fp.triangleArea p1 p3 p0 + Fp.triangleArea p3 p2 p0)
  rw [abs_of_nonneg (add_nonneg (nn _ _ _) (nn _ _ _))] at k1 k2
  set A := Fp.rnd (Fp.triangleArea p0 p1 p3 + Fp.triangleArea p0 p3 p2)
  set S := Fp.rnd (Fp.triangleArea p1 p3 p0 + Fp.triangleArea p3 p2 p0)
  have diff : 0.4 ≤ A - S := by
    have q1 := (abs_le.1 a1).1
    have q2 := (abs_le.1 a2).1
    have q3 := (abs_le.1 b1).2
    have q4 := (abs_le.1 b2).2
    have q1' := (abs_le.1 a1).2
    have q2' := (abs_le.1 a2).2
    have q5 := (abs_le.1 k1).1
    have q6 := (abs_le.1 k2).2
    norm_num at q1 q2 q3 q4 q5 q6 q1' q2' ⊢
    linarith
  have k3 := (abs_le.1 (rnd_error_num (A - S))).1
  rw [abs_of_nonneg (by norm_num at diff; linarith)] at k3
  have e : Fp.sub A S = Fp.rnd (A - S) := rfl
  have k4 := le_abs_self (Fp.sub A S)
  rw [e] at k4 h'
  norm_num at k3 k4 h' eps2 diff
  linarith

/-- A square contains its corners. -/
example : ∃ pl, Fp.planeOfPoints ⟨0, 0, 0⟩ ⟨1, 0, 0⟩ ⟨0, 1, 0⟩ = .val pl ∧
    Fp.quadContainsDefault ⟨0, 0, 0⟩ ⟨1, 0, 0⟩ ⟨0, 1, 0⟩ ⟨1, 1, 0⟩ ⟨0, 0, 0⟩ ∧
    Fp.quadContainsDefault ⟨0, 0, 0⟩ ⟨1, 0, 0⟩ ⟨0, 1, 0⟩ ⟨1, 1, 0⟩ ⟨1, 0, 0⟩ := by
  have s1 : Fp.sqrt 1 = 1 := by unfold Fp.sqrt; rw [Real.sqrt_one, rnd_one]
  have hpl : Fp.planeOfPoints ⟨0, 0, 0⟩ ⟨1, 0, 0⟩ ⟨0, 1, 0⟩ = .val ⟨⟨0, 0, 0⟩, ⟨1, 0, 0⟩, ⟨0, 1, 0⟩, ⟨0, 0, 1⟩⟩ := by
    unfold Fp.planeOfPoints Fp.mkDirection Fp.length Fp.squaredLength Fp.crossProduct Fp.vectorBetween Fp.add Fp.mul Fp.sub
    simp [rnd_zero, rnd_one, s1, Fp.div]
  refine ⟨_, hpl, (C151_corners_partial ⟨0, 0, 0⟩ ⟨1, 0, 0⟩ ⟨0, 1, 0⟩ ⟨1, 1, 0⟩ ?_ ?_ ?_ ?_ ?_).2.2.1 ⟨_, hpl⟩,
    ((C151_other_corners_partial ⟨0, 0, 0⟩ ⟨1, 0, 0⟩ ⟨0, 1, 0⟩ ⟨1, 1, 0⟩ ?_ ?_ ?_ ?_ ?_).2.2 ⟨_, hpl⟩).1⟩
  · unfold Spec.dist
    apply Real.sqrt_pos.2
    norm_num
  on_goal 5 => constructor <;> norm_num [TurnsLeft]
  on_goal 5 => unfold Spec.dist; apply Real.sqrt_le_sqrt; norm_num
  on_goal 5 => unfold Spec.dist; apply Real.sqrt_le_sqrt; norm_num
  on_goal 5 => unfold Spec.dist; apply Real.sqrt_le_sqrt; norm_num
  on_goal 5 => unfold Spec.dist; apply Real.sqrt_le_sqrt; norm_num
  all_goals
    unfold Spec.dist
    rw [show (2 : ℝ) = √4 by rw [show (4 : ℝ) = 2 ^ 2 by norm_num, Real.sqrt_sq (by norm_num)], ← Real.sqrt_mul (by norm_num)]
    apply Real.sqrt_le_sqrt
    norm_num

end Props
