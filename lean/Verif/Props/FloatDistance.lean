import Verif.Lemmas.FloatGeometry
import Verif.Props.FloatVector

/-!
# C115, C116 Spheres and distances of points in double precision
-/

namespace Props
open Verif Frackit Spec

/-! ## C115 Spheres -/

/-- Points that exceed the radius by little are contained. -/
theorem sphere_near (s : Sphere) (p : V3) (hr : 0 < s.radius) (h : Spec.dist s.center p ≤ s.radius * (1 + 32 / 2 ^ 53)) :
    Fp.sphereContainsDefault s p := by
  have hS := (close_squaredBetween s.center p).2.2.2
  have hR : Close 1 (Fp.mul s.radius s.radius) (s.radius * s.radius) := close_rnd (by positivity)
  have he : Close 2 (Fp.mul s.radius Fp.confusion) (s.radius * (1 / 10 ^ 7)) :=
    (((Close.refl hr.le).mul close_confusion).rnd).mono (by norm_num)
  have hE : Close 5 (Fp.mul (Fp.mul s.radius Fp.confusion) (Fp.mul s.radius Fp.confusion))
      ((s.radius * (1 / 10 ^ 7)) * (s.radius * (1 / 10 ^ 7))) := (he.mul he).rnd
  have h5 := rho_pow_le (show 5 ≤ 15 by norm_num)
  have h1 := rho_pow_le (show 1 ≤ 15 by norm_num)
  have hd0 : 0 ≤ Spec.dist s.center p := Real.sqrt_nonneg _
  have hd2 : Spec.dist s.center p ^ 2 ≤ (s.radius * (1 + 32 / 2 ^ 53)) ^ 2 := pow_le_pow_left₀ hd0 h 2
  have rr : 0 < s.radius ^ 2 := by positivity
  -- the computed square
  have a1 : Fp.squaredLength (Fp.vectorBetween s.center p) ≤ (1 + 70 / 2 ^ 53) * s.radius ^ 2 := by
    calc _ ≤ rho ^ 5 * Spec.dist s.center p ^ 2 := hS
      _ ≤ (1 + (5 : ℕ) * (1 / 2 ^ 53) * (1 + 1 / 2 ^ 47)) * (s.radius * (1 + 32 / 2 ^ 53)) ^ 2 := by
          exact mul_le_mul h5 hd2 (by positivity) (by positivity)
      _ = ((1 + (5 : ℕ) * (1 / 2 ^ 53) * (1 + 1 / 2 ^ 47)) * (1 + 32 / 2 ^ 53) ^ 2) * s.radius ^ 2 := by ring
      _ ≤ _ := mul_le_mul_of_nonneg_right (by norm_num) rr.le
  have a2 : (1 - 2 / 2 ^ 53) * s.radius ^ 2 ≤ Fp.mul s.radius s.radius := by
    have b := hR.abs_sub_le
    have b1 := rho_pow_sub_one_le (show 1 ≤ 15 by norm_num)
    have b2 : (rho ^ 1 - 1) * (s.radius * s.radius) ≤ 2 / 2 ^ 53 * (s.radius * s.radius) :=
      mul_le_mul_of_nonneg_right (b1.trans (by norm_num)) (by positivity)
    have := (abs_le.1 b).1
    nlinarith
  have a3 : 0.99 / 10 ^ 14 * s.radius ^ 2 ≤
      Fp.mul (Fp.mul s.radius Fp.confusion) (Fp.mul s.radius Fp.confusion) := by
    have b := hE.abs_sub_le
    have b1 := rho_pow_sub_one_le (show 5 ≤ 15 by norm_num)
    have b2 : (rho ^ 5 - 1) * ((s.radius * (1 / 10 ^ 7)) * (s.radius * (1 / 10 ^ 7))) ≤
        1 / 100 * ((s.radius * (1 / 10 ^ 7)) * (s.radius * (1 / 10 ^ 7))) :=
      mul_le_mul_of_nonneg_right (b1.trans (by norm_num)) (by positivity)
    have := (abs_le.1 b).1
    nlinarith
  have a4 : Fp.squaredLength (Fp.vectorBetween s.center p) - Fp.mul s.radius s.radius ≤ 72 / 2 ^ 53 * s.radius ^ 2 := by
    linarith
  have a5 := rnd_mono a4
  have a6 : Fp.rnd (72 / 2 ^ 53 * s.radius ^ 2) ≤ 73 / 2 ^ 53 * s.radius ^ 2 := by
    have b := (close_rnd (x := 72 / 2 ^ 53 * s.radius ^ 2) (by positivity)).2.2.2
    calc _ ≤ rho ^ 1 * (72 / 2 ^ 53 * s.radius ^ 2) := b
      _ ≤ (1 + (1 : ℕ) * (1 / 2 ^ 53) * (1 + 1 / 2 ^ 47)) * (72 / 2 ^ 53 * s.radius ^ 2) :=
          mul_le_mul_of_nonneg_right h1 (by positivity)
      _ = ((1 + (1 : ℕ) * (1 / 2 ^ 53) * (1 + 1 / 2 ^ 47)) * (72 / 2 ^ 53)) * s.radius ^ 2 := by ring
      _ ≤ _ := mul_le_mul_of_nonneg_right (by norm_num) rr.le
  have a7 : 73 / 2 ^ 53 * s.radius ^ 2 < 0.99 / 10 ^ 14 * s.radius ^ 2 := mul_lt_mul_of_pos_right (by norm_num) rr
  unfold Fp.sphereContainsDefault Fp.sphereContains Fp.sub
  linarith

/-- **Points of the ball.**  Every point whose distance from the centre is at most the radius is contained with the
default tolerance. -/
theorem C115_inside (s : Sphere) (p : V3) (hr : 0 < s.radius) (h : Spec.dist s.center p ≤ s.radius) :
    Fp.sphereContainsDefault s p :=
  sphere_near s p hr (h.trans (by nlinarith))

/-- **Points outside.**  The points contained with the default tolerance exceed the radius by less than 1e-14 times the
radius. -/
theorem C115_outside (s : Sphere) (p : V3) (hr : 0 < s.radius) (h : Fp.sphereContainsDefault s p) :
    Spec.dist s.center p < s.radius * (1 + 1 / 10 ^ 14) := by
  have hS := (close_squaredBetween s.center p).2.2.1
  have hR : Close 1 (Fp.mul s.radius s.radius) (s.radius * s.radius) := close_rnd (by positivity)
  have he : Close 2 (Fp.mul s.radius Fp.confusion) (s.radius * (1 / 10 ^ 7)) :=
    (((Close.refl hr.le).mul close_confusion).rnd).mono (by norm_num)
  have hE : Close 5 (Fp.mul (Fp.mul s.radius Fp.confusion) (Fp.mul s.radius Fp.confusion))
      ((s.radius * (1 / 10 ^ 7)) * (s.radius * (1 / 10 ^ 7))) := (he.mul he).rnd
  have h5 := rho_pow_le (show 5 ≤ 15 by norm_num)
  have h1 := rho_pow_le (show 1 ≤ 15 by norm_num)
  have rr : 0 < s.radius ^ 2 := by positivity
  have hd0 : 0 ≤ Spec.dist s.center p := Real.sqrt_nonneg _
  unfold Fp.sphereContainsDefault Fp.sphereContains Fp.sub at h
  set S := Fp.squaredLength (Fp.vectorBetween s.center p)
  set E := Fp.mul (Fp.mul s.radius Fp.confusion) (Fp.mul s.radius Fp.confusion)
  have a1 : E ≤ 1.01 / 10 ^ 14 * s.radius ^ 2 := by
    calc E ≤ rho ^ 5 * ((s.radius * (1 / 10 ^ 7)) * (s.radius * (1 / 10 ^ 7))) := hE.2.2.2
      _ ≤ (1 + (5 : ℕ) * (1 / 2 ^ 53) * (1 + 1 / 2 ^ 47)) * ((s.radius * (1 / 10 ^ 7)) * (s.radius * (1 / 10 ^ 7))) :=
          mul_le_mul_of_nonneg_right h5 (by positivity)
      _ = ((1 + (5 : ℕ) * (1 / 2 ^ 53) * (1 + 1 / 2 ^ 47)) * (1 / 10 ^ 14)) * s.radius ^ 2 := by ring
      _ ≤ _ := mul_le_mul_of_nonneg_right (by norm_num) rr.le
  have a2 : Fp.mul s.radius s.radius ≤ (1 + 2 / 2 ^ 53) * s.radius ^ 2 := by
    calc _ ≤ rho ^ 1 * (s.radius * s.radius) := hR.2.2.2
      _ ≤ (1 + (1 : ℕ) * (1 / 2 ^ 53) * (1 + 1 / 2 ^ 47)) * (s.radius * s.radius) :=
          mul_le_mul_of_nonneg_right h1 (by positivity)
      _ = (1 + (1 : ℕ) * (1 / 2 ^ 53) * (1 + 1 / 2 ^ 47)) * s.radius ^ 2 := by ring
      _ ≤ _ := mul_le_mul_of_nonneg_right (by norm_num) rr.le
  have a3 : S - Fp.mul s.radius s.radius ≤ 1.02 / 10 ^ 14 * s.radius ^ 2 := by
    by_contra hc
    push Not at hc
    have hpos : 0 ≤ S - Fp.mul s.radius s.radius := le_trans (by positivity) hc.le
    have b := (close_rnd hpos).2.2.1
    have b1 : S - Fp.mul s.radius s.radius ≤ (1 + (1 : ℕ) * (1 / 2 ^ 53) * (1 + 1 / 2 ^ 47)) * (1.01 / 10 ^ 14 * s.radius ^ 2) :=
      b.trans (mul_le_mul h1 (h.le.trans a1) (rnd_nonneg hpos) (by positivity))
    have b2 : (1 + (1 : ℕ) * (1 / 2 ^ 53) * (1 + 1 / 2 ^ 47)) * (1.01 / 10 ^ 14 * s.radius ^ 2) ≤
        1.02 / 10 ^ 14 * s.radius ^ 2 := by
      rw [← mul_assoc]
      exact mul_le_mul_of_nonneg_right (by norm_num) rr.le
    linarith
  have a4 : S ≤ (1 + 2 / 2 ^ 53 + 1.02 / 10 ^ 14) * s.radius ^ 2 := by linarith
  have a5 : Spec.dist s.center p ^ 2 < (s.radius * (1 + 1 / 10 ^ 14)) ^ 2 := by
    calc Spec.dist s.center p ^ 2 ≤ rho ^ 5 * S := hS
      _ ≤ (1 + (5 : ℕ) * (1 / 2 ^ 53) * (1 + 1 / 2 ^ 47)) * ((1 + 2 / 2 ^ 53 + 1.02 / 10 ^ 14) * s.radius ^ 2) :=
          mul_le_mul h5 a4 (close_squaredBetween s.center p).1 (by positivity)
      _ = ((1 + (5 : ℕ) * (1 / 2 ^ 53) * (1 + 1 / 2 ^ 47)) * (1 + 2 / 2 ^ 53 + 1.02 / 10 ^ 14)) * s.radius ^ 2 := by ring
      _ < (1 + 1 / 10 ^ 14) ^ 2 * s.radius ^ 2 := mul_lt_mul_of_pos_right (by norm_num) rr
      _ = _ := by ring
  exact lt_of_pow_lt_pow_left₀ 2 (by positivity) a5

/-- The point of double precision next to a point. -/
noncomputable def roundedPoint (p : V3) : V3 := ⟨Fp.rnd p.x, Fp.rnd p.y, Fp.rnd p.z⟩

/-- The full property: the points of the surface of a sphere, up to the rounding of their coordinates, are contained. -/
def C115_full : Prop := ∀ (s : Sphere) (p : V3), DoubleCoordinates s.center → IsDouble s.radius → 0 < s.radius →
  Spec.dist s.center p = s.radius → Fp.sphereContainsDefault s (roundedPoint p)

/-- The full property fails: the default tolerance is the square of 1e-7 in relation to the radius, so that points of
the surface of a sphere of radius one that is 2²⁰ away from the origin are not contained once they are rounded. -/
theorem C115_disproof : ¬ C115_full := by
  intro h
  have h1 := h ⟨⟨2 ^ 20, 0, 0⟩, 1⟩ ⟨2 ^ 20 + 6 / 10, 8 / 10, 0⟩
    ⟨⟨1, 20, by norm_num, by norm_num⟩, ⟨0, 0, by norm_num, by norm_num⟩, ⟨0, 0, by norm_num, by norm_num⟩⟩
    ⟨1, 0, by norm_num, by norm_num⟩ (by norm_num)
    (by unfold Spec.dist; rw [Real.sqrt_eq_iff_mul_self_eq_of_pos (by norm_num)]; norm_num)
  have h2 := C115_outside _ _ (by norm_num) h1
  have e1 : Fp.rnd (2 ^ 20 + 6 / 10) = 2 ^ 20 + 2576980378 / 2 ^ 32 := by
    apply rnd_eval (2 ^ 52 + 2576980378) 32
    · norm_num
    · rw [abs_of_pos (by norm_num)]
      norm_num
    · rw [abs_of_pos (by norm_num)]
      norm_num
    · rw [abs_lt]
      constructor <;> norm_num
  have e2 := abs_le.1 (rnd_error (8 / 10))
  rw [abs_of_pos (by norm_num : (0 : ℝ) < 8 / 10), unitRoundoff] at e2
  have e3 : (0.8 - 1 / 10 ^ 15 : ℝ) ≤ Fp.rnd (8 / 10) := by
    have := e2.1
    norm_num at this ⊢
    linarith
  have e4 : (0.8 - 1 / 10 ^ 15 : ℝ) ^ 2 ≤ Fp.rnd (8 / 10) ^ 2 := pow_le_pow_left₀ (by norm_num) e3 2
  unfold Spec.dist roundedPoint at h2
  simp only [e1, rnd_zero, one_mul] at h2
  rw [Real.sqrt_lt' (by norm_num)] at h2
  norm_num at h2 e4
  linarith

/-- **Points of the surface.**  The points of the surface, up to the rounding of their coordinates, are contained with
the default tolerance if the coordinates of the centre are at most sixteen times the radius. -/
theorem C115_surface_partial (s : Sphere) (p : V3) (hr : 0 < s.radius) (hx : |s.center.x| ≤ 16 * s.radius)
    (hy : |s.center.y| ≤ 16 * s.radius) (hz : |s.center.z| ≤ 16 * s.radius) (hp : Spec.dist s.center p = s.radius) :
    Fp.sphereContainsDefault s (roundedPoint p) := by
  apply sphere_near s _ hr
  have hsq : (s.center - p).sqLen = s.radius ^ 2 := by
    rw [← V3.len_sq, ← dist_eq_len, hp]
  unfold V3.sqLen at hsq
  simp only [V3.sub_x, V3.sub_y, V3.sub_z] at hsq
  have key : ∀ c q : ℝ, |c| ≤ 16 * s.radius → (c - q) * (c - q) ≤ s.radius ^ 2 →
      |q - Fp.rnd q| ≤ 17 / 2 ^ 53 * s.radius := by
    intro c q hc hq
    have h1 : |c - q| ≤ s.radius := abs_le_of_sq_le_sq (by nlinarith) hr.le
    have h2 : |q| ≤ 17 * s.radius := by
      have := abs_sub_abs_le_abs_sub q c
      rw [abs_sub_comm q c] at this
      linarith
    have h3 := rnd_error q
    rw [abs_sub_comm]
    unfold unitRoundoff at h3
    linarith
  have kx := key s.center.x p.x hx (by nlinarith [mul_self_nonneg (s.center.y - p.y), mul_self_nonneg (s.center.z - p.z)])
  have ky := key s.center.y p.y hy (by nlinarith [mul_self_nonneg (s.center.x - p.x), mul_self_nonneg (s.center.z - p.z)])
  have kz := key s.center.z p.z hz (by nlinarith [mul_self_nonneg (s.center.y - p.y), mul_self_nonneg (s.center.x - p.x)])
  have h1 : (p - roundedPoint p).len ≤ 32 / 2 ^ 53 * s.radius := by
    unfold V3.len
    refine Real.sqrt_le_iff.2 ⟨by positivity, ?_⟩
    have sq : ∀ x : ℝ, |x| ≤ 17 / 2 ^ 53 * s.radius → x * x ≤ (17 / 2 ^ 53 * s.radius) * (17 / 2 ^ 53 * s.radius) := by
      intro x hx
      rw [← abs_mul_abs_self]
      exact mul_le_mul hx hx (abs_nonneg _) (by positivity)
    have s1 := sq _ kx
    have s2 := sq _ ky
    have s3 := sq _ kz
    unfold V3.sqLen
    simp only [V3.sub_x, V3.sub_y, V3.sub_z, roundedPoint]
    have rr : 0 < s.radius ^ 2 := by positivity
    calc _ ≤ 3 * ((17 / 2 ^ 53 * s.radius) * (17 / 2 ^ 53 * s.radius)) := by linarith
      _ = 3 * (17 / 2 ^ 53) ^ 2 * s.radius ^ 2 := by ring
      _ ≤ (32 / 2 ^ 53) ^ 2 * s.radius ^ 2 := mul_le_mul_of_nonneg_right (by norm_num) rr.le
      _ = _ := by ring
  calc Spec.dist s.center (roundedPoint p) = ((s.center - p) + (p - roundedPoint p)).len := by
        rw [dist_eq_len]
        congr 1
        ext <;> simp
    _ ≤ (s.center - p).len + (p - roundedPoint p).len := V3.len_add_le _ _
    _ ≤ s.radius + 32 / 2 ^ 53 * s.radius := by
        rw [← dist_eq_len, hp]
        linarith
    _ = _ := by ring

/-- A sphere around the origin: the point (0.6, 0.8, 0) of its surface, rounded, is contained. -/
example : Fp.sphereContainsDefault ⟨0, 1⟩ (roundedPoint ⟨6 / 10, 8 / 10, 0⟩) := by
  apply C115_surface_partial _ _ (by norm_num) (by norm_num) (by norm_num) (by norm_num)
  unfold Spec.dist
  rw [Real.sqrt_eq_iff_mul_self_eq_of_pos (by norm_num)]
  norm_num

/-- The point (2, 0, 0) is not contained in the sphere of radius one around the origin. -/
example : ¬ Fp.sphereContainsDefault ⟨0, 1⟩ ⟨2, 0, 0⟩ := by
  intro h
  have h1 := C115_outside _ _ (by norm_num) h
  have h2 : Spec.dist 0 ⟨2, 0, 0⟩ = 2 := by
    unfold Spec.dist
    rw [Real.sqrt_eq_iff_mul_self_eq_of_pos (by norm_num)]
    norm_num
  rw [h2] at h1
  norm_num at h1

/-! ## C116 Distances of points -/

/-- **Distance.**  The distance of two points is computed up to a relative error of 2⁻⁵⁰, is zero only for equal points
and does not depend on the order of the points. -/
theorem C116_distance (p q : V3) :
    |Fp.distPointPoint p q - Spec.dist p q| ≤ 1 / 2 ^ 50 * Spec.dist p q ∧ (Fp.distPointPoint p q = 0 ↔ p = q) ∧
    Fp.distPointPoint p q = Fp.distPointPoint q p := by
  have hd0 : 0 ≤ Spec.dist p q := Real.sqrt_nonneg _
  have h := close_distPointPoint p q
  refine ⟨h.abs_sub_le.trans (mul_le_mul_of_nonneg_right ?_ hd0), ?_, ?_⟩
  · exact (rho_pow_sub_one_le (by norm_num)).trans (by norm_num)
  · constructor
    · intro h0
      have h1 := h.2.2.1
      rw [h0, mul_zero, dist_eq_len] at h1
      have h2 := V3.len_eq_zero.1 (le_antisymm h1 (V3.len_nonneg _))
      have hx := congrArg V3.x h2
      have hy := congrArg V3.y h2
      have hz := congrArg V3.z h2
      simp only [V3.sub_x, V3.sub_y, V3.sub_z, V3.zero_x, V3.zero_y, V3.zero_z] at hx hy hz
      ext <;> linarith
    · rintro rfl
      have h1 := h.2.2.2
      have h2 : Spec.dist p p = 0 := by unfold Spec.dist; simp
      rw [h2, mul_zero] at h1
      exact le_antisymm h1 h.1
  · unfold Fp.distPointPoint
    rw [between_neg, length_neg]

/-- **Equality of points.**  For every positive tolerance the comparison of two points is right except for points whose
distance agrees with the tolerance up to a relative error of 2⁻⁵⁰, and does not depend on the order of the points. -/
theorem C116_equal (p q : V3) (eps : ℝ) (he : 0 < eps) :
    (Spec.dist p q ≤ (1 - 1 / 2 ^ 50) * eps → Fp.pointIsEqual p q eps) ∧
    (Fp.pointIsEqual p q eps → Spec.dist p q < (1 + 1 / 2 ^ 50) * eps) ∧
    (Fp.pointIsEqual p q eps ↔ Fp.pointIsEqual q p eps) := by
  have hd0 : 0 ≤ Spec.dist p q := Real.sqrt_nonneg _
  have hS := close_squaredBetween p q
  have hE : Close 1 (Fp.mul eps eps) (eps * eps) := close_rnd (by positivity)
  have h5 := rho_pow_le (show 5 ≤ 15 by norm_num)
  have h6 := rho_pow_le (show 6 ≤ 15 by norm_num)
  have ee : 0 < eps ^ 2 := by positivity
  have h6' : 0 < rho ^ 1 := pow_pos rho_pos 1
  refine ⟨fun h => ?_, fun h => ?_, ?_⟩
  · unfold Fp.pointIsEqual
    have h2 : Spec.dist p q ^ 2 ≤ ((1 - 1 / 2 ^ 50) * eps) ^ 2 := pow_le_pow_left₀ hd0 h 2
    have h3 : rho ^ 1 * Fp.squaredLength (Fp.vectorBetween p q) < rho ^ 1 * Fp.mul eps eps := by
      calc rho ^ 1 * Fp.squaredLength (Fp.vectorBetween p q) ≤ rho ^ 1 * (rho ^ 5 * Spec.dist p q ^ 2) :=
            mul_le_mul_of_nonneg_left hS.2.2.2 h6'.le
        _ = rho ^ 6 * Spec.dist p q ^ 2 := by ring
        _ ≤ (1 + (6 : ℕ) * (1 / 2 ^ 53) * (1 + 1 / 2 ^ 47)) * ((1 - 1 / 2 ^ 50) * eps) ^ 2 :=
            mul_le_mul h6 h2 (by positivity) (by positivity)
        _ = ((1 + (6 : ℕ) * (1 / 2 ^ 53) * (1 + 1 / 2 ^ 47)) * (1 - 1 / 2 ^ 50) ^ 2) * eps ^ 2 := by ring
        _ < 1 * eps ^ 2 := mul_lt_mul_of_pos_right (by norm_num) ee
        _ = eps * eps := by ring
        _ ≤ _ := hE.2.2.1
    exact lt_of_mul_lt_mul_left h3 h6'.le
  · unfold Fp.pointIsEqual at h
    have h3 : Spec.dist p q ^ 2 < ((1 + 1 / 2 ^ 50) * eps) ^ 2 := by
      calc Spec.dist p q ^ 2 ≤ rho ^ 5 * Fp.squaredLength (Fp.vectorBetween p q) := hS.2.2.1
        _ ≤ rho ^ 5 * Fp.mul eps eps := mul_le_mul_of_nonneg_left h.le (by positivity [rho_pos])
        _ ≤ rho ^ 5 * (rho ^ 1 * (eps * eps)) := mul_le_mul_of_nonneg_left hE.2.2.2 (by positivity [rho_pos])
        _ = rho ^ 6 * eps ^ 2 := by ring
        _ ≤ (1 + (6 : ℕ) * (1 / 2 ^ 53) * (1 + 1 / 2 ^ 47)) * eps ^ 2 := mul_le_mul_of_nonneg_right h6 ee.le
        _ < (1 + 1 / 2 ^ 50) ^ 2 * eps ^ 2 := mul_lt_mul_of_pos_right (by norm_num) ee
        _ = _ := by ring
    exact lt_of_pow_lt_pow_left₀ 2 (by positivity) h3
  · unfold Fp.pointIsEqual
    rw [between_neg, squaredLength_neg]

/-- Equality without tolerance: points closer than 0.99e-7 are equal, points farther apart than 1.01e-7 are not. -/
theorem C116_equal_default (p q : V3) :
    (Spec.dist p q ≤ 0.99 / 10 ^ 7 → Fp.pointIsEqualDefault p q) ∧ (Fp.pointIsEqualDefault p q → Spec.dist p q < 1.01 / 10 ^ 7) := by
  have hc := close_confusion.abs_sub_le
  have hc1 := rho_pow_sub_one_le (show 1 ≤ 15 by norm_num)
  have hc2 : (rho ^ 1 - 1) * (1 / 10 ^ 7) ≤ 1 / 1000 * (1 / 10 ^ 7) :=
    mul_le_mul_of_nonneg_right (hc1.trans (by norm_num)) (by positivity)
  obtain ⟨c1, c2⟩ := abs_le.1 (hc.trans hc2)
  have cpos : 0 < Fp.confusion := by
    norm_num at c1 ⊢
    linarith
  obtain ⟨h1, h2, -⟩ := C116_equal p q Fp.confusion cpos
  refine ⟨fun h => h1 (h.trans ?_), fun h => (h2 h).trans_le ?_⟩
  · norm_num at c1 ⊢
    linarith
  · norm_num at c2 ⊢
    linarith

/-- Two points of distance five. -/
example : |Fp.distPointPoint ⟨1, 2, 3⟩ ⟨4, 6, 3⟩ - 5| ≤ 5 / 2 ^ 50 ∧ ¬ Fp.pointIsEqualDefault ⟨1, 2, 3⟩ ⟨4, 6, 3⟩ := by
  have e : Spec.dist ⟨1, 2, 3⟩ ⟨4, 6, 3⟩ = 5 := by
    unfold Spec.dist
    rw [Real.sqrt_eq_iff_mul_self_eq_of_pos (by norm_num)]
    norm_num
  have h := (C116_distance ⟨1, 2, 3⟩ ⟨4, 6, 3⟩).1
  rw [e] at h
  refine ⟨by linarith, fun h2 => ?_⟩
  have := (C116_equal_default _ _).2 h2
  rw [e] at this
  norm_num at this

/-! ## Distances of points and lines -/

/-- **Distance to a line.**  For a line whose direction has length one up to 2⁻⁵⁰, as computed directions have
(`C87_direction`), the distance of a point is computed up to an error of 2⁻⁴⁸ times the sum of the length of the
supporting point and the distance of the point from it. -/
theorem C116_line (l : Line) (p : V3) (hn : |norm l.dir - 1| ≤ 1 / 2 ^ 50) :
    ∃ D : ℝ, (∀ q, OnLine l.supp l.dir q → D ≤ Spec.dist p q) ∧ (∃ q, OnLine l.supp l.dir q ∧ Spec.dist p q = D) ∧
      |Fp.distPointLine p l - D| ≤ 1 / 2 ^ 48 * (norm l.supp + Spec.dist l.supp p) := by
  rw [norm_eq_len] at hn
  set n := l.dir
  set v := p - l.supp with hv
  set e := n.dot v
  set N := n.len with hN
  obtain ⟨n1, n2⟩ := abs_le.1 hn
  have Npos : 0 < N := by norm_num at n1; linarith
  have N2 : |N * N - 1| ≤ 17 / 2 ^ 53 := by
    rw [abs_le]
    norm_num at n1 n2 ⊢
    constructor <;> nlinarith
  have nn : n.sqLen = N * N := (V3.len_mul_self n).symm
  have nnpos : 0 < N * N := by positivity
  -- the foot
  let q0 : V3 := l.supp + (e / (N * N)) • n
  have hq0 : OnLine l.supp n q0 := (onLine_iff _ _ _).2 ⟨_, rfl⟩
  refine ⟨Spec.dist p q0, ?_, ⟨q0, hq0, rfl⟩, ?_⟩
  · intro q hq
    obtain ⟨t, rfl⟩ := (onLine_iff _ _ _).1 hq
    rw [dist_eq_len, dist_eq_len]
    unfold V3.len
    apply Real.sqrt_le_sqrt
    have e1 : p - q0 = v - (e / (N * N)) • n := by ext <;> simp [hv, q0] <;> ring
    have e2 : p - (l.supp + t • n) = v - t • n := by ext <;> simp [hv] <;> ring
    rw [e1, e2, V3.sqLen_sub v, V3.sqLen_sub v, V3.sqLen_smul, V3.sqLen_smul, V3.dot_smul, V3.dot_smul, nn,
      V3.dot_comm v n]
    have e3 : (e / (N * N)) ^ 2 * (N * N) = e * (e / (N * N)) := by field_simp
    rw [e3]
    have e4 : e = (e / (N * N)) * (N * N) := by field_simp
    change v.sqLen - 2 * (e / (N * N) * e) + e * (e / (N * N)) ≤ v.sqLen - 2 * (t * e) + t ^ 2 * (N * N)
    have e5 : 0 ≤ (t - e / (N * N)) ^ 2 * (N * N) := by positivity
    have e6 : (t - e / (N * N)) ^ 2 * (N * N) = t ^ 2 * (N * N) - 2 * t * (e / (N * N) * (N * N)) +
        (e / (N * N)) ^ 2 * (N * N) := by ring
    rw [← e4, e3] at e6
    linarith
  · have v0 := V3.len_nonneg v
    have s0 := V3.len_nonneg l.supp
    have hP := lineProjection_error l p
    set P := Fp.lineProjection l p
    have hd := (close_distPointPoint p P).abs_sub_le
    change |Fp.distPointLine p l - Spec.dist p P| ≤ _ at hd
    have r4 : rho ^ 4 - 1 ≤ 4.01 / 2 ^ 53 := (rho_pow_sub_one_le (by norm_num)).trans (by norm_num)
    have r6 : rho ^ 6 - 1 ≤ 6.01 / 2 ^ 53 := (rho_pow_sub_one_le (by norm_num)).trans (by norm_num)
    have Nle : N * N ≤ 1.001 := by
      have := (abs_le.1 N2).2
      norm_num at this ⊢
      linarith
    -- projection computed and foot
    have a1 : (P - (l.supp + e • n)).len ≤ 6.01 / 2 ^ 53 * (l.supp.len + 1.001 * v.len) := by
      refine hP.trans (mul_le_mul r6 ?_ (by positivity) (by positivity))
      have : N * N * v.len ≤ 1.001 * v.len := mul_le_mul_of_nonneg_right Nle v0
      linarith
    have a2 : ((l.supp + e • n) - q0).len ≤ 17 / 2 ^ 53 * v.len := by
      have e1 : (l.supp + e • n) - q0 = (e * ((N * N - 1) / (N * N))) • n := by
        ext <;> simp [q0] <;> field_simp <;> ring
      rw [e1, V3.len_smul, abs_mul, abs_div, abs_of_pos nnpos]
      have he : |e| ≤ N * v.len := V3.abs_dot_le n v
      calc |e| * (|N * N - 1| / (N * N)) * n.len ≤ (N * v.len) * (17 / 2 ^ 53 / (N * N)) * n.len := by
            refine mul_le_mul_of_nonneg_right (mul_le_mul he (div_le_div_of_nonneg_right N2 nnpos.le) (by positivity)
              (by positivity)) (V3.len_nonneg _)
        _ = 17 / 2 ^ 53 * v.len := by
            rw [← hN]
            field_simp
    have a3 : |Spec.dist p P - Spec.dist p q0| ≤ 6.01 / 2 ^ 53 * (l.supp.len + 1.001 * v.len) + 17 / 2 ^ 53 * v.len := by
      rw [dist_eq_len, dist_eq_len]
      refine (abs_len_sub_le _ _).trans ?_
      have e1 : p - P - (p - q0) = -((P - (l.supp + e • n)) + ((l.supp + e • n) - q0)) := by ext <;> simp
      rw [e1, V3.len_neg]
      exact (V3.len_add_le _ _).trans (add_le_add a1 a2)
    have a4 : Spec.dist p q0 ≤ v.len := by
      rw [dist_eq_len]
      unfold V3.len
      apply Real.sqrt_le_sqrt
      have e1 : p - q0 = v - (e / (N * N)) • n := by ext <;> simp [hv, q0] <;> ring
      rw [e1, V3.sqLen_sub v, V3.sqLen_smul, V3.dot_smul, nn, V3.dot_comm v n]
      have e3 : (e / (N * N)) ^ 2 * (N * N) = e * (e / (N * N)) := by field_simp
      rw [e3]
      change v.sqLen - 2 * (e / (N * N) * e) + e * (e / (N * N)) ≤ v.sqLen
      have : 0 ≤ e * (e / (N * N)) := by rw [← mul_div_assoc]; exact div_nonneg (mul_self_nonneg _) nnpos.le
      linarith
    have a5 : (rho ^ 4 - 1) * Spec.dist p P ≤ 4.01 / 2 ^ 53 * Spec.dist p P :=
      mul_le_mul_of_nonneg_right r4 (Real.sqrt_nonneg _)
    have a6 := (abs_le.1 a3).2
    rw [norm_eq_len, dist_eq_len l.supp, V3.len_sub_comm l.supp]
    change _ ≤ 1 / 2 ^ 48 * (l.supp.len + v.len)
    have a7 : |Fp.distPointLine p l - Spec.dist p q0| ≤
        |Fp.distPointLine p l - Spec.dist p P| + |Spec.dist p P - Spec.dist p q0| := abs_sub_le _ _ _
    norm_num at a1 a2 a3 a5 a6 hd ⊢
    linarith

/-- The distance of the point (0, 0, 3) from the x-axis. -/
example : |Fp.distPointLine ⟨0, 0, 3⟩ ⟨0, ⟨1, 0, 0⟩⟩ - 3| ≤ 3 / 2 ^ 48 := by
  obtain ⟨D, h1, ⟨q, hq, h2⟩, h3⟩ := C116_line ⟨0, ⟨1, 0, 0⟩⟩ ⟨0, 0, 3⟩ (by unfold Spec.norm; norm_num)
  have e1 : Spec.dist (0 : V3) ⟨0, 0, 3⟩ = 3 := by
    unfold Spec.dist
    rw [Real.sqrt_eq_iff_mul_self_eq_of_pos (by norm_num)]
    norm_num
  have e0 : Spec.norm (0 : V3) = 0 := by unfold Spec.norm; simp
  have hD : D = 3 := by
    apply le_antisymm
    · have := h1 0 ⟨0, by simp, by simp, by simp⟩
      rw [Spec.dist_comm, e1] at this
      exact this
    · obtain ⟨t, hx, hy, hz⟩ := hq
      simp only [V3.zero_x, V3.zero_y, V3.zero_z] at hx hy hz
      rw [← h2]
      unfold Spec.dist
      apply Real.le_sqrt_of_sq_le
      rw [hx, hy, hz]
      nlinarith [sq_nonneg t]
  rw [hD] at h3
  simp only [e1, e0] at h3
  linarith

end Props
