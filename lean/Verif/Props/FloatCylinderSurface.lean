import Verif.Model.Float.CylinderSurface
import Verif.Props.FloatCylinder
import Verif.Props.FloatDisk

/-!
# C159 Cylinder surfaces in double precision
-/

namespace Props
open Verif Frackit Spec

/-- The computed distance from a point minus a length. -/
theorem distance_sub_error (P p : V3) (r : ℝ) (hr : 0 ≤ r) :
    |Fp.sub (Fp.length (Fp.vectorBetween P p)) r - (Spec.dist P p - r)| ≤ 1 / 2 ^ 49 * (Spec.dist P p + r) := by
  have h1 := abs_le.1 (C116_distance P p).1
  change _ ≤ Fp.length (Fp.vectorBetween P p) - _ ∧ Fp.length (Fp.vectorBetween P p) - _ ≤ _ at h1
  have d0 : 0 ≤ Spec.dist P p := Real.sqrt_nonneg _
  set l := Fp.length (Fp.vectorBetween P p)
  have h2 := rnd_error_num (l - r)
  have h3 : |l - r| ≤ 1.1 * (Spec.dist P p + r) := by
    rw [abs_le]
    norm_num at h1 ⊢
    constructor <;> linarith
  have h4 : 1 / 2 ^ 53 * |l - r| ≤ 1 / 2 ^ 53 * (1.1 * (Spec.dist P p + r)) := by gcongr
  have h5 := abs_le.1 (h2.trans h4)
  unfold Fp.sub
  generalize Fp.rnd (l - r) = A at *
  rw [abs_le]
  norm_num at h1 h5 ⊢
  constructor <;> linarith

/-- The computed foot of a point that is not too far away. -/
theorem foot_near (b : Elliptical) (h : ℝ) (hp : Proportioned b h) (a : V3) (L : ℝ) (ha : Spec.IsUnit a) (hL0 : 0 ≤ L)
    (hT : Fp.topCenter b h = b.center + L • a) (p : V3) (hv : (p - b.center).len ≤ 1.1 * (L + b.majLen)) :
    ∃ line, Fp.segmentLine (Fp.centerSegment b h) = .val line ∧
      (Fp.lineProjection line p - (b.center + a.dot (p - b.center) • a)).len ≤ 1 / 10 ^ 9 * L ∧
      (Fp.lineProjection line p - (b.center + a.dot (p - b.center) • a)).len ≤ 1 / 10 ^ 9 * b.majLen := by
  have ha' : a.len = 1 := unit_len ha
  have hLd : Spec.dist b.center (Fp.topCenter b h) = L := by
    rw [dist_eq_len, V3.len_sub_comm, hT, add_sub_cancel_left, V3.len_smul, ha', mul_one, abs_of_nonneg hL0]
  have hLh := abs_le.1 (axis_height b h hp)
  rw [hLd] at hLh
  obtain ⟨hLh1, hLh2⟩ := hLh
  obtain ⟨line, hl, hP⟩ := foot_error b h hp a L ha hL0 hT p
  have R0 := hp.radius_pos
  have H0 := hp.height_pos
  have cR := hp.center_radius
  have cH := hp.center_height
  have wide := hp.wide
  have high := hp.high
  rw [norm_eq_len] at cR cH
  set r := b.majLen
  refine ⟨line, hl, hP.trans ?_, hP.trans ?_⟩ <;>
  · generalize (p - b.center).len = A at *
    generalize b.center.len = B at *
    norm_num at *
    linarith

/-- The distance of a point from the reference point of an axis. -/
theorem len_le_axial_radial (c a p : V3) (ha : a.len = 1) : (p - c).len ≤ |axial c a p| + radial c a p := by
  rw [axial_eq, radial_eq]
  set x := a.dot (p - c)
  have e : p - c = (p - (c + x • a)) + x • a := by module
  have d := V3.len_add_le (p - (c + x • a)) (x • a)
  rw [← e, V3.len_smul, ha, mul_one] at d
  linarith

/-- **Points near the surface are contained.**  Points whose distance from the axis differs from the radius by at most
3e-8 times radius plus height, and that are at most 8e-9 of the height above the top or below the bottom. -/
theorem C159_near (b : Elliptical) (h : ℝ) (hp : Proportioned b h) (a : V3) (L : ℝ) (ha : Spec.IsUnit a)
    (hL0 : 0 ≤ L) (hT : Fp.topCenter b h = b.center + L • a) (p : V3) (h0 : -(8 / 10 ^ 9) * L ≤ axial b.center a p)
    (h1 : axial b.center a p ≤ L + 8 / 10 ^ 9 * L)
    (hr : |radial b.center a p - b.majLen| ≤ 3 / 10 ^ 8 * (b.majLen + L)) :
    Fp.surfaceContainsDefault b h p := by
  have ha' : a.len = 1 := unit_len ha
  have hLd : Spec.dist b.center (Fp.topCenter b h) = L := by
    rw [dist_eq_len, V3.len_sub_comm, hT, add_sub_cancel_left, V3.len_smul, ha', mul_one, abs_of_nonneg hL0]
  have hLh := abs_le.1 (axis_height b h hp)
  rw [hLd] at hLh
  obtain ⟨hLh1, hLh2⟩ := hLh
  obtain ⟨he1, he2⟩ := cylinderEps_bounds b h hp
  have R0 := hp.radius_pos
  have H0 := hp.height_pos
  have cH := hp.center_height
  rw [norm_eq_len] at cH
  have L0 : 0 < L := by norm_num at hLh1; linarith
  obtain ⟨hr1, hr2⟩ := abs_le.1 hr
  have hv : (p - b.center).len ≤ 1.1 * (L + b.majLen) := by
    refine (len_le_axial_radial b.center a p ha').trans ?_
    have : |axial b.center a p| ≤ 1.01 * L := by
      rw [abs_le]
      norm_num at h0 h1 ⊢
      constructor <;> linarith
    norm_num at *
    linarith
  obtain ⟨line, hl, err1, err2⟩ := foot_near b h hp a L ha hL0 hT p hv
  rw [axial_eq] at h0 h1
  rw [radial_eq] at hr1 hr2
  set x := a.dot (p - b.center)
  set r := b.majLen
  set P := Fp.lineProjection line p
  unfold Fp.surfaceContainsDefault Fp.surfaceContains
  rw [hl]
  simp only
  constructor
  · obtain ⟨t, t0, t1, ht⟩ : ∃ t : ℝ, 0 ≤ t ∧ t ≤ 1 ∧ |x - t * L| ≤ 8 / 10 ^ 9 * L := by
      rcases le_total x 0 with hx0 | hx0
      · exact ⟨0, le_rfl, zero_le_one, by rw [zero_mul, sub_zero, abs_of_nonpos hx0]; linarith⟩
      · rcases le_total x L with hx1 | hx1
        · refine ⟨x / L, div_nonneg hx0 L0.le, (div_le_one L0).2 hx1, ?_⟩
          rw [div_mul_cancel₀ _ L0.ne', sub_self, abs_zero]
          positivity
        · exact ⟨1, zero_le_one, le_rfl, by rw [one_mul, abs_of_nonneg (by linarith)]; linarith⟩
    refine segment_contains_near_eps (Fp.centerSegment b h) P t _ ?_ ?_ t0 t1 ?_ ?_ <;>
      simp only [Fp.centerSegment, hLd]
    · exact L0
    · rw [norm_eq_len]
      norm_num at *
      linarith
    · have e : P - (b.center + t • (Fp.topCenter b h - b.center)) = (P - (b.center + x • a)) + (x - t * L) • a := by
        rw [hT]
        module
      rw [e]
      have d := V3.len_add_le (P - (b.center + x • a)) ((x - t * L) • a)
      rw [V3.len_smul, ha', mul_one] at d
      refine d.trans ((add_le_add err1 ht).trans ?_)
      norm_num
      linarith
    · norm_num at *
      linarith
  · have k1 := abs_le.1 (distance_sub_error P p r R0.le)
    have k2 : |Spec.dist P p - (p - (b.center + x • a)).len| ≤ 1 / 10 ^ 9 * r := by
      rw [dist_eq_len, V3.len_sub_comm P p]
      refine (abs_len_sub_le _ _).trans ?_
      rwa [show p - P - (p - (b.center + x • a)) = -(P - (b.center + x • a)) by module, V3.len_neg]
    obtain ⟨k3, k4⟩ := abs_le.1 k2
    generalize (p - (b.center + x • a)).len = A at *
    generalize Spec.dist P p = D at *
    generalize Fp.sub (Fp.length (Fp.vectorBetween P p)) r = E at *
    rw [abs_lt]
    norm_num at *
    constructor <;> linarith

/-- **Contained points are near the surface.**  Their distance from the axis differs from the radius by at most 6e-8
times radius plus height, and they are above the top and below the bottom by at most 1e-7 times radius plus height. -/
theorem C159_outside (b : Elliptical) (h : ℝ) (hp : Proportioned b h) (a : V3) (L : ℝ) (ha : Spec.IsUnit a)
    (hL0 : 0 ≤ L) (hT : Fp.topCenter b h = b.center + L • a) (p : V3) (hin : Fp.surfaceContainsDefault b h p) :
    -(1 / 10 ^ 7) * (b.majLen + L) ≤ axial b.center a p ∧ axial b.center a p ≤ L + 1 / 10 ^ 7 * (b.majLen + L) ∧
      |radial b.center a p - b.majLen| ≤ 6 / 10 ^ 8 * (b.majLen + L) := by
  have ha' : a.len = 1 := unit_len ha
  have hLd : Spec.dist b.center (Fp.topCenter b h) = L := by
    rw [dist_eq_len, V3.len_sub_comm, hT, add_sub_cancel_left, V3.len_smul, ha', mul_one, abs_of_nonneg hL0]
  have hLh := abs_le.1 (axis_height b h hp)
  rw [hLd] at hLh
  obtain ⟨hLh1, hLh2⟩ := hLh
  obtain ⟨he1, he2⟩ := cylinderEps_bounds b h hp
  obtain ⟨line, hl, -⟩ := foot_error b h hp a L ha hL0 hT p
  have R0 := hp.radius_pos
  have H0 := hp.height_pos
  have cH := hp.center_height
  have wide := hp.wide
  have high := hp.high
  rw [norm_eq_len] at cH
  have L0 : 0 < L := by norm_num at hLh1; linarith
  rw [axial_eq, radial_eq]
  unfold Fp.surfaceContainsDefault Fp.surfaceContains at hin
  rw [hl] at hin
  simp only at hin
  obtain ⟨hseg, hrad⟩ := hin
  set r := b.majLen with hrd
  set P := Fp.lineProjection line p with hPd
  set eps := Fp.cylinderEps b h
  have epos : 0 < eps := lt_of_lt_of_le (by positivity) he1
  obtain ⟨q, hq, hPq⟩ := segment_outside_eps (Fp.centerSegment b h) P eps (by simp only [Fp.centerSegment, hLd]; exact L0)
    (by simp only [Fp.centerSegment, hLd]; rw [norm_eq_len]; norm_num at *; linarith) epos
    (by simp only [Fp.centerSegment, hLd]; norm_num at *; linarith) hseg
  simp only [Fp.centerSegment, hLd] at hq hPq
  obtain ⟨t, t0, t1, rfl⟩ := (onSegment_iff _ _ _).1 hq
  have hq' : b.center + t • (Fp.topCenter b h - b.center) = b.center + (t * L) • a := by rw [hT]; module
  rw [hq', dist_eq_len] at hPq
  have tL0 : 0 ≤ t * L := mul_nonneg t0 L0.le
  have tL1 : t * L ≤ L := by nlinarith
  -- distance from the projection
  have hd : |(p - P).len - r| ≤ 5.05 / 10 ^ 8 * (r + L) := by
    have k1 := abs_le.1 (distance_sub_error P p r R0.le)
    obtain ⟨k2, k3⟩ := abs_lt.1 hrad
    have d0 : 0 ≤ Spec.dist P p := Real.sqrt_nonneg _
    rw [V3.len_sub_comm, ← dist_eq_len, abs_le]
    generalize Spec.dist P p = D at *
    generalize Fp.sub (Fp.length (Fp.vectorBetween P p)) r = E at *
    clear hPq hseg
    norm_num at *
    constructor <;> linarith
  obtain ⟨hd1, hd2⟩ := abs_le.1 hd
  have hv : (p - b.center).len ≤ 1.1 * (L + r) := by
    have e : p - b.center = (p - P) + ((P - (b.center + (t * L) • a)) + (t * L) • a) := by module
    have d1 := V3.len_add_le (p - P) ((P - (b.center + (t * L) • a)) + (t * L) • a)
    have d2 := V3.len_add_le (P - (b.center + (t * L) • a)) ((t * L) • a)
    rw [← e] at d1
    rw [V3.len_smul, ha', mul_one, abs_of_nonneg tL0] at d2
    clear hseg hrad hd
    norm_num at *
    linarith
  obtain ⟨line', hl', err1, err2⟩ := foot_near b h hp a L ha hL0 hT p hv
  obtain rfl : line = line' := by
    rw [hl] at hl'
    exact Outcome.val.inj hl'
  rw [← hPd] at err1 err2
  set x := a.dot (p - b.center)
  have hx : |x - t * L| ≤ 1.01 * eps + 1 / 10 ^ 8 * L + 1 / 10 ^ 9 * L := by
    have e : (x - t * L) • a = (P - (b.center + (t * L) • a)) + (-(P - (b.center + x • a))) := by module
    have d := V3.len_add_le (P - (b.center + (t * L) • a)) (-(P - (b.center + x • a)))
    rw [← e, V3.len_neg, V3.len_smul, ha', mul_one] at d
    linarith
  obtain ⟨hx1, hx2⟩ := abs_le.1 hx
  have k2 : |(p - P).len - (p - (b.center + x • a)).len| ≤ 1 / 10 ^ 9 * r := by
    refine (abs_len_sub_le _ _).trans ?_
    rwa [show p - P - (p - (b.center + x • a)) = -(P - (b.center + x • a)) by module, V3.len_neg]
  obtain ⟨k3, k4⟩ := abs_le.1 k2
  clear hseg hrad hd k2 hx
  refine ⟨?_, ?_, ?_⟩
  · norm_num at *
    linarith
  · norm_num at *
    linarith
  · generalize (p - (b.center + x • a)).len = A at *
    generalize (p - P).len = B at *
    rw [abs_le]
    norm_num at *
    constructor <;> linarith

/-- **The points of the surface are contained**, also after the rounding of their coordinates. -/
theorem C159_points (b : Elliptical) (h : ℝ) (hp : Proportioned b h) (a : V3) (L : ℝ) (ha : Spec.IsUnit a)
    (hL0 : 0 ≤ L) (hT : Fp.topCenter b h = b.center + L • a) (p : V3) (hon : OnLateral b.center a b.majLen L p) :
    Fp.surfaceContainsDefault b h p ∧ Fp.surfaceContainsDefault b h (roundedPoint p) := by
  obtain ⟨o1, o2, o3⟩ := hon
  have ha' : a.len = 1 := unit_len ha
  have R0 := hp.radius_pos
  have H0 := hp.height_pos
  have cR := hp.center_radius
  have cH := hp.center_height
  have wide := hp.wide
  have high := hp.high
  rw [norm_eq_len] at cR cH
  have hLd : Spec.dist b.center (Fp.topCenter b h) = L := by
    rw [dist_eq_len, V3.len_sub_comm, hT, add_sub_cancel_left, V3.len_smul, ha', mul_one, abs_of_nonneg hL0]
  have hLh := abs_le.1 (axis_height b h hp)
  rw [hLd] at hLh
  obtain ⟨hLh1, hLh2⟩ := hLh
  have s0 : 0 ≤ 3 / 10 ^ 8 * (b.majLen + L) := by positivity
  refine ⟨C159_near b h hp a L ha hL0 hT p (le_trans ?_ o1) (o2.trans ?_) ?_, ?_⟩
  · norm_num
    positivity
  · have : 0 ≤ 8 / 10 ^ 9 * L := by positivity
    linarith
  · rwa [o3, sub_self, abs_zero]
  · have hv : (p - b.center).len ≤ L + b.majLen := by
      refine (len_le_axial_radial b.center a p ha').trans ?_
      rw [o3, abs_of_nonneg o1]
      linarith
    have hp1 : p.len ≤ b.center.len + (L + b.majLen) := by
      have := V3.len_add_le b.center (p - b.center)
      rw [add_sub_cancel] at this
      linarith
    have hrd : Spec.dist (roundedPoint p) p ≤ 1 / 2 ^ 53 * p.len := by
      rw [dist_eq_len]
      have := len_sub_le_of (a := roundedPoint p) (b := p) (m := absV p) (c := 1 / 2 ^ 53) (by positivity)
        (rnd_error_num _) (rnd_error_num _) (rnd_error_num _)
      rwa [absV_len] at this
    have a1 := abs_le.1 ((axial_lipschitz ha b.center (roundedPoint p) p).trans hrd)
    have a2 := abs_le.1 ((radial_lipschitz ha b.center (roundedPoint p) p).trans hrd)
    rw [o3] at a2
    generalize p.len = A at *
    generalize b.center.len = B at *
    refine C159_near b h hp a L ha hL0 hT _ ?_ ?_ (abs_le.2 ?_)
    · clear s0
      norm_num at *
      linarith
    · clear s0
      norm_num at *
      linarith
    · clear s0
      norm_num at *
      constructor <;> linarith

/-- **Area.** -/
theorem C159_area (b : Elliptical) (h : ℝ) (hr : 0 ≤ b.majLen) (hh : 0 ≤ h) :
    |Fp.surfaceArea b h - 2 * Real.pi * b.majLen * h| ≤ 1 / 2 ^ 50 * (2 * Real.pi * b.majLen * h) := by
  have h1 : Close 1 Fp.pi Real.pi := close_rnd Real.pi_pos.le
  have h2 := ((((Close.refl (by norm_num : (0 : ℝ) ≤ 2)).mul h1).rnd.mul (Close.refl hr)).rnd.mul (Close.refl hh)).rnd.abs_sub_le
  refine h2.trans (mul_le_mul_of_nonneg_right ?_ (by have := Real.pi_pos; positivity))
  exact (rho_pow_sub_one_le (by norm_num)).trans (by norm_num)

/-- **Normals.**  At the points near the surface, the normal of the tangent plane differs from the exact unit vector
away from the axis by at most 1e-8. -/
theorem C159_normal (b : Elliptical) (h : ℝ) (hp : Proportioned b h) (a : V3) (L : ℝ) (ha : Spec.IsUnit a)
    (hL0 : 0 ≤ L) (hT : Fp.topCenter b h = b.center + L • a) (p : V3) (h0 : -(1 / 10 ^ 3) * L ≤ axial b.center a p)
    (h1 : axial b.center a p ≤ L + 1 / 10 ^ 3 * L)
    (hr : |radial b.center a p - b.majLen| ≤ 1 / 10 ^ 3 * b.majLen) :
    ∃ n, Fp.surfaceNormal b h p = .val n ∧
      ∀ u, Spec.IsUnit u → p = b.center + axial b.center a p • a + radial b.center a p • u →
        Spec.dist n u ≤ 1 / 10 ^ 8 := by
  have ha' : a.len = 1 := unit_len ha
  have R0 := hp.radius_pos
  obtain ⟨hr1, hr2⟩ := abs_le.1 hr
  have hv : (p - b.center).len ≤ 1.1 * (L + b.majLen) := by
    refine (len_le_axial_radial b.center a p ha').trans ?_
    have : |axial b.center a p| ≤ 1.01 * L := by
      rw [abs_le]
      norm_num at h0 h1 ⊢
      constructor <;> linarith
    norm_num at *
    linarith
  obtain ⟨line, hl, err1, err2⟩ := foot_near b h hp a L ha hL0 hT p hv
  have k0 := radial_eq b.center a p
  rw [axial_eq] at h0 h1 ⊢
  set x := a.dot (p - b.center)
  set r := b.majLen
  set P := Fp.lineProjection line p
  set ρ := radial b.center a p
  have k2 : |Spec.dist P p - ρ| ≤ 1 / 10 ^ 9 * r := by
    rw [dist_eq_len, V3.len_sub_comm P p, k0]
    refine (abs_len_sub_le _ _).trans ?_
    rwa [show p - P - (p - (b.center + x • a)) = -(P - (b.center + x • a)) by module, V3.len_neg]
  obtain ⟨k3, k4⟩ := abs_le.1 k2
  have D0 : 0.99 * r ≤ Spec.dist P p := by norm_num at *; linarith
  have Dp : 0 < Spec.dist P p := lt_of_lt_of_le (by positivity) D0
  obtain ⟨n, hn, hnn⟩ := segment_direction ⟨P, p⟩ Dp
  have hn' : Fp.mkDirection (Fp.vectorBetween P p) = .val n := by
    unfold Fp.segmentLine at hn
    cases hm : Fp.mkDirection (Fp.vectorBetween P p) with
    | val d =>
      rw [hm] at hn
      have := Outcome.val.inj hn
      rw [Line.mk.injEq] at this
      rw [this.2]
    | thrown s => rw [hm] at hn; cases hn
    | nan => rw [hm] at hn; cases hn
    | ub => rw [hm] at hn; cases hn
  refine ⟨n, ?_, fun u hu hpu => ?_⟩
  · unfold Fp.surfaceNormal
    rw [hl]
    exact hn'
  · have hu' : u.len = 1 := unit_len hu
    simp only at hnn
    set D := Spec.dist P p
    have e : n - u = (n - D⁻¹ • (p - P)) + D⁻¹ • (-(P - (b.center + x • a)) + (ρ - D) • u) := by
      have : p - P = -(P - (b.center + x • a)) + ρ • u := by
        nth_rewrite 1 [hpu]
        module
      rw [this]
      have hD : u = D⁻¹ • (D • u) := by rw [smul_smul, inv_mul_cancel₀ Dp.ne', one_smul]
      nth_rewrite 1 [hD]
      module
    rw [dist_eq_len, e]
    have d1 := V3.len_add_le (n - D⁻¹ • (p - P)) (D⁻¹ • (-(P - (b.center + x • a)) + (ρ - D) • u))
    have d2 := V3.len_add_le (-(P - (b.center + x • a))) ((ρ - D) • u)
    rw [V3.len_neg, V3.len_smul, hu', mul_one] at d2
    have d3 : |ρ - D| ≤ 1 / 10 ^ 9 * r := by rwa [abs_sub_comm]
    rw [V3.len_smul D⁻¹, abs_of_pos (inv_pos.2 Dp)] at d1
    have d4 : D⁻¹ * (-(P - (b.center + x • a)) + (ρ - D) • u).len ≤ 2.1 / 10 ^ 9 := by
      rw [inv_mul_le_iff₀ Dp]
      refine (d2.trans (add_le_add err2 d3)).trans ?_
      norm_num at D0 ⊢
      linarith
    refine d1.trans ((add_le_add hnn d4).trans ?_)
    norm_num

/-- A point of a surface is contained, one beside it and one above it are not. -/
example : Fp.surfaceContainsDefault nearCylinder 20 ⟨103, 204, 69.5⟩ ∧
    ¬ Fp.surfaceContainsDefault nearCylinder 20 ⟨105.00001, 200, 60⟩ ∧
    ¬ Fp.surfaceContainsDefault nearCylinder 20 ⟨104.99999, 200, 60⟩ ∧
    ¬ Fp.surfaceContainsDefault nearCylinder 20 ⟨105, 200, 70.00001⟩ := by
  have hu : Spec.IsUnit ⟨0, 0, 1⟩ := by norm_num [Spec.IsUnit]
  have out := fun p => C159_outside _ _ nearCylinder_proportioned ⟨0, 0, 1⟩ 20 hu (by norm_num) nearCylinder_top p
  have rad : ∀ x z : ℝ, radial nearCylinder.center ⟨0, 0, 1⟩ ⟨x, 200, z⟩ = |x - 100| := by
    intro x z
    unfold radial Spec.dist
    rw [← Real.sqrt_sq_eq_abs]
    congr 1
    norm_num [axial, nearCylinder]
  refine ⟨(C159_points _ _ nearCylinder_proportioned ⟨0, 0, 1⟩ 20 hu (by norm_num) nearCylinder_top _
    ⟨?_, ?_, ?_⟩).1, fun h => ?_, fun h => ?_, fun h => ?_⟩
  · norm_num [axial, nearCylinder]
  · norm_num [axial, nearCylinder]
  · unfold radial Spec.dist
    rw [Real.sqrt_eq_iff_mul_self_eq_of_pos (by norm_num [nearCylinder])]
    norm_num [axial, nearCylinder]
  · have := (out _ h).2.2
    rw [rad] at this
    norm_num [nearCylinder, abs_le] at this
  · have := (out _ h).2.2
    rw [rad] at this
    norm_num [nearCylinder, abs_le] at this
  · have := (out _ h).2.1
    norm_num [axial, nearCylinder] at this

/-- The normal at a point of a surface. -/
example : ∃ n, Fp.surfaceNormal nearCylinder 20 ⟨103, 204, 60⟩ = .val n ∧ Spec.dist n ⟨0.6, 0.8, 0⟩ ≤ 1 / 10 ^ 8 := by
  have hx : axial nearCylinder.center ⟨0, 0, 1⟩ ⟨103, 204, 60⟩ = 10 := by norm_num [axial, nearCylinder]
  have hr : radial nearCylinder.center ⟨0, 0, 1⟩ ⟨103, 204, 60⟩ = 5 := by
    unfold radial Spec.dist
    rw [Real.sqrt_eq_iff_mul_self_eq_of_pos (by norm_num)]
    norm_num [axial, nearCylinder]
  have hm : nearCylinder.majLen = 5 := rfl
  obtain ⟨n, hn, h⟩ := C159_normal nearCylinder 20 nearCylinder_proportioned ⟨0, 0, 1⟩ 20 (by norm_num [Spec.IsUnit])
    (by norm_num) nearCylinder_top ⟨103, 204, 60⟩ (by rw [hx]; norm_num) (by rw [hx]; norm_num)
    (by rw [hr, hm]; norm_num)
  refine ⟨n, hn, h _ (by norm_num [Spec.IsUnit]) ?_⟩
  rw [hx, hr]
  ext <;> norm_num [nearCylinder]

end Props
