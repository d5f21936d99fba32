import Verif.Model.Float.Cylinder
import Verif.Props.FloatSegment
import Verif.Props.FloatSampler
import Verif.Props.FloatPolygon
import Verif.Props.ToleranceDistance

/-!
# C157 Cylinders in double precision
-/

namespace Props
open Verif Frackit Spec

/-- The cylinders of the theorems below: their centre is at most 1e6 times as far from the origin as they are wide and
high, they are at most 1000 times as wide as high and vice versa, and the length of their axis is computed accurately. -/
structure Proportioned (b : Elliptical) (h : ℝ) : Prop where
  radius_pos : 0 < b.majLen
  height_pos : 0 < h
  center_radius : Spec.norm b.center ≤ 10 ^ 6 * b.majLen
  center_height : Spec.norm b.center ≤ 10 ^ 6 * h
  wide : b.majLen ≤ 10 ^ 3 * h
  high : h ≤ 10 ^ 3 * b.majLen
  normal : |Spec.norm b.normal - 1| ≤ 1 / 10 ^ 9

/-- The computed centre of the top face. -/
theorem topCenter_error (b : Elliptical) (h : ℝ) (hp : Proportioned b h) :
    (Fp.topCenter b h - (b.center + h • b.normal)).len ≤ 1.3 / 10 ^ 10 * h := by
  have hh := hp.height_pos
  have hc := hp.center_height
  have hn := (abs_le.1 hp.normal).2
  rw [norm_eq_len] at hc hn
  have e1 := move_error b.center (Fp.scale b.normal h)
  have e2 : (Fp.scale b.normal h - h • b.normal).len ≤ 1 / 2 ^ 53 * (h • b.normal).len := by
    have key : ∀ x : ℝ, |Fp.mul x h - h * x| ≤ 1 / 2 ^ 53 * |h * x| := by
      intro x
      have := rnd_error_num (x * h)
      unfold Fp.mul
      rwa [mul_comm h x]
    have := len_sub_le_of (a := Fp.scale b.normal h) (b := h • b.normal) (m := absV (h • b.normal))
      (c := 1 / 2 ^ 53) (by positivity) (key _) (key _) (key _)
    rwa [absV_len] at this
  have e3 : (h • b.normal).len ≤ 1.001 * h := by
    rw [V3.len_smul, abs_of_pos hh]
    have : b.normal.len ≤ 1.001 := by norm_num at hn ⊢; linarith
    nlinarith
  have e4 := V3.len_add_le b.center (Fp.scale b.normal h)
  have e5 := V3.len_add_le (Fp.scale b.normal h - h • b.normal) (h • b.normal)
  rw [sub_add_cancel] at e5
  have e6 := V3.len_add_le (Fp.move b.center (Fp.scale b.normal h) - (b.center + Fp.scale b.normal h))
    (Fp.scale b.normal h - h • b.normal)
  have e7 : Fp.topCenter b h - (b.center + h • b.normal) =
      (Fp.move b.center (Fp.scale b.normal h) - (b.center + Fp.scale b.normal h)) +
      (Fp.scale b.normal h - h • b.normal) := by
    unfold Fp.topCenter
    module
  rw [e7]
  generalize (Fp.move b.center (Fp.scale b.normal h) - (b.center + Fp.scale b.normal h)).len = A at *
  generalize (Fp.scale b.normal h - h • b.normal).len = B at *
  norm_num at *
  linarith

/-- The length of the axis. -/
theorem axis_height (b : Elliptical) (h : ℝ) (hp : Proportioned b h) :
    |Spec.dist b.center (Fp.topCenter b h) - h| ≤ 1 / 10 ^ 8 * h := by
  have hh := hp.height_pos
  have hn := abs_le.1 hp.normal
  rw [norm_eq_len] at hn
  have e1 := topCenter_error b h hp
  have e2 : Fp.topCenter b h - (b.center + h • b.normal) = (Fp.topCenter b h - b.center) - h • b.normal := by module
  have e3 := abs_le.1 (abs_len_sub_le (Fp.topCenter b h - b.center) (h • b.normal))
  rw [← e2, V3.len_smul, abs_of_pos hh] at e3
  rw [dist_eq_len, V3.len_sub_comm, abs_le]
  have e4 := mul_le_mul_of_nonneg_left hn.1 hh.le
  have e5 := mul_le_mul_of_nonneg_left hn.2 hh.le
  rw [mul_sub] at e4 e5
  generalize (Fp.topCenter b h - b.center).len = A at *
  generalize h * b.normal.len = B at *
  obtain ⟨e3a, e3b⟩ := e3
  norm_num at *
  constructor <;> linarith

/-- The default tolerance. -/
theorem cylinderEps_bounds (b : Elliptical) (h : ℝ) (hp : Proportioned b h) :
    4.99 / 10 ^ 8 * (b.majLen + h) ≤ Fp.cylinderEps b h ∧ Fp.cylinderEps b h ≤ 5.01 / 10 ^ 8 * (b.majLen + h) := by
  have h0 : 0 ≤ b.majLen + h := by linarith [hp.radius_pos, hp.height_pos]
  have h1 : Close 2 (Fp.mul Fp.confusion (1 / 2)) (1 / 10 ^ 7 * (1 / 2)) :=
    (close_confusion.mul (Close.refl (by norm_num : (0 : ℝ) ≤ 1 / 2))).rnd
  have h2 : Close 4 (Fp.cylinderEps b h) (1 / 10 ^ 7 * (1 / 2) * (b.majLen + h)) := (h1.mul (close_rnd h0)).rnd
  have h3 := h2.abs_sub_le
  have h4 : (rho ^ 4 - 1) * (1 / 10 ^ 7 * (1 / 2) * (b.majLen + h)) ≤
      1 / 10 ^ 4 * (1 / 10 ^ 7 * (1 / 2) * (b.majLen + h)) :=
    mul_le_mul_of_nonneg_right ((rho_pow_sub_one_le (by norm_num)).trans (by norm_num)) (by positivity)
  obtain ⟨h5, h6⟩ := abs_le.1 (h3.trans h4)
  norm_num at h5 h6 ⊢
  constructor <;> linarith

/-- The computed projection on a segment. -/
theorem projection_near (s : Segment) (n p : V3) (hL : 0 < Spec.dist s.source s.target)
    (hnn : (n - (Spec.dist s.source s.target)⁻¹ • (s.target - s.source)).len ≤ 6.01 / 2 ^ 53) (a : V3)
    (ha : a.len = 1) (hW : s.target - s.source = Spec.dist s.source s.target • a) :
    (Fp.lineProjection ⟨s.source, n⟩ p - (s.source + a.dot (p - s.source) • a)).len ≤
      6.1 / 2 ^ 53 * (s.source.len + 4 * (p - s.source).len) := by
  have hn0 : (Spec.dist s.source s.target)⁻¹ • (s.target - s.source) = a := by
    rw [hW, smul_smul, inv_mul_cancel₀ hL.ne', one_smul]
  rw [hn0] at hnn
  have hN : n.len ≤ 1.001 := by
    have := (abs_le.1 ((abs_len_sub_le n a).trans hnn)).2
    rw [ha] at this
    norm_num at this ⊢
    linarith
  have hN0 := V3.len_nonneg n
  have r6 : rho ^ 6 - 1 ≤ 6.01 / 2 ^ 53 := (rho_pow_sub_one_le (by norm_num)).trans (by norm_num)
  set v := p - s.source
  have v0 := V3.len_nonneg v
  have c0 := V3.len_nonneg s.source
  have c1 := lineProjection_error ⟨s.source, n⟩ p
  simp only at c1
  have c2 : (rho ^ 6 - 1) * (s.source.len + n.len * n.len * v.len) ≤
      6.01 / 2 ^ 53 * (s.source.len + 1.001 * 1.001 * v.len) :=
    mul_le_mul r6 (add_le_add le_rfl (mul_le_mul (mul_le_mul hN hN hN0 (by norm_num)) le_rfl v0
      (by norm_num))) (add_nonneg c0 (mul_nonneg (mul_nonneg hN0 hN0) v0)) (by norm_num)
  have c3 := c1.trans c2
  set P := Fp.lineProjection ⟨s.source, n⟩ p
  have e : P - (s.source + a.dot v • a) = (P - (s.source + n.dot v • n)) +
      (((n - a).dot v) • n + (a.dot v) • (n - a)) := by
    rw [V3.sub_dot]
    module
  rw [e]
  have d1 := V3.len_add_le (P - (s.source + n.dot v • n)) (((n - a).dot v) • n + (a.dot v) • (n - a))
  have d2 := V3.len_add_le (((n - a).dot v) • n) ((a.dot v) • (n - a))
  rw [V3.len_smul, V3.len_smul] at d2
  have d3 : |(n - a).dot v| * n.len ≤ 6.01 / 2 ^ 53 * v.len * 1.001 :=
    mul_le_mul ((V3.abs_dot_le _ _).trans (mul_le_mul_of_nonneg_right hnn v0)) hN hN0 (by positivity)
  have d4 : |a.dot v| * (n - a).len ≤ v.len * (6.01 / 2 ^ 53) := by
    refine mul_le_mul ?_ hnn (V3.len_nonneg _) v0
    have := V3.abs_dot_le a v
    rwa [ha, one_mul] at this
  change (P - (s.source + n.dot v • n)).len ≤ _ at c3
  generalize (P - (s.source + n.dot v • n)).len = A at *
  norm_num at *
  linarith

/-- The foot of a point on the axis, up to rounding. -/
theorem foot_error (b : Elliptical) (h : ℝ) (hp : Proportioned b h) (a : V3) (L : ℝ) (ha : Spec.IsUnit a) (hL0 : 0 ≤ L)
    (hT : Fp.topCenter b h = b.center + L • a) (p : V3) :
    ∃ line, Fp.segmentLine (Fp.centerSegment b h) = .val line ∧
      (Fp.lineProjection line p - (b.center + a.dot (p - b.center) • a)).len ≤
        6.1 / 2 ^ 53 * (b.center.len + 4 * (p - b.center).len) := by
  have ha' : a.len = 1 := unit_len ha
  have hLd : Spec.dist b.center (Fp.topCenter b h) = L := by
    rw [dist_eq_len, V3.len_sub_comm, hT, add_sub_cancel_left, V3.len_smul, ha', mul_one, abs_of_nonneg hL0]
  have h1 := (abs_le.1 (axis_height b h hp)).1
  have hh := hp.height_pos
  have hL : 0 < Spec.dist b.center (Fp.topCenter b h) := by norm_num at h1; linarith
  obtain ⟨n, hn, hnn⟩ := segment_direction (Fp.centerSegment b h) hL
  refine ⟨_, hn, ?_⟩
  refine projection_near (Fp.centerSegment b h) n p hL hnn a ha' ?_
  change Fp.topCenter b h - b.center = Spec.dist b.center (Fp.topCenter b h) • a
  rw [hLd, hT, add_sub_cancel_left]

/-- Points in the interior of a cylinder are contained. -/
theorem cylinder_contains_near (b : Elliptical) (h : ℝ) (hp : Proportioned b h) (a : V3) (L : ℝ) (ha : Spec.IsUnit a)
    (hL0 : 0 ≤ L) (hT : Fp.topCenter b h = b.center + L • a) (p : V3) (h0 : -(8 / 10 ^ 9) * L ≤ axial b.center a p)
    (h1 : axial b.center a p ≤ L + 8 / 10 ^ 9 * L) (hr : radial b.center a p ≤ (1 - 1 / 10 ^ 8) * b.majLen) :
    Fp.cylinderContainsDefault b h p := by
  have ha' : a.len = 1 := unit_len ha
  have hLd : Spec.dist b.center (Fp.topCenter b h) = L := by
    rw [dist_eq_len, V3.len_sub_comm, hT, add_sub_cancel_left, V3.len_smul, ha', mul_one, abs_of_nonneg hL0]
  have hLh := abs_le.1 (axis_height b h hp)
  rw [hLd] at hLh
  obtain ⟨hLh1, hLh2⟩ := hLh
  obtain ⟨he1, he2⟩ := cylinderEps_bounds b h hp
  obtain ⟨line, hl, hP⟩ := foot_error b h hp a L ha hL0 hT p
  have R0 := hp.radius_pos
  have H0 := hp.height_pos
  have cR := hp.center_radius
  have cH := hp.center_height
  have wide := hp.wide
  have high := hp.high
  rw [norm_eq_len] at cR cH
  have L0 : 0 < L := by norm_num at hLh1; linarith
  rw [axial_eq] at h0 h1
  rw [radial_eq] at hr
  set x := a.dot (p - b.center)
  set r := b.majLen
  set P := Fp.lineProjection line p
  have hv : (p - b.center).len ≤ 1.01 * L + r := by
    have e : p - b.center = (p - (b.center + x • a)) + x • a := by module
    have d := V3.len_add_le (p - (b.center + x • a)) (x • a)
    rw [← e, V3.len_smul, ha', mul_one] at d
    have : |x| ≤ 1.01 * L := by
      rw [abs_le]
      norm_num at h0 h1 ⊢
      constructor <;> linarith
    norm_num at *
    linarith
  have v0 := V3.len_nonneg (p - b.center)
  have c0 := V3.len_nonneg b.center
  have err1 : (P - (b.center + x • a)).len ≤ 1 / 10 ^ 9 * L := by
    refine hP.trans ?_
    generalize (p - b.center).len = A at *
    generalize b.center.len = B at *
    norm_num at *
    linarith
  have err2 : (P - (b.center + x • a)).len ≤ 1 / 10 ^ 9 * r := by
    refine hP.trans ?_
    generalize (p - b.center).len = A at *
    generalize b.center.len = B at *
    norm_num at *
    linarith
  unfold Fp.cylinderContainsDefault Fp.cylinderContains
  rw [hl]
  simp only
  constructor
  · obtain ⟨t, t0, t1, ht⟩ : ∃ t : ℝ, 0 ≤ t ∧ t ≤ 1 ∧ |x - t * L| ≤ 8 / 10 ^ 9 * L := by
      rcases le_total x 0 with hx0 | hx0
      · exact ⟨0, le_rfl, zero_le_one, by rw [zero_mul, sub_zero, abs_of_nonpos hx0]; linarith⟩
      · rcases le_total x L with hx1 | hx1
        · refine ⟨x / L, div_nonneg hx0 L0.le, (div_le_one L0).2 hx1, ?_⟩
          rw [div_mul_cancel₀ _ L0.ne', sub_self, abs_zero]
          positivity
        · exact ⟨1, zero_le_one, le_rfl, by rw [one_mul, abs_of_nonneg (by linarith)]; linarith⟩
    refine segment_contains_near_eps (Fp.centerSegment b h) P t _ ?_ ?_ t0 t1 ?_ ?_ <;>
      simp only [Fp.centerSegment, hLd]
    · exact L0
    · rw [norm_eq_len]
      norm_num at *
      linarith
    · have e : P - (b.center + t • (Fp.topCenter b h - b.center)) = (P - (b.center + x • a)) + (x - t * L) • a := by
        rw [hT]
        module
      rw [e]
      have d := V3.len_add_le (P - (b.center + x • a)) ((x - t * L) • a)
      rw [V3.len_smul, ha', mul_one] at d
      refine d.trans ((add_le_add err1 ht).trans ?_)
      norm_num
      linarith
    · norm_num at *
      linarith
  · have hd : Spec.dist P p ≤ (1 - 0.8 / 10 ^ 8) * r := by
      rw [dist_eq_len]
      have e : P - p = (P - (b.center + x • a)) + (-(p - (b.center + x • a))) := by module
      have d := V3.len_add_le (P - (b.center + x • a)) (-(p - (b.center + x • a)))
      rw [← e, V3.len_neg] at d
      refine d.trans ((add_le_add err2 hr).trans ?_)
      norm_num
      linarith
    have d0 : 0 ≤ Spec.dist P p := Real.sqrt_nonneg _
    have q1 := (close_squaredBetween P p).2.2.2
    have q2 : Spec.dist P p ^ 2 ≤ ((1 - 0.8 / 10 ^ 8) * r) ^ 2 := pow_le_pow_left₀ d0 hd 2
    have q3 := rho_pow_le (show 5 ≤ 15 by norm_num)
    have q4 : (0 : ℝ) ≤ rho ^ 5 := by linarith [one_le_rho_pow 5]
    have q5 : Close 2 (Fp.mul r r) (r * r) := (close_rnd (by positivity)).mono (by norm_num)
    have q6 : 0 ≤ Fp.mul (Fp.cylinderEps b h) (Fp.cylinderEps b h) := rnd_nonneg (mul_self_nonneg _)
    have q7 : Fp.rnd (Fp.mul r r) ≤ Fp.add (Fp.mul r r) (Fp.mul (Fp.cylinderEps b h) (Fp.cylinderEps b h)) :=
      rnd_mono (by linarith)
    have q8 : Fp.rnd (Fp.mul r r) = Fp.mul r r := rnd_rnd _
    rw [q8] at q7
    refine le_trans ?_ q7
    have q9 := q5.2.2.1
    have q10 := rho_pow_le (show 2 ≤ 15 by norm_num)
    have m0 := q5.1
    have q11 : Fp.squaredLength (Fp.vectorBetween P p) ≤
        (1 + 5 * (1 / 2 ^ 53) * (1 + 1 / 2 ^ 47)) * ((1 - 0.8 / 10 ^ 8) * r) ^ 2 := by
      refine q1.trans (mul_le_mul ?_ q2 (sq_nonneg _) (by norm_num))
      exact_mod_cast q3
    have q12 : r * r ≤ (1 + 2 * (1 / 2 ^ 53) * (1 + 1 / 2 ^ 47)) * Fp.mul r r := by
      refine q9.trans (mul_le_mul_of_nonneg_right ?_ m0)
      exact_mod_cast q10
    have q13 : 0 < r * r := by positivity
    rw [mul_pow] at q11
    have q14 : r ^ 2 = r * r := by ring
    rw [q14] at q11
    generalize r * r = R at *
    generalize Fp.mul r r = M at *
    norm_num at q11 q12 ⊢
    linarith

/-- **Points inside.**  Points in the exact cylinder around the axis from the centre of the bottom face to that of the top
face are contained with the default tolerance, unless they are closer to the lateral surface than 1e-8 of the radius. -/
theorem C157_inside_partial (b : Elliptical) (h : ℝ) (hp : Proportioned b h) (a : V3) (L : ℝ) (ha : Spec.IsUnit a)
    (hL0 : 0 ≤ L) (hT : Fp.topCenter b h = b.center + L • a) (p : V3)
    (hin : InCylinder b.center a ((1 - 1 / 10 ^ 8) * b.majLen) L p) : Fp.cylinderContainsDefault b h p := by
  refine cylinder_contains_near b h hp a L ha hL0 hT p (le_trans ?_ hin.1) (hin.2.1.trans ?_) hin.2.2
  · norm_num
    positivity
  · have : 0 ≤ 8 / 10 ^ 9 * L := by positivity
    linarith

/-- **Points outside.**  Points that are contained with the default tolerance are at most 1e-8 of the radius outside of
the lateral surface, and above the top and below the bottom by at most 1e-7 times radius plus height. -/
theorem C157_outside (b : Elliptical) (h : ℝ) (hp : Proportioned b h) (a : V3) (L : ℝ) (ha : Spec.IsUnit a)
    (hL0 : 0 ≤ L) (hT : Fp.topCenter b h = b.center + L • a) (p : V3) (hin : Fp.cylinderContainsDefault b h p) :
    -(1 / 10 ^ 7) * (b.majLen + L) ≤ axial b.center a p ∧ axial b.center a p ≤ L + 1 / 10 ^ 7 * (b.majLen + L) ∧
      radial b.center a p ≤ (1 + 1 / 10 ^ 8) * b.majLen := by
  have ha' : a.len = 1 := unit_len ha
  have hLd : Spec.dist b.center (Fp.topCenter b h) = L := by
    rw [dist_eq_len, V3.len_sub_comm, hT, add_sub_cancel_left, V3.len_smul, ha', mul_one, abs_of_nonneg hL0]
  have hLh := abs_le.1 (axis_height b h hp)
  rw [hLd] at hLh
  obtain ⟨hLh1, hLh2⟩ := hLh
  obtain ⟨he1, he2⟩ := cylinderEps_bounds b h hp
  obtain ⟨line, hl, hP⟩ := foot_error b h hp a L ha hL0 hT p
  have R0 := hp.radius_pos
  have H0 := hp.height_pos
  have cR := hp.center_radius
  have cH := hp.center_height
  have wide := hp.wide
  have high := hp.high
  rw [norm_eq_len] at cR cH
  have L0 : 0 < L := by norm_num at hLh1; linarith
  rw [axial_eq, radial_eq]
  unfold Fp.cylinderContainsDefault Fp.cylinderContains at hin
  rw [hl] at hin
  simp only at hin
  obtain ⟨hseg, hrad⟩ := hin
  set x := a.dot (p - b.center)
  set r := b.majLen
  set P := Fp.lineProjection line p
  set eps := Fp.cylinderEps b h
  have epos : 0 < eps := lt_of_lt_of_le (by positivity) he1
  obtain ⟨q, hq, hPq⟩ := segment_outside_eps (Fp.centerSegment b h) P eps (by simp only [Fp.centerSegment, hLd]; exact L0)
    (by simp only [Fp.centerSegment, hLd]; rw [norm_eq_len]; norm_num at *; linarith) epos
    (by simp only [Fp.centerSegment, hLd]; norm_num at *; linarith) hseg
  simp only [Fp.centerSegment, hLd] at hq hPq
  obtain ⟨t, t0, t1, rfl⟩ := (onSegment_iff _ _ _).1 hq
  have hq' : b.center + t • (Fp.topCenter b h - b.center) = b.center + (t * L) • a := by rw [hT]; module
  rw [hq', dist_eq_len] at hPq
  have tL0 : 0 ≤ t * L := mul_nonneg t0 L0.le
  have tL1 : t * L ≤ L := by nlinarith
  -- distance from the projection
  have hd : (p - P).len ≤ (1 + 0.3 / 10 ^ 8) * r := by
    have q1 := (close_squaredBetween P p).2.2.1
    have k1 : Close 1 (Fp.mul r r) (r * r) := close_rnd (by positivity)
    have k2 : Close 1 (Fp.mul eps eps) (eps * eps) := close_rnd (by positivity)
    have k3 : Close 2 (Fp.add (Fp.mul r r) (Fp.mul eps eps)) (r * r + eps * eps) := (k1.add k2).rnd
    have q2 := hrad.trans k3.2.2.2
    have q3 := rho_pow_le (show 5 ≤ 15 by norm_num)
    have q4 := rho_pow_le (show 2 ≤ 15 by norm_num)
    have hee : eps * eps ≤ 2.6 / 10 ^ 9 * (r * r) := by
      have : eps ≤ 5.05 / 10 ^ 5 * r := by norm_num at *; linarith
      have := mul_le_mul this this epos.le (by positivity)
      refine this.trans ?_
      have : 0 < r * r := by positivity
      norm_num
      linarith
    have s0 : 0 ≤ r * r + eps * eps := by positivity
    have q5 : Fp.squaredLength (Fp.vectorBetween P p) ≤ 1.0000000001 * (r * r + eps * eps) :=
      q2.trans (mul_le_mul_of_nonneg_right (q4.trans (by norm_num)) s0)
    have sq0 : 0 ≤ Fp.squaredLength (Fp.vectorBetween P p) := (close_squaredBetween P p).1
    have q6 : Spec.dist P p ^ 2 ≤ 1.0000000001 * (1.0000000001 * (r * r + eps * eps)) :=
      q1.trans (mul_le_mul (q3.trans (by norm_num)) q5 sq0 (by norm_num))
    rw [V3.len_sub_comm, ← dist_eq_len]
    refine abs_le_of_sq_le_sq' ?_ (by positivity) |>.2
    refine q6.trans ?_
    rw [mul_pow]
    have q7 : r ^ 2 = r * r := by ring
    have q8 : 0 < r * r := by positivity
    rw [q7]
    generalize r * r = R at *
    norm_num at hee ⊢
    linarith
  have hv : (p - b.center).len ≤ 1.1 * (L + r) := by
    have e : p - b.center = (p - P) + ((P - (b.center + (t * L) • a)) + (t * L) • a) := by module
    have d1 := V3.len_add_le (p - P) ((P - (b.center + (t * L) • a)) + (t * L) • a)
    have d2 := V3.len_add_le (P - (b.center + (t * L) • a)) ((t * L) • a)
    rw [← e] at d1
    rw [V3.len_smul, ha', mul_one, abs_of_nonneg tL0] at d2
    norm_num at *
    linarith
  have v0 := V3.len_nonneg (p - b.center)
  have c0 := V3.len_nonneg b.center
  have err1 : (P - (b.center + x • a)).len ≤ 1 / 10 ^ 9 * L := by
    refine hP.trans ?_
    generalize (p - b.center).len = A at *
    generalize b.center.len = B at *
    norm_num at *
    linarith
  have err2 : (P - (b.center + x • a)).len ≤ 1 / 10 ^ 9 * r := by
    refine hP.trans ?_
    generalize (p - b.center).len = A at *
    generalize b.center.len = B at *
    norm_num at *
    linarith
  have hx : |x - t * L| ≤ 1.01 * eps + 1 / 10 ^ 8 * L + 1 / 10 ^ 9 * L := by
    have e : (x - t * L) • a = (P - (b.center + (t * L) • a)) + (-(P - (b.center + x • a))) := by module
    have d := V3.len_add_le (P - (b.center + (t * L) • a)) (-(P - (b.center + x • a)))
    rw [← e, V3.len_neg, V3.len_smul, ha', mul_one] at d
    linarith
  obtain ⟨hx1, hx2⟩ := abs_le.1 hx
  refine ⟨?_, ?_, ?_⟩
  · norm_num at *
    linarith
  · norm_num at *
    linarith
  · have e : p - (b.center + x • a) = (p - P) + (P - (b.center + x • a)) := by module
    have d := V3.len_add_le (p - P) (P - (b.center + x • a))
    rw [← e] at d
    refine d.trans ((add_le_add hd err2).trans ?_)
    norm_num
    linarith

/-- Coordinates with respect to two axes that are nearly the same. -/
theorem tilt (c n a q : V3) (ha : a.len = 1) (hn : n.len = 1) (δ : ℝ) (h : (n - a).len ≤ δ) :
    |axial c a q - axial c n q| ≤ δ * (q - c).len ∧ radial c a q ≤ radial c n q + 2 * (δ * (q - c).len) := by
  rw [axial_eq, axial_eq, radial_eq, radial_eq]
  set v := q - c with hv
  have v0 := V3.len_nonneg v
  have h1 : |(n - a).dot v| ≤ δ * v.len := (V3.abs_dot_le _ _).trans (mul_le_mul_of_nonneg_right h v0)
  constructor
  · rw [abs_sub_comm, ← V3.sub_dot]
    exact h1
  · have e : q - (c + a.dot v • a) = (q - (c + n.dot v • n)) + ((n.dot v) • (n - a) + ((n - a).dot v) • a) := by
      rw [V3.sub_dot]
      module
    have d1 := V3.len_add_le (q - (c + n.dot v • n)) ((n.dot v) • (n - a) + ((n - a).dot v) • a)
    have d2 := V3.len_add_le ((n.dot v) • (n - a)) (((n - a).dot v) • a)
    rw [← e] at d1
    rw [V3.len_smul, V3.len_smul, ha, mul_one] at d2
    have d3 : |n.dot v| * (n - a).len ≤ v.len * δ := by
      refine mul_le_mul ?_ h (V3.len_nonneg _) v0
      have := V3.abs_dot_le n v
      rwa [hn, one_mul] at this
    linarith

/-- The square of the radius drawn by the sampler. -/
theorem drawn_close (r u : ℝ) (hr : 0 < r) (hu : 0 ≤ u) :
    Close 4 (Fp.sqrt (Fp.uniform u 0 (Fp.mul r r))) √(u * (r * r)) := by
  have k1 : Close 2 (Fp.mul r r) (r * r) := (close_rnd (by positivity)).mono (by norm_num)
  have k2 : Close 3 (Fp.sub (Fp.mul r r) 0) (r * r) := by
    unfold Fp.sub
    rw [sub_zero]
    exact k1.rnd
  have k3 : Close 4 (Fp.mul u (Fp.sub (Fp.mul r r) 0)) (u * (r * r)) := ((Close.refl hu).mul k2).rnd
  have k4 : Close 5 (Fp.uniform u 0 (Fp.mul r r)) (u * (r * r)) := by
    unfold Fp.uniform Fp.add
    rw [add_zero]
    exact k3.rnd
  have k5 : Close 3 √(Fp.uniform u 0 (Fp.mul r r)) √(u * (r * r)) := (k4.mono (by norm_num : 5 ≤ 2 * 3)).sqrt
  exact k5.rnd

/-- The radius drawn by the sampler. -/
theorem drawn_radius (r u : ℝ) (hr : 0 < r) (hu : 0 ≤ u) (hu1 : u ≤ 1 - 1 / 10 ^ 7) :
    Fp.sqrt (Fp.uniform u 0 (Fp.mul r r)) ≤ (1 - 4.9 / 10 ^ 8) * r := by
  have k6 := (drawn_close r u hr hu).2.2.2
  have k7 := rho_pow_le (show 4 ≤ 15 by norm_num)
  have k8 : √(u * (r * r)) ≤ (1 - 5 / 10 ^ 8) * r := by
    refine Real.sqrt_le_iff.2 ⟨by positivity, ?_⟩
    have : 0 < r * r := by positivity
    have := mul_le_mul_of_nonneg_right hu1 this.le
    refine this.trans ?_
    rw [mul_pow, sq r]
    refine mul_le_mul_of_nonneg_right (by norm_num) (by positivity)
  refine k6.trans ((mul_le_mul k7 k8 (Real.sqrt_nonneg _) (by positivity)).trans ?_)
  norm_num
  linarith

/-- **Sampled points.**  The points that are sampled in a cylinder, with the arithmetic of `double`, are contained in it,
unless the number from which the radius is computed is larger than 1 - 1e-7. -/
theorem C157_sampled_partial (b : Elliptical) (h ur uphi uh : ℝ) (hp : Proportioned b h) (hw : b.majLen ≤ 10 * h)
    (hh : h ≤ 10 * b.majLen) (hf : RightHandedOrthonormal b.major b.minor b.normal) (dh : IsDouble h)
    (hur : Canonical ur) (huh : Canonical uh) (hlim : ur ≤ 1 - 1 / 10 ^ 7) :
    Fp.cylinderContainsDefault b h (Fp.cylinderSample b b.majLen h ur uphi uh) := by
  have R0 := hp.radius_pos
  have H0 := hp.height_pos
  have cR := hp.center_radius
  have cH := hp.center_height
  rw [norm_eq_len] at cR cH
  have hn : b.normal.len = 1 := unit_len hf.2.2.1
  have hTe := topCenter_error b h hp
  have hLh := axis_height b h hp
  set L := Spec.dist b.center (Fp.topCenter b h) with hLd
  have L0 : 0 < L := by
    have := (abs_le.1 hLh).1
    norm_num at this
    linarith
  set W := Fp.topCenter b h - b.center with hW
  have hWL : W.len = L := by rw [hW, V3.len_sub_comm, ← dist_eq_len]
  set a := L⁻¹ • W with had
  have haW : L • a = W := by rw [had, smul_smul, mul_inv_cancel₀ L0.ne', one_smul]
  have ha : a.len = 1 := by rw [had, V3.len_smul, hWL, abs_of_pos (inv_pos.2 L0), inv_mul_cancel₀ L0.ne']
  have hau : Spec.IsUnit a := by
    rw [Spec.isUnit_iff, ← V3.len_sq, ha]
    norm_num
  have hT : Fp.topCenter b h = b.center + L • a := by rw [haW, hW]; module
  have e1 : Fp.topCenter b h - (b.center + h • b.normal) = L • a - h • b.normal := by rw [hT]; module
  rw [e1] at hTe
  have hLh' : |L - h| ≤ 1.3 / 10 ^ 10 * h := by
    have := (abs_len_sub_le (L • a) (h • b.normal)).trans hTe
    rwa [V3.len_smul L a, V3.len_smul h b.normal, ha, hn, mul_one, mul_one, abs_of_pos L0, abs_of_pos H0] at this
  have htilt : (b.normal - a).len ≤ 2.6 / 10 ^ 10 := by
    have e : h • (b.normal - a) = (L - h) • a + (-(L • a - h • b.normal)) := by module
    have d := V3.len_add_le ((L - h) • a) (-(L • a - h • b.normal))
    rw [← e, V3.len_smul h, V3.len_smul (L - h) a, V3.len_neg, ha, mul_one, abs_of_pos H0] at d
    have d' : h * (b.normal - a).len ≤ h * (2.6 / 10 ^ 10) := by norm_num at *; linarith
    exact le_of_mul_le_mul_left d' H0
  have hrad := drawn_radius b.majLen ur R0 hur.2.1 hlim
  obtain ⟨h0, h1, _⟩ := C108_interval uh 0 h huh double_zero dh H0.le
  obtain ⟨q, q1, q2, q3⟩ := cylinderPoint_close b (Fp.uniform uphi 0 (Fp.mul 2 Fp.pi)) (Fp.uniform uh 0 h)
    (Fp.uniform ur 0 (Fp.mul b.majLen b.majLen)) b.majLen h hf (hrad.trans (by norm_num; linarith)) h0 h1
  change CloseTo b.center (2 * b.majLen + h) (Fp.cylinderSample b b.majLen h ur uphi uh) q at q3
  set p := Fp.cylinderSample b b.majLen h ur uphi uh
  rw [← q2] at hrad
  rw [← q1] at h0 h1
  -- the rounded point
  have hpq : Spec.dist p q ≤ 3 / 2 ^ 50 * (b.center.len + (2 * b.majLen + h)) := by
    rw [dist_eq_len]
    refine (len_le_coords _).trans ?_
    obtain ⟨x1, x2, x3⟩ := q3
    obtain ⟨y1, y2, y3⟩ := abs_coord_le b.center
    simp only [V3.sub_x, V3.sub_y, V3.sub_z]
    norm_num at *
    linarith
  have c0 := V3.len_nonneg b.center
  have hpq1 : Spec.dist p q ≤ 2.8 / 10 ^ 9 * h := by
    refine hpq.trans ?_
    generalize b.center.len = B at *
    norm_num at *
    linarith
  have hpq2 : Spec.dist p q ≤ 2.8 / 10 ^ 9 * b.majLen := by
    refine hpq.trans ?_
    generalize b.center.len = B at *
    norm_num at *
    linarith
  have hv : (q - b.center).len ≤ h + b.majLen := by
    have e : q - b.center = (q - (b.center + b.normal.dot (q - b.center) • b.normal)) +
        b.normal.dot (q - b.center) • b.normal := by module
    have d := V3.len_add_le (q - (b.center + b.normal.dot (q - b.center) • b.normal))
      (b.normal.dot (q - b.center) • b.normal)
    rw [← e, ← radial_eq, V3.len_smul, hn, mul_one, ← axial_eq, abs_of_nonneg h0] at d
    norm_num at *
    linarith
  obtain ⟨t1, t2⟩ := tilt b.center b.normal a q ha hn _ htilt
  have t3 : 2.6 / 10 ^ 10 * (q - b.center).len ≤ 2.6 / 10 ^ 10 * (h + b.majLen) :=
    mul_le_mul_of_nonneg_left hv (by norm_num)
  have l1 := axial_lipschitz hau b.center p q
  have l2 := (abs_le.1 (radial_lipschitz hau b.center p q)).2
  obtain ⟨l1a, l1b⟩ := abs_le.1 l1
  obtain ⟨t1a, t1b⟩ := abs_le.1 t1
  obtain ⟨g1, g2⟩ := abs_le.1 hLh'
  refine cylinder_contains_near b h hp a L hau L0.le hT p ?_ ?_ ?_
  · generalize axial b.center a p = x1 at *
    norm_num at *
    linarith
  · generalize axial b.center a p = x1 at *
    norm_num at *
    linarith
  · generalize radial b.center a p = x1 at *
    norm_num at *
    linarith

/-- The full property: the points sampled in a cylinder are contained in it with the default tolerance. -/
def C157_full : Prop := ∀ (b : Elliptical) (h ur uphi uh : ℝ), RightHandedOrthonormal b.major b.minor b.normal →
  DoubleCoordinates b.center → DoubleCoordinates b.major → DoubleCoordinates b.minor → DoubleCoordinates b.normal →
  IsDouble b.majLen → IsDouble h → 0 < b.majLen → 0 < h → b.minLen = b.majLen → Canonical ur → Canonical uphi →
  Canonical uh → Fp.cylinderContainsDefault b h (Fp.cylinderSample b b.majLen h ur uphi uh)

/-- A cylinder in some distance from the origin, with a radius that is not a multiple of the spacing of the numbers
there. -/
noncomputable def farCylinder : Elliptical :=
  ⟨⟨2 ^ 20, 0, 0⟩, ⟨1, 0, 0⟩, ⟨0, 1, 0⟩, ⟨0, 0, 1⟩, 1 + 3 / 2 ^ 34, 1 + 3 / 2 ^ 34⟩

/-- The full property fails: the radial test has practically no tolerance, since the square of the tolerance is added to
the square of the radius, and rounding of coordinates moves points near the lateral surface out of the cylinder. -/
theorem C157_disproof : ¬ C157_full := by
  intro hfull
  have d0 : IsDouble 0 := ⟨0, 0, by norm_num, by norm_num⟩
  have d1 : IsDouble 1 := ⟨1, 0, by norm_num, by norm_num⟩
  have dr : IsDouble (1 + 3 / 2 ^ 34) := ⟨2 ^ 34 + 3, -34, by norm_num, by norm_num⟩
  have du : Canonical (1 - 1 / 2 ^ 53) := ⟨⟨2 ^ 53 - 1, -53, by norm_num, by norm_num⟩, by norm_num, by norm_num⟩
  have c0 : Canonical 0 := ⟨d0, le_rfl, by norm_num⟩
  have h20 : IsDouble (2 ^ 20) := ⟨2 ^ 20, 0, by norm_num, by norm_num⟩
  have h1 := hfull farCylinder 1 (1 - 1 / 2 ^ 53) 0 0
    (by norm_num [farCylinder, RightHandedOrthonormal, Spec.IsUnit, Orthogonal, Spec.inner, Spec.det]) ⟨h20, d0, d0⟩ ⟨d1, d0, d0⟩
    ⟨d0, d1, d0⟩ ⟨d0, d0, d1⟩ dr d1 (by norm_num [farCylinder]) (by norm_num) rfl du c0 c0
  have r1 : Fp.rnd 1 = 1 := rnd_of_isDouble d1
  have r20 : Fp.rnd (2 ^ 20) = 2 ^ 20 := rnd_of_isDouble h20
  -- the drawn radius
  set ρ := Fp.sqrt (Fp.uniform (1 - 1 / 2 ^ 53) 0 (Fp.mul (1 + 3 / 2 ^ 34) (1 + 3 / 2 ^ 34))) with hρ
  have hρ2 : ρ ≤ 1 + 3 / 2 ^ 34 := by
    have := (radius_bounds du d0 dr le_rfl (by norm_num)).2
    have z : Fp.mul 0 0 = 0 := by unfold Fp.mul; rw [mul_zero, rnd_zero]
    rwa [z] at this
  have hρ1 : 1 + 2.5 / 2 ^ 34 ≤ ρ := by
    set r : ℝ := 1 + 3 / 2 ^ 34 with hr
    have r0 : 0 < r := by norm_num [hr]
    have k5 := drawn_close r (1 - 1 / 2 ^ 53) r0 (by norm_num)
    have k6 : √((1 - 1 / 2 ^ 53) * (r * r)) ≤ rho ^ 4 * ρ := k5.2.2.1
    have k7 := rho_pow_le (show 4 ≤ 15 by norm_num)
    have k8 : 1 + 2.8 / 2 ^ 34 ≤ √((1 - 1 / 2 ^ 53) * (r * r)) := by
      apply Real.le_sqrt_of_sq_le
      norm_num [hr]
    have k9 : 0 ≤ ρ := k5.1
    have k10 := k8.trans (k6.trans (mul_le_mul_of_nonneg_right k7 k9))
    norm_num at k10 ⊢
    linarith
  have hx : Fp.rnd (2 ^ 20 + ρ) = 2 ^ 20 + 1 + 1 / 2 ^ 32 := by
    rw [rnd_near (m := 2 ^ 52 + 2 ^ 32 + 1) (e := -32) (by norm_num) (by norm_num at *; linarith)
      (by norm_num at *; linarith) (by norm_num at *; linarith)]
    norm_num
  have hρd : Fp.rnd ρ = ρ := rnd_rnd _
  have hxd : Fp.rnd (2 ^ 20 + 1 + 1 / 2 ^ 32) = 2 ^ 20 + 1 + 1 / 2 ^ 32 := by rw [← hx, rnd_rnd]
  have hu0 : ∀ x, Fp.uniform 0 0 x = 0 := by
    intro x
    unfold Fp.uniform Fp.add Fp.mul
    rw [zero_mul, rnd_zero, add_zero, rnd_zero]
  have hp : Fp.cylinderSample farCylinder farCylinder.majLen 1 (1 - 1 / 2 ^ 53) 0 0 =
      ⟨2 ^ 20 + 1 + 1 / 2 ^ 32, 0, 0⟩ := by
    unfold Fp.cylinderSample Fp.cylinderPoint
    simp only [hu0]
    change Fp.move (Fp.move (Fp.move farCylinder.center (Fp.scale farCylinder.major (Fp.mul ρ (Fp.cos 0))))
      (Fp.scale farCylinder.minor (Fp.mul ρ (Fp.sin 0)))) (Fp.scale farCylinder.normal 0) = _
    simp only [farCylinder, Fp.move, Fp.scale, Fp.mul, Fp.add, Fp.cos, Fp.sin, Real.cos_zero, Real.sin_zero, r1, rnd_zero,
      mul_one, one_mul, mul_zero, zero_mul, add_zero, hρd, hx, hxd]
  have hT : Fp.topCenter farCylinder 1 = ⟨2 ^ 20, 0, 1⟩ := by
    simp only [Fp.topCenter, farCylinder, Fp.move, Fp.scale, Fp.mul, Fp.add, r1, rnd_zero, mul_one, add_zero, zero_add, r20]
  have hw : Fp.vectorBetween farCylinder.center ⟨2 ^ 20, 0, 1⟩ = ⟨0, 0, 1⟩ := by
    simp only [Fp.vectorBetween, farCylinder, Fp.sub, sub_self, sub_zero, rnd_zero, r1]
  have hl : Fp.length ⟨0, 0, 1⟩ = 1 := by
    simp only [Fp.length, Fp.squaredLength, Fp.sqrt, Fp.mul, Fp.add, mul_zero, mul_one, rnd_zero, r1,
      zero_add, add_zero, Real.sqrt_one]
  have hline : Fp.segmentLine (Fp.centerSegment farCylinder 1) = .val ⟨⟨2 ^ 20, 0, 0⟩, ⟨0, 0, 1⟩⟩ := by
    unfold Fp.segmentLine Fp.centerSegment Fp.mkDirection
    simp only [hT, hw, hl, one_ne_zero, if_false, Fp.div, div_one, rnd_zero, r1]
    rfl
  rw [hp] at h1
  unfold Fp.cylinderContainsDefault Fp.cylinderContains at h1
  rw [hline] at h1
  have h2 := h1.2
  have rd : Fp.rnd (1 + 1 / 2 ^ 32) = 1 + 1 / 2 ^ 32 := rnd_of_isDouble ⟨2 ^ 32 + 1, -32, by norm_num, by norm_num⟩
  have e2 : (2 : ℝ) ^ 20 + 1 + 1 / 2 ^ 32 - 2 ^ 20 = 1 + 1 / 2 ^ 32 := by ring
  have hP : Fp.lineProjection ⟨⟨2 ^ 20, 0, 0⟩, ⟨0, 0, 1⟩⟩ ⟨2 ^ 20 + 1 + 1 / 2 ^ 32, 0, 0⟩ = ⟨2 ^ 20, 0, 0⟩ := by
    simp only [Fp.lineProjection, Fp.vectorBetween, Fp.sub, Fp.scalarProduct, Fp.move, Fp.scale, Fp.mul, Fp.add, e2, rd,
      sub_self, rnd_zero, zero_mul, mul_zero, add_zero, r20]
  simp only [hP] at h2
  have q1 := (close_squaredBetween ⟨2 ^ 20, 0, 0⟩ ⟨2 ^ 20 + 1 + 1 / 2 ^ 32, 0, 0⟩).2.2.1
  have e3 : Spec.dist ⟨2 ^ 20, 0, 0⟩ ⟨2 ^ 20 + 1 + 1 / 2 ^ 32, 0, 0⟩ ^ 2 = (1 + 1 / 2 ^ 32) ^ 2 := by
    unfold Spec.dist
    rw [Real.sq_sqrt (by positivity)]
    ring
  rw [e3] at q1
  have q3 := rho_pow_le (show 5 ≤ 15 by norm_num)
  have q4 := rho_pow_le (show 2 ≤ 15 by norm_num)
  set eps := Fp.cylinderEps farCylinder 1
  have heps : 0 ≤ eps ∧ eps ≤ 2 / 10 ^ 7 := by
    have k1 : Close 2 (Fp.mul Fp.confusion (1 / 2)) (1 / 10 ^ 7 * (1 / 2)) :=
      (close_confusion.mul (Close.refl (by norm_num : (0 : ℝ) ≤ 1 / 2))).rnd
    have k2 : Close 4 eps (1 / 10 ^ 7 * (1 / 2) * (farCylinder.majLen + 1)) :=
      (k1.mul (close_rnd (by norm_num [farCylinder]))).rnd
    refine ⟨k2.1, k2.2.2.2.trans ?_⟩
    have := rho_pow_le (show 4 ≤ 15 by norm_num)
    refine (mul_le_mul_of_nonneg_right this (by norm_num [farCylinder])).trans ?_
    norm_num [farCylinder]
  have k1 : Close 1 (Fp.mul farCylinder.majLen farCylinder.majLen) (farCylinder.majLen * farCylinder.majLen) :=
    close_rnd (mul_self_nonneg _)
  have k2 : Close 1 (Fp.mul eps eps) (eps * eps) := close_rnd (mul_self_nonneg _)
  have k3 := ((k1.add k2).rnd).2.2.2
  have hee : eps * eps ≤ 2 / 10 ^ 7 * (2 / 10 ^ 7) := mul_le_mul heps.2 heps.2 heps.1 (by norm_num)
  have k4 : Fp.rnd (Fp.mul farCylinder.majLen farCylinder.majLen + Fp.mul eps eps) ≤
      (1 + 2 * (1 / 2 ^ 53) * (1 + 1 / 2 ^ 47)) * ((1 + 3 / 2 ^ 34) * (1 + 3 / 2 ^ 34) + 2 / 10 ^ 7 * (2 / 10 ^ 7)) := by
    refine k3.trans (mul_le_mul ?_ ?_ (add_nonneg (mul_self_nonneg _) (mul_self_nonneg _)) (by norm_num))
    · exact_mod_cast q4
    · change (1 + 3 / 2 ^ 34) * (1 + 3 / 2 ^ 34) + eps * eps ≤ _
      linarith
  have k5 := h2.trans k4
  have s0 : 0 ≤ Fp.squaredLength (Fp.vectorBetween ⟨2 ^ 20, 0, 0⟩ ⟨2 ^ 20 + 1 + 1 / 2 ^ 32, 0, 0⟩) :=
    (close_squaredBetween _ _).1
  have k6 := q1.trans (mul_le_mul q3 k5 s0 (by norm_num))
  norm_num at k6

/-- A cylinder of radius 5 and height 20 with the bottom centre (100, 200, 50). -/
noncomputable def nearCylinder : Elliptical := ⟨⟨100, 200, 50⟩, ⟨1, 0, 0⟩, ⟨0, 1, 0⟩, ⟨0, 0, 1⟩, 5, 5⟩

theorem nearCylinder_proportioned : Proportioned nearCylinder 20 := by
  have hc : Spec.norm nearCylinder.center ≤ 300 := by
    unfold Spec.norm
    exact Real.sqrt_le_iff.2 ⟨by norm_num, by norm_num [nearCylinder]⟩
  have hn : Spec.norm nearCylinder.normal = 1 := by
    unfold Spec.norm
    norm_num [nearCylinder]
  refine ⟨by norm_num [nearCylinder], by norm_num, hc.trans (by norm_num [nearCylinder]), hc.trans (by norm_num),
    by norm_num [nearCylinder], by norm_num [nearCylinder], by rw [hn]; norm_num⟩

theorem nearCylinder_top : Fp.topCenter nearCylinder 20 = nearCylinder.center + (20 : ℝ) • ⟨0, 0, 1⟩ := by
  have r0 : Fp.rnd 20 = 20 := rnd_of_isDouble ⟨20, 0, by norm_num, by norm_num⟩
  have r1 : Fp.rnd 100 = 100 := rnd_of_isDouble ⟨100, 0, by norm_num, by norm_num⟩
  have r2 : Fp.rnd 200 = 200 := rnd_of_isDouble ⟨200, 0, by norm_num, by norm_num⟩
  have r3 : Fp.rnd 70 = 70 := rnd_of_isDouble ⟨70, 0, by norm_num, by norm_num⟩
  ext <;> norm_num [Fp.topCenter, nearCylinder, Fp.move, Fp.scale, Fp.mul, Fp.add, rnd_zero, r0, r1, r2, r3]

/-- A point near the lateral surface is contained, one outside of it and one above the top are not. -/
example : Fp.cylinderContainsDefault nearCylinder 20 ⟨104.9999, 200, 69.5⟩ ∧
    ¬ Fp.cylinderContainsDefault nearCylinder 20 ⟨105.0001, 200, 60⟩ ∧
    ¬ Fp.cylinderContainsDefault nearCylinder 20 ⟨101, 200, 70.0001⟩ := by
  have hu : Spec.IsUnit ⟨0, 0, 1⟩ := by norm_num [Spec.IsUnit]
  refine ⟨C157_inside_partial _ _ nearCylinder_proportioned ⟨0, 0, 1⟩ 20 hu (by norm_num) nearCylinder_top _
    ⟨?_, ?_, ?_⟩, fun h => ?_, fun h => ?_⟩
  · norm_num [axial, nearCylinder]
  · norm_num [axial, nearCylinder]
  · unfold radial Spec.dist
    exact Real.sqrt_le_iff.2 ⟨by norm_num [nearCylinder], by norm_num [axial, nearCylinder]⟩
  · have := (C157_outside _ _ nearCylinder_proportioned ⟨0, 0, 1⟩ 20 hu (by norm_num) nearCylinder_top _ h).2.2
    unfold radial Spec.dist at this
    have h2 := (Real.sqrt_le_iff.1 this).2
    norm_num [axial, nearCylinder] at h2
  · have := (C157_outside _ _ nearCylinder_proportioned ⟨0, 0, 1⟩ 20 hu (by norm_num) nearCylinder_top _ h).2.1
    norm_num [axial, nearCylinder] at this

/-- A sampled point. -/
example (uphi : ℝ) : Fp.cylinderContainsDefault nearCylinder 20 (Fp.cylinderSample nearCylinder 5 20 0.5 uphi 0.5) :=
  C157_sampled_partial nearCylinder 20 0.5 uphi 0.5 nearCylinder_proportioned (by norm_num [nearCylinder])
    (by norm_num [nearCylinder])
    (by norm_num [nearCylinder, RightHandedOrthonormal, Spec.IsUnit, Orthogonal, Spec.inner, Spec.det])
    ⟨20, 0, by norm_num, by norm_num⟩ canonical_half canonical_half (by norm_num)

end Props
