import Verif.Model.Float.HollowCylinder
import Verif.Props.FloatCylinderSurface

/-!
# C160 Hollow cylinders in double precision
-/

namespace Props
open Verif Frackit Spec

/-- The hollow cylinders of the theorems below: the full cylinder is as in `Proportioned`. -/
structure ProportionedShell (b : Elliptical) (R h : ℝ) : Prop where
  full : Proportioned ⟨b.center, b.major, b.minor, b.normal, R, R⟩ h
  inner_nonneg : 0 ≤ b.majLen
  inner_le : b.majLen ≤ R

/-- The distance to the computed foot of a point. -/
theorem foot_distance (b : Elliptical) (h : ℝ) (hp : Proportioned b h) (a : V3) (L : ℝ) (ha : Spec.IsUnit a) (hL0 : 0 ≤ L)
    (hT : Fp.topCenter b h = b.center + L • a) (p : V3) (h0 : -(1 / 10 ^ 4) * (b.majLen + L) ≤ axial b.center a p)
    (h1 : axial b.center a p ≤ L + 1 / 10 ^ 4 * (b.majLen + L)) (hr : radial b.center a p ≤ 1.01 * b.majLen) :
    ∃ line, Fp.segmentLine (Fp.centerSegment b h) = .val line ∧
      |Spec.dist (Fp.lineProjection line p) p - radial b.center a p| ≤ 1 / 10 ^ 9 * b.majLen := by
  have ha' : a.len = 1 := unit_len ha
  have R0 := hp.radius_pos
  have hv : (p - b.center).len ≤ 1.1 * (L + b.majLen) := by
    refine (len_le_axial_radial b.center a p ha').trans ?_
    have : |axial b.center a p| ≤ 1.01 * L + 0.01 * b.majLen := by
      rw [abs_le]
      norm_num at h0 h1 ⊢
      constructor <;> linarith
    norm_num at *
    linarith
  obtain ⟨line, hl, -, err2⟩ := foot_near b h hp a L ha hL0 hT p hv
  refine ⟨line, hl, ?_⟩
  rw [dist_eq_len, V3.len_sub_comm _ p, radial_eq]
  refine (abs_len_sub_le _ _).trans ?_
  set x := a.dot (p - b.center)
  set P := Fp.lineProjection line p
  rwa [show p - P - (p - (b.center + x • a)) = -(P - (b.center + x • a)) by module, V3.len_neg]

/-- The test of hollow cylinders is that of the full cylinder and the one of the inner radius. -/
theorem hollow_iff (b : Elliptical) (R h : ℝ) (p : V3) (line : Line)
    (hl : Fp.segmentLine (Fp.centerSegment b h) = .val line) :
    Fp.hollowContainsDefault b R h p ↔
      Fp.cylinderContainsDefault ⟨b.center, b.major, b.minor, b.normal, R, R⟩ h p ∧
      Fp.sub (Fp.mul b.majLen b.majLen) (Fp.mul (Fp.mul (Fp.mul Fp.confusion (1 / 2)) (Fp.add R h))
        (Fp.mul (Fp.mul Fp.confusion (1 / 2)) (Fp.add R h))) ≤
        Fp.squaredLength (Fp.vectorBetween (Fp.lineProjection line p) p) := by
  have hl' : Fp.segmentLine (Fp.centerSegment ⟨b.center, b.major, b.minor, b.normal, R, R⟩ h) = .val line := hl
  unfold Fp.hollowContainsDefault Fp.hollowContains Fp.cylinderContainsDefault Fp.cylinderContains
  rw [hl, hl']
  simp only
  constructor
  · rintro ⟨h1, h2, h3⟩
    exact ⟨⟨h1, h2⟩, h3⟩
  · rintro ⟨⟨h1, h2⟩, h3⟩
    exact ⟨h1, h2, h3⟩

/-- Points near the hollow cylinder that are not close to the lateral faces are contained. -/
theorem hollow_contains_near (b : Elliptical) (R h : ℝ) (hp : ProportionedShell b R h) (a : V3) (L : ℝ)
    (ha : Spec.IsUnit a) (hL0 : 0 ≤ L) (hT : Fp.topCenter b h = b.center + L • a) (p : V3)
    (h0 : -(8 / 10 ^ 9) * L ≤ axial b.center a p) (h1 : axial b.center a p ≤ L + 8 / 10 ^ 9 * L)
    (hr1 : b.majLen + 1 / 10 ^ 8 * R ≤ radial b.center a p) (hr2 : radial b.center a p ≤ (1 - 1 / 10 ^ 8) * R) :
    Fp.hollowContainsDefault b R h p := by
  have R0 : 0 < R := hp.full.radius_pos
  have r0 := hp.inner_nonneg
  have hrR := hp.inner_le
  obtain ⟨line, hl, hd⟩ := foot_distance ⟨b.center, b.major, b.minor, b.normal, R, R⟩ h hp.full a L ha hL0 hT p
    (by simp only; norm_num at *; linarith) (by simp only; norm_num at *; linarith)
    (by simp only; norm_num at *; linarith)
  rw [hollow_iff b R h p line hl]
  refine ⟨cylinder_contains_near ⟨b.center, b.major, b.minor, b.normal, R, R⟩ h hp.full a L ha hL0 hT p h0 h1 hr2, ?_⟩
  simp only at hd
  set P := Fp.lineProjection line p
  set eps := Fp.mul (Fp.mul Fp.confusion (1 / 2)) (Fp.add R h)
  set r := b.majLen
  have q6 : 0 ≤ Fp.mul eps eps := rnd_nonneg (mul_self_nonneg _)
  have q7 : Fp.sub (Fp.mul r r) (Fp.mul eps eps) ≤ Fp.rnd (Fp.mul r r) := rnd_mono (by linarith)
  have q8 : Fp.rnd (Fp.mul r r) = Fp.mul r r := rnd_rnd _
  rw [q8] at q7
  have q9 : Fp.mul r r ≤ (1 + 1 / 2 ^ 52) * (r * r) := by
    have := (abs_le.1 (rnd_error_num (r * r))).2
    rw [abs_of_nonneg (by positivity : 0 ≤ r * r)] at this
    have : 0 ≤ r * r := by positivity
    unfold Fp.mul
    norm_num at *
    linarith
  have d1 : r + 0.5 / 10 ^ 8 * R ≤ Spec.dist P p := by
    have := (abs_le.1 hd).1
    norm_num at *
    linarith
  have q10 := (close_squaredBetween P p).2.2.1
  have q11 := rho_pow_le (show 5 ≤ 15 by norm_num)
  have s0 := (close_squaredBetween P p).1
  have q12 : Spec.dist P p ^ 2 ≤ (1 + 5 * (1 / 2 ^ 53) * (1 + 1 / 2 ^ 47)) * Fp.squaredLength (Fp.vectorBetween P p) := by
    refine q10.trans (mul_le_mul_of_nonneg_right ?_ s0)
    exact_mod_cast q11
  have q13 : (r + 0.5 / 10 ^ 8 * R) ^ 2 ≤ Spec.dist P p ^ 2 := pow_le_pow_left₀ (by positivity) d1 2
  have q14 : (1 + 1 / 10 ^ 8) * (r * r) ≤ (r + 0.5 / 10 ^ 8 * R) ^ 2 := by nlinarith [mul_nonneg r0 (sub_nonneg.2 hrR)]
  have s1 : 0 ≤ r * r := by positivity
  refine q7.trans (q9.trans ?_)
  generalize r * r = A at *
  generalize Fp.squaredLength (Fp.vectorBetween P p) = B at *
  norm_num at *
  linarith

/-- **Points inside.**  Points in the exact hollow cylinder around the axis between the centres of bottom and top are
contained with the default tolerance, unless they are closer to a lateral face than 1e-8 of the outer radius. -/
theorem C160_inside (b : Elliptical) (R h : ℝ) (hp : ProportionedShell b R h) (a : V3) (L : ℝ) (ha : Spec.IsUnit a)
    (hL0 : 0 ≤ L) (hT : Fp.topCenter b h = b.center + L • a) (p : V3)
    (hin : InShell b.center a (b.majLen + 1 / 10 ^ 8 * R) ((1 - 1 / 10 ^ 8) * R) L p) :
    Fp.hollowContainsDefault b R h p := by
  refine hollow_contains_near b R h hp a L ha hL0 hT p (le_trans ?_ hin.1) (hin.2.1.trans ?_) hin.2.2.1 hin.2.2.2
  · norm_num
    positivity
  · have : 0 ≤ 8 / 10 ^ 9 * L := by positivity
    linarith

/-- **Points outside.**  Points that are contained with the default tolerance are at most 1e-8 of the outer radius
outside of the outer face, above the top and below the bottom by at most 1e-7 times outer radius plus height, and
inside of the inner face by at most 6e-5 of the outer radius.  The latter is improved to 1e-8 if the inner radius is at
least a tenth of the outer one, and the height at most ten times the outer radius. -/
theorem C160_outside (b : Elliptical) (R h : ℝ) (hp : ProportionedShell b R h) (a : V3) (L : ℝ) (ha : Spec.IsUnit a)
    (hL0 : 0 ≤ L) (hT : Fp.topCenter b h = b.center + L • a) (p : V3) (hin : Fp.hollowContainsDefault b R h p) :
    -(1 / 10 ^ 7) * (R + L) ≤ axial b.center a p ∧ axial b.center a p ≤ L + 1 / 10 ^ 7 * (R + L) ∧
      b.majLen - 6 / 10 ^ 5 * R ≤ radial b.center a p ∧ radial b.center a p ≤ (1 + 1 / 10 ^ 8) * R ∧
      (R ≤ 10 * b.majLen → h ≤ 10 * R → b.majLen - 1 / 10 ^ 8 * R ≤ radial b.center a p) := by
  have R0 : 0 < R := hp.full.radius_pos
  have H0 := hp.full.height_pos
  have high : h ≤ 10 ^ 3 * R := hp.full.high
  have r0 := hp.inner_nonneg
  have hrR := hp.inner_le
  obtain ⟨he1, he2⟩ := cylinderEps_bounds ⟨b.center, b.major, b.minor, b.normal, R, R⟩ h hp.full
  obtain ⟨line, hl, -⟩ := foot_error ⟨b.center, b.major, b.minor, b.normal, R, R⟩ h hp.full a L ha hL0 hT p
  rw [hollow_iff b R h p line hl] at hin
  obtain ⟨hin1, hin2⟩ := hin
  obtain ⟨o1, o2, o3⟩ := C157_outside ⟨b.center, b.major, b.minor, b.normal, R, R⟩ h hp.full a L ha hL0 hT p hin1
  simp only at o1 o2 o3
  obtain ⟨line', hl', hd⟩ := foot_distance ⟨b.center, b.major, b.minor, b.normal, R, R⟩ h hp.full a L ha hL0 hT p
    (by simp only; norm_num at *; linarith) (by simp only; norm_num at *; linarith)
    (by simp only; norm_num at *; linarith)
  obtain rfl : line = line' := by
    rw [hl] at hl'
    exact Outcome.val.inj hl'
  simp only at hd
  change 4.99 / 10 ^ 8 * (R + h) ≤ Fp.mul (Fp.mul Fp.confusion (1 / 2)) (Fp.add R h) at he1
  change Fp.mul (Fp.mul Fp.confusion (1 / 2)) (Fp.add R h) ≤ 5.01 / 10 ^ 8 * (R + h) at he2
  set P := Fp.lineProjection line p
  set eps := Fp.mul (Fp.mul Fp.confusion (1 / 2)) (Fp.add R h)
  set r := b.majLen
  have epos : 0 < eps := lt_of_lt_of_le (by positivity) he1
  have d0 : 0 ≤ Spec.dist P p := Real.sqrt_nonneg _
  -- the squares
  have key : r * r ≤ 1.000000001 * (Spec.dist P p ^ 2 + eps * eps) := by
    have k1 := abs_le.1 (rnd_error_num (r * r))
    have k2 := abs_le.1 (rnd_error_num (eps * eps))
    rw [abs_of_nonneg (by positivity : 0 ≤ r * r)] at k1
    rw [abs_of_nonneg (by positivity : 0 ≤ eps * eps)] at k2
    change _ ≤ Fp.mul r r - _ ∧ Fp.mul r r - _ ≤ _ at k1
    change _ ≤ Fp.mul eps eps - _ ∧ Fp.mul eps eps - _ ≤ _ at k2
    have k3 := abs_le.1 (rnd_error_num (Fp.mul r r - Fp.mul eps eps))
    change _ ≤ Fp.sub (Fp.mul r r) (Fp.mul eps eps) - _ ∧ Fp.sub (Fp.mul r r) (Fp.mul eps eps) - _ ≤ _ at k3
    have s1 : 0 ≤ r * r := by positivity
    have s2 : 0 ≤ eps * eps := by positivity
    have k4 : |Fp.mul r r - Fp.mul eps eps| ≤ 2 * (r * r + eps * eps) := by
      rw [abs_le]
      norm_num at k1 k2 ⊢
      constructor <;> linarith
    have q1 := (close_squaredBetween P p).2.2.2
    have q2 := rho_pow_le (show 5 ≤ 15 by norm_num)
    have q3 : Fp.squaredLength (Fp.vectorBetween P p) ≤
        (1 + 5 * (1 / 2 ^ 53) * (1 + 1 / 2 ^ 47)) * Spec.dist P p ^ 2 := by
      refine q1.trans (mul_le_mul_of_nonneg_right ?_ (by positivity))
      exact_mod_cast q2
    have s3 : 0 ≤ Spec.dist P p ^ 2 := by positivity
    generalize Spec.dist P p ^ 2 = D at *
    generalize Fp.squaredLength (Fp.vectorBetween P p) = B at *
    generalize Fp.sub (Fp.mul r r) (Fp.mul eps eps) = E at *
    generalize |Fp.mul r r - Fp.mul eps eps| = F at *
    generalize Fp.mul r r = G at *
    generalize Fp.mul eps eps = H at *
    generalize r * r = I at *
    generalize eps * eps = J at *
    clear he1 he2 hd o1 o2 o3 high
    norm_num at *
    linarith
  obtain ⟨hd1, hd2⟩ := abs_le.1 hd
  have D1 : Spec.dist P p ≤ 1.02 * R := by norm_num at *; linarith
  set D := Spec.dist P p
  have DR : 0 ≤ D * (1.02 * R - D) := mul_nonneg d0 (by linarith)
  refine ⟨o1, o2, ?_, o3, fun hR hh => ?_⟩
  · have e1 : eps ≤ 5.02 / 10 ^ 5 * R := by norm_num at *; linarith
    have e2 : eps * eps ≤ (5.02 / 10 ^ 5 * R) * (5.02 / 10 ^ 5 * R) := mul_le_mul e1 e1 epos.le (by positivity)
    have e3 : r ≤ D + 5.5 / 10 ^ 5 * R := by
      refine abs_le_of_sq_le_sq' ?_ (by positivity) |>.2
      have := mul_nonneg d0 R0.le
      have := mul_pos R0 R0
      nlinarith
    norm_num at *
    linarith
  · have e1 : eps ≤ 5.52 / 10 ^ 7 * R := by norm_num at *; linarith
    have e2 : eps * eps ≤ (5.52 / 10 ^ 7 * R) * (5.52 / 10 ^ 7 * R) := mul_le_mul e1 e1 epos.le (by positivity)
    have RR := mul_pos R0 R0
    have D2 : 0.09 * R ≤ D := by
      by_contra hc
      push Not at hc
      have c1 : D ^ 2 ≤ (0.09 * R) ^ 2 := pow_le_pow_left₀ d0 hc.le 2
      have c2 : R * R ≤ (10 * r) * (10 * r) := mul_le_mul hR hR R0.le (by positivity)
      nlinarith
    have e3 : r ≤ D + 8 / 10 ^ 9 * R := by
      refine abs_le_of_sq_le_sq' ?_ (by positivity) |>.2
      have := mul_le_mul_of_nonneg_right D2 R0.le
      nlinarith
    norm_num at *
    linarith

/-- **Volume.**  The error is at most 2⁻⁵⁰ of the volume of the full cylinder, and the volume is not negative. -/
theorem C160_volume (r R h : ℝ) (hr : 0 ≤ r) (hrR : r ≤ R) (hh : 0 ≤ h) :
    |Fp.hollowVolume r R h - Real.pi * h * (R * R - r * r)| ≤ 1 / 2 ^ 50 * (Real.pi * h * (R * R)) ∧
      0 ≤ Fp.hollowVolume r R h := by
  have pi0 := Real.pi_pos
  have R0 : 0 ≤ R := hr.trans hrR
  have s1 : 0 ≤ r * r := by positivity
  have s2 : r * r ≤ R * R := mul_self_le_mul_self hr hrR
  have k1 := abs_le.1 (rnd_error_num (r * r))
  have k2 := abs_le.1 (rnd_error_num (R * R))
  rw [abs_of_nonneg s1] at k1
  rw [abs_of_nonneg (s1.trans s2)] at k2
  have m := rnd_mono s2
  have k3 := abs_le.1 (rnd_error_num (Fp.rnd (R * R) - Fp.rnd (r * r)))
  rw [abs_of_nonneg (sub_nonneg.2 m)] at k3
  have c0 : 0 ≤ Fp.rnd (Fp.rnd (R * R) - Fp.rnd (r * r)) := rnd_nonneg (sub_nonneg.2 m)
  have b0 : 0 ≤ Fp.rnd (r * r) := rnd_nonneg s1
  have kp : Close 2 (Fp.mul Fp.pi h) (Real.pi * h) :=
    ((show Close 1 Fp.pi Real.pi from close_rnd Real.pi_pos.le).mul (Close.refl hh)).rnd
  have kp1 : |Fp.mul Fp.pi h - Real.pi * h| ≤ 2.01 / 2 ^ 53 * (Real.pi * h) := by
    refine kp.abs_sub_le.trans (mul_le_mul_of_nonneg_right ?_ (by positivity))
    exact (rho_pow_sub_one_le (by norm_num)).trans (by norm_num)
  have kp0 : 0 ≤ Fp.mul Fp.pi h := kp.1
  have ph : 0 ≤ Real.pi * h := by positivity
  have kf := rnd_error_num (Fp.mul Fp.pi h * Fp.rnd (Fp.rnd (R * R) - Fp.rnd (r * r)))
  rw [abs_of_nonneg (mul_nonneg kp0 c0)] at kf
  change |Fp.hollowVolume r R h - _| ≤ _ at kf
  refine ⟨?_, rnd_nonneg (mul_nonneg kp0 c0)⟩
  set C := Fp.rnd (Fp.rnd (R * R) - Fp.rnd (r * r))
  set K := Fp.mul Fp.pi h
  have S0 : 0 ≤ R * R := s1.trans s2
  have c1 : |C - (R * R - r * r)| ≤ 3.01 / 2 ^ 53 * (R * R) := by
    rw [abs_le]
    generalize Fp.rnd (R * R) = A at *
    generalize Fp.rnd (r * r) = B at *
    generalize r * r = X at *
    generalize R * R = Y at *
    norm_num at *
    constructor <;> linarith
  have c2 : C ≤ 1.01 * (R * R) := by
    have := (abs_le.1 c1).2
    generalize r * r = X at *
    generalize R * R = Y at *
    norm_num at *
    linarith
  have K1 : K ≤ 1.01 * (Real.pi * h) := by
    have := (abs_le.1 kp1).2
    generalize Real.pi * h = X at *
    norm_num at *
    linarith
  have e : Fp.hollowVolume r R h - Real.pi * h * (R * R - r * r) =
      (Fp.hollowVolume r R h - K * C) + ((K - Real.pi * h) * C + Real.pi * h * (C - (R * R - r * r))) := by ring
  have t1 : |(K - Real.pi * h) * C| ≤ 2.01 / 2 ^ 53 * (Real.pi * h) * (1.01 * (R * R)) := by
    rw [abs_mul, abs_of_nonneg c0]
    exact mul_le_mul kp1 c2 c0 (mul_nonneg (by norm_num) ph)
  have t2 : |Real.pi * h * (C - (R * R - r * r))| ≤ Real.pi * h * (3.01 / 2 ^ 53 * (R * R)) := by
    rw [abs_mul, abs_of_nonneg ph]
    exact mul_le_mul_of_nonneg_left c1 ph
  have t3 : K * C ≤ 1.01 * (Real.pi * h) * (1.01 * (R * R)) := mul_le_mul K1 c2 c0 (by positivity)
  have z : 0 ≤ Real.pi * h * (R * R) := by positivity
  rw [show 2.01 / 2 ^ 53 * (Real.pi * h) * (1.01 * (R * R)) = 2.0301 / 2 ^ 53 * (Real.pi * h * (R * R)) by ring] at t1
  rw [show Real.pi * h * (3.01 / 2 ^ 53 * (R * R)) = 3.01 / 2 ^ 53 * (Real.pi * h * (R * R)) by ring] at t2
  rw [show 1.01 * (Real.pi * h) * (1.01 * (R * R)) = 1.0201 * (Real.pi * h * (R * R)) by ring] at t3
  rw [e]
  generalize Fp.hollowVolume r R h - K * C = X1 at *
  generalize (K - Real.pi * h) * C = X2 at *
  generalize Real.pi * h * (C - (R * R - r * r)) = X3 at *
  generalize Real.pi * h * (R * R) = Z at *
  generalize K * C = KC at *
  rw [abs_le] at t1 t2 kf ⊢
  clear c1 c2 K1 kp1 k1 k2 k3 e
  norm_num at *
  constructor <;> linarith

/-- The position of a sampled point with respect to the computed axis. -/
theorem sampled_position (b : Elliptical) (h : ℝ) (hp : Proportioned b h) (hw : b.majLen ≤ 10 * h)
    (hh : h ≤ 10 * b.majLen) (hf : RightHandedOrthonormal b.major b.minor b.normal) (p q : V3)
    (h0 : 0 ≤ axial b.center b.normal q) (h1 : axial b.center b.normal q ≤ h)
    (hrad : radial b.center b.normal q ≤ b.majLen) (q3 : CloseTo b.center (2 * b.majLen + h) p q) :
    ∃ (a : V3) (L : ℝ), Spec.IsUnit a ∧ 0 ≤ L ∧ Fp.topCenter b h = b.center + L • a ∧
      -(8 / 10 ^ 9) * L ≤ axial b.center a p ∧ axial b.center a p ≤ L + 8 / 10 ^ 9 * L ∧
      |radial b.center a p - radial b.center b.normal q| ≤ 1 / 10 ^ 8 * b.majLen := by
  have R0 := hp.radius_pos
  have H0 := hp.height_pos
  have cR := hp.center_radius
  have cH := hp.center_height
  rw [norm_eq_len] at cR cH
  have hn : b.normal.len = 1 := unit_len hf.2.2.1
  have hTe := topCenter_error b h hp
  have hLh := axis_height b h hp
  set L := Spec.dist b.center (Fp.topCenter b h) with hLd
  have L0 : 0 < L := by
    have := (abs_le.1 hLh).1
    norm_num at this
    linarith
  set W := Fp.topCenter b h - b.center with hW
  have hWL : W.len = L := by rw [hW, V3.len_sub_comm, ← dist_eq_len]
  set a := L⁻¹ • W with had
  have haW : L • a = W := by rw [had, smul_smul, mul_inv_cancel₀ L0.ne', one_smul]
  have ha : a.len = 1 := by rw [had, V3.len_smul, hWL, abs_of_pos (inv_pos.2 L0), inv_mul_cancel₀ L0.ne']
  have hau : Spec.IsUnit a := by
    rw [Spec.isUnit_iff, ← V3.len_sq, ha]
    norm_num
  have hT : Fp.topCenter b h = b.center + L • a := by rw [haW, hW]; module
  have e1 : Fp.topCenter b h - (b.center + h • b.normal) = L • a - h • b.normal := by rw [hT]; module
  rw [e1] at hTe
  have hLh' : |L - h| ≤ 1.3 / 10 ^ 10 * h := by
    have := (abs_len_sub_le (L • a) (h • b.normal)).trans hTe
    rwa [V3.len_smul L a, V3.len_smul h b.normal, ha, hn, mul_one, mul_one, abs_of_pos L0, abs_of_pos H0] at this
  have htilt : (b.normal - a).len ≤ 2.6 / 10 ^ 10 := by
    have e : h • (b.normal - a) = (L - h) • a + (-(L • a - h • b.normal)) := by module
    have d := V3.len_add_le ((L - h) • a) (-(L • a - h • b.normal))
    rw [← e, V3.len_smul h, V3.len_smul (L - h) a, V3.len_neg, ha, mul_one, abs_of_pos H0] at d
    have d' : h * (b.normal - a).len ≤ h * (2.6 / 10 ^ 10) := by norm_num at *; linarith
    exact le_of_mul_le_mul_left d' H0
  -- the rounded point
  have hpq : Spec.dist p q ≤ 3 / 2 ^ 50 * (b.center.len + (2 * b.majLen + h)) := by
    rw [dist_eq_len]
    refine (len_le_coords _).trans ?_
    obtain ⟨x1, x2, x3⟩ := q3
    obtain ⟨y1, y2, y3⟩ := abs_coord_le b.center
    simp only [V3.sub_x, V3.sub_y, V3.sub_z]
    norm_num at *
    linarith
  have c0 := V3.len_nonneg b.center
  have hpq1 : Spec.dist p q ≤ 2.8 / 10 ^ 9 * h := by
    refine hpq.trans ?_
    generalize b.center.len = B at *
    norm_num at *
    linarith
  have hpq2 : Spec.dist p q ≤ 2.8 / 10 ^ 9 * b.majLen := by
    refine hpq.trans ?_
    generalize b.center.len = B at *
    norm_num at *
    linarith
  have hv : (q - b.center).len ≤ h + b.majLen := by
    have e : q - b.center = (q - (b.center + b.normal.dot (q - b.center) • b.normal)) +
        b.normal.dot (q - b.center) • b.normal := by module
    have d := V3.len_add_le (q - (b.center + b.normal.dot (q - b.center) • b.normal))
      (b.normal.dot (q - b.center) • b.normal)
    rw [← e, ← radial_eq, V3.len_smul, hn, mul_one, ← axial_eq, abs_of_nonneg h0] at d
    norm_num at *
    linarith
  obtain ⟨t1, t2⟩ := tilt b.center b.normal a q ha hn _ htilt
  have t3 : 2.6 / 10 ^ 10 * (q - b.center).len ≤ 2.6 / 10 ^ 10 * (h + b.majLen) :=
    mul_le_mul_of_nonneg_left hv (by norm_num)
  have l1 := axial_lipschitz hau b.center p q
  have l2 := (abs_le.1 (radial_lipschitz hau b.center p q)).2
  obtain ⟨l1a, l1b⟩ := abs_le.1 l1
  obtain ⟨t1a, t1b⟩ := abs_le.1 t1
  obtain ⟨g1, g2⟩ := abs_le.1 hLh'
  obtain ⟨-, t4⟩ := tilt b.center a b.normal q hn ha (2.6 / 10 ^ 10) (by rw [V3.len_sub_comm]; exact htilt)
  have l3 := (abs_le.1 (radial_lipschitz hau b.center p q)).1
  refine ⟨a, L, hau, L0.le, hT, ?_, ?_, ?_⟩
  · generalize axial b.center a p = x1 at *
    norm_num at *
    linarith
  · generalize axial b.center a p = x1 at *
    norm_num at *
    linarith
  · rw [abs_le]
    generalize radial b.center a p = x1 at *
    norm_num at *
    constructor <;> linarith

/-- The radius drawn by the sampler of hollow cylinders. -/
theorem drawn_shell (r R u : ℝ) (hr : 0 ≤ r) (hR : 0 < R) (hrR : 2 * r ≤ R) (hu0 : 1 / 10 ^ 7 ≤ u)
    (hu1 : u ≤ 1 - 1 / 10 ^ 7) :
    r + 2 / 10 ^ 8 * R ≤ Fp.sqrt (Fp.uniform u (Fp.mul r r) (Fp.mul R R)) ∧
      Fp.sqrt (Fp.uniform u (Fp.mul r r) (Fp.mul R R)) ≤ (1 - 2 / 10 ^ 8) * R := by
  have s1 : 0 ≤ r * r := by positivity
  have s2 : 0 < R * R := by positivity
  have s3 : 4 * (r * r) ≤ R * R := by nlinarith
  have s4 : 2 * (r * R) ≤ R * R := by nlinarith
  have k1 := abs_le.1 (rnd_error_num (r * r))
  have k2 := abs_le.1 (rnd_error_num (R * R))
  rw [abs_of_nonneg s1] at k1
  rw [abs_of_pos s2] at k2
  change _ ≤ Fp.mul r r - _ ∧ Fp.mul r r - _ ≤ _ at k1
  change _ ≤ Fp.mul R R - _ ∧ Fp.mul R R - _ ≤ _ at k2
  set A := Fp.mul r r
  set B := Fp.mul R R
  have A0 : 0 ≤ A := rnd_nonneg s1
  have BA : 0 ≤ B - A := by norm_num at k1 k2; linarith
  have k3 := abs_le.1 (rnd_error_num (B - A))
  rw [abs_of_nonneg BA] at k3
  have u0 : 0 ≤ u := le_trans (by norm_num) hu0
  have c0 : 0 ≤ Fp.rnd (B - A) := rnd_nonneg BA
  have k4 := abs_le.1 (rnd_error_num (u * Fp.rnd (B - A)))
  rw [abs_of_nonneg (mul_nonneg u0 c0)] at k4
  have k5 := abs_le.1 (rnd_error_num (Fp.rnd (u * Fp.rnd (B - A)) + A))
  rw [abs_of_nonneg (add_nonneg (rnd_nonneg (mul_nonneg u0 c0)) A0)] at k5
  change _ ≤ Fp.uniform u A B - _ ∧ Fp.uniform u A B - _ ≤ _ at k5
  have m1 : 1 / 10 ^ 7 * Fp.rnd (B - A) ≤ u * Fp.rnd (B - A) := mul_le_mul_of_nonneg_right hu0 c0
  have m2 : u * Fp.rnd (B - A) ≤ (1 - 1 / 10 ^ 7) * Fp.rnd (B - A) := mul_le_mul_of_nonneg_right hu1 c0
  set v := Fp.uniform u A B
  have v1 : r * r + 0.7 / 10 ^ 7 * (R * R) ≤ v := by
    generalize u * Fp.rnd (B - A) = X at *
    generalize Fp.rnd (B - A) = Y at *
    generalize Fp.rnd X = Z at *
    generalize r * r = V at *
    generalize R * R = W at *
    norm_num at *
    linarith
  have v2 : v ≤ (1 - 0.7 / 10 ^ 7) * (R * R) := by
    generalize u * Fp.rnd (B - A) = X at *
    generalize Fp.rnd (B - A) = Y at *
    generalize Fp.rnd X = Z at *
    generalize r * r = V at *
    generalize R * R = W at *
    norm_num at *
    linarith
  have w1 : r + 2.5 / 10 ^ 8 * R ≤ √v := by
    refine Real.le_sqrt_of_sq_le (le_trans ?_ v1)
    nlinarith
  have w2 : √v ≤ (1 - 3 / 10 ^ 8) * R := by
    refine Real.sqrt_le_iff.2 ⟨by positivity, v2.trans ?_⟩
    nlinarith
  have k6 := abs_le.1 (rnd_error_num √v)
  rw [abs_of_nonneg (Real.sqrt_nonneg v)] at k6
  unfold Fp.sqrt
  generalize Fp.rnd √v = X at *
  generalize √v = Y at *
  clear k1 k2 k3 k4 k5 m1 m2 v1 v2
  norm_num at *
  constructor <;> linarith

/-- **Sampled points.**  The points that are sampled in a hollow cylinder, with the arithmetic of `double`, are contained
in it, unless the number from which the radius is computed is smaller than 1e-7 or larger than 1 - 1e-7. -/
theorem C160_sampled_partial (b : Elliptical) (R h ur uphi uh : ℝ) (hp : ProportionedShell b R h) (hw : R ≤ 10 * h)
    (hh : h ≤ 10 * R) (hrR : 2 * b.majLen ≤ R) (hf : RightHandedOrthonormal b.major b.minor b.normal) (dh : IsDouble h)
    (huh : Canonical uh) (hlim : 1 / 10 ^ 7 ≤ ur) (hlim' : ur ≤ 1 - 1 / 10 ^ 7) :
    Fp.hollowContainsDefault b R h
      (Fp.hollowCylinderSample ⟨b.center, b.major, b.minor, b.normal, R, R⟩ b.majLen R h ur uphi uh) := by
  have R0 : 0 < R := hp.full.radius_pos
  have H0 := hp.full.height_pos
  obtain ⟨d1, d2⟩ := drawn_shell b.majLen R ur hp.inner_nonneg R0 hrR hlim hlim'
  obtain ⟨h0, h1, _⟩ := C108_interval uh 0 h huh double_zero dh H0.le
  obtain ⟨q, q1, q2, q3⟩ := cylinderPoint_close ⟨b.center, b.major, b.minor, b.normal, R, R⟩
    (Fp.uniform uphi 0 (Fp.mul 2 Fp.pi)) (Fp.uniform uh 0 h)
    (Fp.uniform ur (Fp.mul b.majLen b.majLen) (Fp.mul R R)) R h hf (d2.trans (by norm_num; linarith)) h0 h1
  change CloseTo b.center (2 * R + h)
    (Fp.hollowCylinderSample ⟨b.center, b.major, b.minor, b.normal, R, R⟩ b.majLen R h ur uphi uh) q at q3
  rw [← q2] at d1 d2
  rw [← q1] at h0 h1
  set p := Fp.hollowCylinderSample ⟨b.center, b.major, b.minor, b.normal, R, R⟩ b.majLen R h ur uphi uh
  obtain ⟨a, L, ha, hL0, hT, x0, x1, x2⟩ := sampled_position ⟨b.center, b.major, b.minor, b.normal, R, R⟩ h hp.full hw hh
    hf p q h0 h1 (d2.trans (by norm_num; linarith)) q3
  simp only at x0 x1 x2 d1 d2
  obtain ⟨x3, x4⟩ := abs_le.1 x2
  refine hollow_contains_near b R h hp a L ha hL0 hT p x0 x1 ?_ ?_
  · linarith
  · norm_num at *
    linarith

/-- The full property: the points sampled in a hollow cylinder are contained in it with the default tolerance. -/
def C160_full : Prop := ∀ (b : Elliptical) (R h ur uphi uh : ℝ), RightHandedOrthonormal b.major b.minor b.normal →
  DoubleCoordinates b.center → DoubleCoordinates b.major → DoubleCoordinates b.minor → DoubleCoordinates b.normal →
  IsDouble b.majLen → IsDouble R → IsDouble h → 0 ≤ b.majLen → b.majLen < R → 0 < h → b.minLen = b.majLen →
  Canonical ur → Canonical uphi → Canonical uh →
  Fp.hollowContainsDefault b R h
    (Fp.hollowCylinderSample ⟨b.center, b.major, b.minor, b.normal, R, R⟩ b.majLen R h ur uphi uh)

/-- The full property fails, as it does for the full cylinder (the hollow cylinder of the counterexample has the inner
radius zero). -/
theorem C160_disproof : ¬ C160_full := by
  intro hfull
  refine C157_disproof fun b h ur uphi uh hf h1 h2 h3 h4 h5 h6 h7 h8 h9 hu1 hu2 hu3 => ?_
  have := hfull ⟨b.center, b.major, b.minor, b.normal, 0, 0⟩ b.majLen h ur uphi uh hf h1 h2 h3 h4 double_zero h5 h6 le_rfl
    h7 h8 rfl hu1 hu2 hu3
  have e : (⟨b.center, b.major, b.minor, b.normal, b.majLen, b.majLen⟩ : Elliptical) = b := by
    cases b
    simp only at h9
    simp [h9]
  have e0 : Fp.mul 0 0 = 0 := by unfold Fp.mul; rw [mul_zero, rnd_zero]
  have e1 : Fp.hollowCylinderSample b 0 b.majLen h ur uphi uh = Fp.cylinderSample b b.majLen h ur uphi uh := by
    unfold Fp.hollowCylinderSample Fp.cylinderSample
    rw [e0]
  simp only [e, e1] at this
  unfold Fp.hollowContainsDefault Fp.hollowContains at this
  unfold Fp.cylinderContainsDefault Fp.cylinderContains
  change match Fp.segmentLine (Fp.centerSegment b h) with
    | .val line => _
    | _ => False at this
  cases hl : Fp.segmentLine (Fp.centerSegment b h) with
  | val line =>
    rw [hl] at this
    exact ⟨this.1, this.2.1⟩
  | thrown s => rw [hl] at this; exact this
  | nan => rw [hl] at this; exact this
  | ub => rw [hl] at this; exact this

/-- A hollow cylinder of inner radius 4, outer radius 5 and height 20 with the bottom centre (100, 200, 50). -/
noncomputable def nearShell : Elliptical := ⟨⟨100, 200, 50⟩, ⟨1, 0, 0⟩, ⟨0, 1, 0⟩, ⟨0, 0, 1⟩, 4, 4⟩

theorem nearShell_proportioned : ProportionedShell nearShell 5 20 :=
  ⟨nearCylinder_proportioned, by norm_num [nearShell], by norm_num [nearShell]⟩

/-- A point near the inner face is contained, points inside of the inner face, outside of the outer one and above the top
are not. -/
example : Fp.hollowContainsDefault nearShell 5 20 ⟨104.0000001, 200, 60⟩ ∧
    ¬ Fp.hollowContainsDefault nearShell 5 20 ⟨103.9999999, 200, 60⟩ ∧
    ¬ Fp.hollowContainsDefault nearShell 5 20 ⟨105.0000001, 200, 60⟩ ∧
    ¬ Fp.hollowContainsDefault nearShell 5 20 ⟨104.5, 200, 70.00001⟩ := by
  have hu : Spec.IsUnit ⟨0, 0, 1⟩ := by norm_num [Spec.IsUnit]
  have hm : nearShell.majLen = 4 := rfl
  have out := fun p => C160_outside _ _ _ nearShell_proportioned ⟨0, 0, 1⟩ 20 hu (by norm_num) nearCylinder_top p
  have rad : ∀ x z : ℝ, radial nearShell.center ⟨0, 0, 1⟩ ⟨x, 200, z⟩ = |x - 100| := by
    intro x z
    unfold radial Spec.dist
    rw [← Real.sqrt_sq_eq_abs]
    congr 1
    norm_num [axial, nearShell]
  refine ⟨C160_inside _ _ _ nearShell_proportioned ⟨0, 0, 1⟩ 20 hu (by norm_num) nearCylinder_top _
    ⟨?_, ?_, ?_, ?_⟩, fun h => ?_, fun h => ?_, fun h => ?_⟩
  · norm_num [axial, nearShell]
  · norm_num [axial, nearShell]
  · rw [rad, hm]
    norm_num [abs_of_pos]
  · rw [rad]
    norm_num [abs_of_pos]
  · have := (out _ h).2.2.2.2 (by rw [hm]; norm_num) (by norm_num)
    rw [rad, hm] at this
    norm_num [abs_of_pos] at this
  · have := (out _ h).2.2.2.1
    rw [rad] at this
    norm_num [abs_of_pos] at this
  · have := (out _ h).2.1
    norm_num [axial, nearShell] at this

/-- The volume of this hollow cylinder. -/
example : |Fp.hollowVolume 4 5 20 - Real.pi * 180| ≤ 1 / 2 ^ 50 * (Real.pi * 500) := by
  have := (C160_volume 4 5 20 (by norm_num) (by norm_num) (by norm_num)).1
  norm_num [mul_assoc] at this ⊢
  exact this

/-- A point sampled in a hollow cylinder of inner radius 2. -/
example (uphi : ℝ) : Fp.hollowContainsDefault ⟨⟨100, 200, 50⟩, ⟨1, 0, 0⟩, ⟨0, 1, 0⟩, ⟨0, 0, 1⟩, 2, 2⟩ 5 20
    (Fp.hollowCylinderSample nearCylinder 2 5 20 0.5 uphi 0.5) :=
  C160_sampled_partial ⟨⟨100, 200, 50⟩, ⟨1, 0, 0⟩, ⟨0, 1, 0⟩, ⟨0, 0, 1⟩, 2, 2⟩ 5 20 0.5 uphi 0.5
    ⟨nearCylinder_proportioned, by norm_num, by norm_num⟩ (by norm_num) (by norm_num) (by norm_num)
    (by norm_num [RightHandedOrthonormal, Spec.IsUnit, Orthogonal, Spec.inner, Spec.det])
    ⟨20, 0, by norm_num, by norm_num⟩ canonical_half (by norm_num) (by norm_num)

end Props
