import Verif.Model.Float.Arc
import Verif.Props.FloatCircle

/-!
# C165 Angles on ellipses and points on arcs in double precision
-/

namespace Props
open Verif Frackit Spec

theorem fpPi_bounds : 3.14 ≤ Fp.pi ∧ Fp.pi ≤ 3.15 ∧ |Fp.pi - Real.pi| ≤ 4 / 2 ^ 53 := by
  have h := rnd_error_num Real.pi
  have p1 := Real.pi_gt_d4
  have p2 := Real.pi_lt_d4
  rw [abs_of_pos Real.pi_pos] at h
  have h' : |Fp.pi - Real.pi| ≤ 4 / 2 ^ 53 := by
    refine h.trans ?_
    norm_num at *
    linarith
  have := abs_le.1 h'
  norm_num at *
  exact ⟨by linarith, by linarith, h'⟩

theorem two_fpPi_bounds : 6.28 ≤ Fp.mul 2 Fp.pi ∧ Fp.mul 2 Fp.pi ≤ 6.31 ∧ |Fp.mul 2 Fp.pi - 2 * Real.pi| ≤ 16 / 2 ^ 53 := by
  obtain ⟨h1, h2, h3⟩ := fpPi_bounds
  have e := rnd_error_num (2 * Fp.pi)
  rw [abs_of_pos (show (0 : ℝ) < 2 * Fp.pi by linarith)] at e
  have e3 := abs_sub_le (Fp.mul 2 Fp.pi) (2 * Fp.pi) (2 * Real.pi)
  have e4 : |2 * Fp.pi - 2 * Real.pi| = 2 * |Fp.pi - Real.pi| := by rw [← mul_sub, abs_mul, abs_two]
  change |Fp.mul 2 Fp.pi - 2 * Fp.pi| ≤ _ at e
  have h : |Fp.mul 2 Fp.pi - 2 * Real.pi| ≤ 16 / 2 ^ 53 := by
    norm_num at *
    linarith
  have p1 := Real.pi_gt_d4
  have p2 := Real.pi_lt_d4
  have := abs_le.1 h
  norm_num at *
  exact ⟨by linarith, by linarith, h⟩

theorem fpAtan_bounds (x : ℝ) : -1.58 ≤ Fp.atan x ∧ Fp.atan x ≤ 1.58 ∧ (0 ≤ x → 0 ≤ Fp.atan x) ∧ (x ≤ 0 → Fp.atan x ≤ 0) := by
  have h1 := Real.neg_pi_div_two_lt_arctan x
  have h2 := Real.arctan_lt_pi_div_two x
  have p2 := Real.pi_lt_d4
  have e := rnd_error_num (Real.arctan x)
  have ha : |Real.arctan x| ≤ 1.571 := by
    rw [abs_le]
    norm_num at *
    constructor <;> linarith
  change |Fp.atan x - _| ≤ _ at e
  have e2 := abs_le.1 (e.trans (mul_le_mul_of_nonneg_left ha (by norm_num)))
  have e3 := abs_le.1 ha
  refine ⟨?_, ?_, fun h => rnd_nonneg (Real.arctan_nonneg.2 h), fun h => ?_⟩
  · norm_num at *; linarith
  · norm_num at *; linarith
  · have := rnd_mono (Real.arctan_le_zero.2 h)
    rwa [rnd_zero] at this

/-- **Range of the angles.**  The angle that an ellipse computes for a point is a number of type `double` in [0, 2π], with
2π as computed. -/
theorem C165_range (d : Elliptical) (p : V3) (check : Bool) (t : ℝ) (ha : 0 ≤ d.majLen) (hb : 0 ≤ d.minLen)
    (h : Fp.ellipseAngle d p check = .val t) : Fp.rnd t = t ∧ 0 ≤ t ∧ t ≤ Fp.mul 2 Fp.pi := by
  obtain ⟨p1, p2, -⟩ := fpPi_bounds
  obtain ⟨q1, q2, -⟩ := two_fpPi_bounds
  have hr : Fp.rnd (Fp.mul 2 Fp.pi) = Fp.mul 2 Fp.pi := rnd_rnd _
  unfold Fp.ellipseAngle at h
  simp only at h
  split_ifs at h with h0 h1 h2 h3 h4 h5 h6 h7
  all_goals first | (cases h; done) | cases h
  · have t1 : Fp.mul 3 Fp.pi ≤ 9.5 := by
      have e := rnd_error_num (3 * Fp.pi)
      rw [abs_of_pos (show (0 : ℝ) < 3 * Fp.pi by linarith)] at e
      have e2 := (abs_le.1 e).2
      change Fp.mul 3 Fp.pi - 3 * Fp.pi ≤ _ at e2
      norm_num at *
      linarith
    have t2 : 0 ≤ Fp.mul 3 Fp.pi := rnd_nonneg (by linarith)
    refine ⟨rnd_rnd _, rnd_nonneg (by linarith), ?_⟩
    rw [← hr]
    refine rnd_mono ?_
    norm_num at *
    linarith
  · refine ⟨rnd_rnd _, rnd_nonneg (by linarith), ?_⟩
    exact rnd_mono (by linarith)
  · exact ⟨rnd_rnd _, by linarith, by norm_num at *; linarith⟩
  · exact ⟨rnd_zero, le_rfl, by linarith⟩
  · obtain ⟨-, b2, b3, -⟩ := fpAtan_bounds (Fp.div (Fp.mul (Fp.scalarProduct (Fp.vectorBetween d.center p) d.minor)
      (Fp.div d.majLen d.minLen)) (Fp.scalarProduct (Fp.vectorBetween d.center p) d.major))
    refine ⟨rnd_rnd _, b3 ?_, by norm_num at *; linarith⟩
    exact rnd_nonneg (div_nonneg (rnd_nonneg (mul_nonneg (not_lt.1 h6.1) (rnd_nonneg (div_nonneg ha hb)))) (not_lt.1 h6.2))
  · obtain ⟨b1, b2, b3, b4⟩ := fpAtan_bounds (Fp.div (Fp.mul (Fp.scalarProduct (Fp.vectorBetween d.center p) d.minor)
      (Fp.div d.majLen d.minLen)) (Fp.scalarProduct (Fp.vectorBetween d.center p) d.major))
    refine ⟨rnd_rnd _, rnd_nonneg (by norm_num at *; linarith), ?_⟩
    have b5 := b4 (by
      have m1 := rnd_mono (mul_nonpos_of_nonpos_of_nonneg h7.1.le (rnd_nonneg (div_nonneg ha hb)))
      rw [rnd_zero] at m1
      have m2 := rnd_mono (div_nonpos_of_nonpos_of_nonneg m1 (not_lt.1 h7.2))
      rwa [rnd_zero] at m2)
    conv_rhs => rw [← hr]
    exact rnd_mono (by linarith)
  · obtain ⟨b1, b2, -⟩ := fpAtan_bounds (Fp.div (Fp.mul (Fp.scalarProduct (Fp.vectorBetween d.center p) d.minor)
      (Fp.div d.majLen d.minLen)) (Fp.scalarProduct (Fp.vectorBetween d.center p) d.major))
    refine ⟨rnd_rnd _, rnd_nonneg (by norm_num at *; linarith), ?_⟩
    exact rnd_mono (by norm_num at *; linarith)

/-- The point that is computed for an angle close to the given one. -/
theorem point_of_close_angle (d : Elliptical) (φ θ : ℝ) (hu : |norm d.major - 1| ≤ 1 / 2 ^ 49)
    (hv : |norm d.minor - 1| ≤ 1 / 2 ^ 49) (ha : 0 ≤ d.majLen) (hb : 0 ≤ d.minLen) (hang : |φ - θ| ≤ 49 / 2 ^ 53) :
    Spec.dist (d.center + (d.majLen * Real.cos θ) • d.major + (d.minLen * Real.sin θ) • d.minor) (Fp.pointFromAngle d φ)
      ≤ 1 / 2 ^ 47 * (norm d.center + d.majLen + d.minLen) := by
  rw [norm_eq_len] at hu hv ⊢
  have ub : d.major.len ≤ 1.001 := by have := (abs_le.1 hu).2; norm_num at this ⊢; linarith
  have vb : d.minor.len ≤ 1.001 := by have := (abs_le.1 hv).2; norm_num at this ⊢; linarith
  have e1 := pointFromAngle_error d φ ha hb
  have hs : d.majLen * d.major.len + d.minLen * d.minor.len ≤ 1.001 * (d.majLen + d.minLen) := by
    have := mul_le_mul_of_nonneg_left ub ha
    have := mul_le_mul_of_nonneg_left vb hb
    linarith
  have e2 : (idealOffset d φ - idealOffset d θ).len ≤ 49 / 2 ^ 53 * (1.001 * (d.majLen + d.minLen)) := by
    have hc := (Real.abs_cos_sub_cos_le φ θ).trans hang
    have hsn := (Real.abs_sin_sub_sin_le φ θ).trans hang
    have : idealOffset d φ - idealOffset d θ = (d.majLen * (Real.cos φ - Real.cos θ)) • d.major
          + (d.minLen * (Real.sin φ - Real.sin θ)) • d.minor := by
      unfold idealOffset
      ext <;> simp <;> ring
    rw [this]
    refine (V3.len_add_le _ _).trans ?_
    rw [V3.len_smul, V3.len_smul, abs_mul, abs_mul, abs_of_nonneg ha, abs_of_nonneg hb]
    have m1 := mul_le_mul_of_nonneg_left hc (mul_nonneg ha (V3.len_nonneg d.major))
    have m2 := mul_le_mul_of_nonneg_left hsn (mul_nonneg hb (V3.len_nonneg d.minor))
    have m3 := mul_le_mul_of_nonneg_left hs (show (0 : ℝ) ≤ 49 / 2 ^ 53 by norm_num)
    linarith
  rw [Spec.dist_comm, dist_eq_len]
  have e3 := V3.len_add_le ((Fp.pointFromAngle d φ - d.center) - idealOffset d φ) (idealOffset d φ - idealOffset d θ)
  have r5 : rho ^ 5 - 1 ≤ 5.01 / 2 ^ 53 := (rho_pow_sub_one_le (by norm_num)).trans (by norm_num)
  have e4 := e1.trans (mul_le_mul_of_nonneg_right r5 (add_nonneg (V3.len_nonneg _)
    (add_nonneg (mul_nonneg ha (V3.len_nonneg _)) (mul_nonneg hb (V3.len_nonneg _)))))
  have e5 : Fp.pointFromAngle d φ - (d.center + (d.majLen * Real.cos θ) • d.major + (d.minLen * Real.sin θ) • d.minor)
      = ((Fp.pointFromAngle d φ - d.center) - idealOffset d φ) + (idealOffset d φ - idealOffset d θ) := by
    unfold idealOffset
    ext <;> simp <;> ring
  rw [e5]
  have l0 := V3.len_nonneg d.center
  norm_num at *
  linarith

theorem rnd_error_bound {x m : ℝ} (h : |x| ≤ m) : |Fp.rnd x - x| ≤ 1 / 2 ^ 53 * m :=
  (rnd_error_num x).trans (mul_le_mul_of_nonneg_left h (by norm_num))

/-- The computed angle from the source to the target of an arc. -/
theorem sweep_error {s t : ℝ} (hs : 0 ≤ s ∧ s ≤ Fp.mul 2 Fp.pi) (ht : 0 ≤ t ∧ t ≤ Fp.mul 2 Fp.pi) :
    |(if s < t then Fp.sub t s else Fp.add (Fp.sub (Fp.mul 2 Fp.pi) s) t)
      - (if s < t then t - s else 2 * Real.pi - s + t)| ≤ 29 / 2 ^ 53 ∧
    |(if s < t then Fp.sub t s else Fp.add (Fp.sub (Fp.mul 2 Fp.pi) s) t)| ≤ 6.33 := by
  obtain ⟨-, q2, q3⟩ := two_fpPi_bounds
  generalize Fp.mul 2 Fp.pi = T at *
  obtain ⟨s0, s1⟩ := hs
  obtain ⟨t0, t1⟩ := ht
  split_ifs with h
  · have b : |t - s| ≤ 6.31 := by rw [abs_le]; constructor <;> linarith
    have e := rnd_error_bound b
    have e' := abs_le.1 e
    have b' := abs_le.1 b
    change |Fp.sub t s - _| ≤ _ at e
    change _ ≤ Fp.sub t s - _ ∧ Fp.sub t s - _ ≤ _ at e'
    refine ⟨e.trans (by norm_num), ?_⟩
    rw [abs_le]
    norm_num at *
    constructor <;> linarith
  · have b : |T - s| ≤ 6.31 := by rw [abs_le]; constructor <;> linarith
    have e := abs_le.1 (rnd_error_bound b)
    change _ ≤ Fp.sub T s - _ ∧ Fp.sub T s - _ ≤ _ at e
    have a0 : 0 ≤ Fp.sub T s := rnd_nonneg (by linarith)
    generalize Fp.sub T s = A at *
    have q4 := abs_le.1 q3
    have b2 : |A + t| ≤ 6.32 := by
      rw [abs_le]
      norm_num at *
      constructor <;> linarith
    have e2 := abs_le.1 (rnd_error_bound b2)
    have b3 := abs_le.1 b2
    change _ ≤ Fp.add A t - _ ∧ Fp.add A t - _ ≤ _ at e2
    rw [abs_le, abs_le]
    norm_num at *
    refine ⟨⟨?_, ?_⟩, ?_, ?_⟩ <;> linarith

/-- **Points of an arc.**  The point that an arc with angles in [0, 2π] computes for a parameter in [0, 1] is, up to 2⁻⁴⁷ times
the sum of the axis lengths and the distance of the centre from the origin, the point of the ellipse whose angle divides the
angle from the source to the target in that ratio. -/
theorem C165_point (arc : EllipseArc) (t : ℝ) (hu : |norm arc.ellipse.major - 1| ≤ 1 / 2 ^ 49)
    (hv : |norm arc.ellipse.minor - 1| ≤ 1 / 2 ^ 49) (ha : 0 ≤ arc.ellipse.majLen) (hb : 0 ≤ arc.ellipse.minLen)
    (hs : 0 ≤ arc.sourceAngle ∧ arc.sourceAngle ≤ Fp.mul 2 Fp.pi)
    (ht : 0 ≤ arc.targetAngle ∧ arc.targetAngle ≤ Fp.mul 2 Fp.pi) (h0 : 0 ≤ t) (h1 : t ≤ 1) :
    ∀ θ, θ = arc.sourceAngle + t * (if arc.sourceAngle < arc.targetAngle then arc.targetAngle - arc.sourceAngle
        else 2 * Real.pi - arc.sourceAngle + arc.targetAngle) →
      Spec.dist (arc.ellipse.center + (arc.ellipse.majLen * Real.cos θ) • arc.ellipse.major
        + (arc.ellipse.minLen * Real.sin θ) • arc.ellipse.minor) (Fp.arcGetPoint arc t)
      ≤ 1 / 2 ^ 47 * (norm arc.ellipse.center + arc.ellipse.majLen + arc.ellipse.minLen) := by
  rintro θ rfl
  obtain ⟨e1, b1⟩ := sweep_error hs ht
  obtain ⟨-, q2, -⟩ := two_fpPi_bounds
  refine point_of_close_angle arc.ellipse _ _ hu hv ha hb ?_
  generalize (if arc.sourceAngle < arc.targetAngle then arc.targetAngle - arc.sourceAngle
    else 2 * Real.pi - arc.sourceAngle + arc.targetAngle) = D at *
  have hcongr : ∀ D', D' = (if arc.sourceAngle < arc.targetAngle then Fp.sub arc.targetAngle arc.sourceAngle
      else Fp.add (Fp.sub (Fp.mul 2 Fp.pi) arc.sourceAngle) arc.targetAngle) →
      |Fp.add arc.sourceAngle (Fp.mul D' t) - (arc.sourceAngle + t * D)| ≤ 49 / 2 ^ 53 := by
    rintro D' hD
    rw [← hD] at e1 b1
    have e2 : |D' * t - t * D| ≤ 29 / 2 ^ 53 := by
      rw [mul_comm D' t, ← mul_sub, abs_mul, abs_of_nonneg h0]
      exact (mul_le_of_le_one_left (abs_nonneg _) h1).trans e1
    have b2 : |D' * t| ≤ 6.33 := by
      rw [abs_mul, abs_of_nonneg h0]
      exact (mul_le_of_le_one_right (abs_nonneg _) h1).trans b1
    have e3 := abs_le.1 (rnd_error_bound b2)
    change _ ≤ Fp.mul D' t - _ ∧ Fp.mul D' t - _ ≤ _ at e3
    generalize Fp.mul D' t = C at *
    have b3 := abs_le.1 b2
    have e4 := abs_le.1 e2
    obtain ⟨s0, s1⟩ := hs
    have b4 : |arc.sourceAngle + C| ≤ 12.7 := by
      rw [abs_le]
      norm_num at *
      constructor <;> linarith
    have e5 := abs_le.1 (rnd_error_bound b4)
    change _ ≤ Fp.add arc.sourceAngle C - _ ∧ Fp.add arc.sourceAngle C - _ ≤ _ at e5
    rw [abs_le]
    norm_num at *
    constructor <;> linarith
  exact hcongr _ (by split_ifs <;> rfl)

/-- **Ends of an arc.**  The points for the parameters 0 and 1 are, up to the same bound, the points of the ellipse with the
angles of the source and the target. -/
theorem C165_ends (arc : EllipseArc) (hu : |norm arc.ellipse.major - 1| ≤ 1 / 2 ^ 49)
    (hv : |norm arc.ellipse.minor - 1| ≤ 1 / 2 ^ 49) (ha : 0 ≤ arc.ellipse.majLen) (hb : 0 ≤ arc.ellipse.minLen)
    (hs : 0 ≤ arc.sourceAngle ∧ arc.sourceAngle ≤ Fp.mul 2 Fp.pi)
    (ht : 0 ≤ arc.targetAngle ∧ arc.targetAngle ≤ Fp.mul 2 Fp.pi) :
    Spec.dist (arc.ellipse.center + (arc.ellipse.majLen * Real.cos arc.sourceAngle) • arc.ellipse.major
        + (arc.ellipse.minLen * Real.sin arc.sourceAngle) • arc.ellipse.minor) (Fp.arcGetPoint arc 0)
      ≤ 1 / 2 ^ 47 * (norm arc.ellipse.center + arc.ellipse.majLen + arc.ellipse.minLen) ∧
    Spec.dist (arc.ellipse.center + (arc.ellipse.majLen * Real.cos arc.targetAngle) • arc.ellipse.major
        + (arc.ellipse.minLen * Real.sin arc.targetAngle) • arc.ellipse.minor) (Fp.arcGetPoint arc 1)
      ≤ 1 / 2 ^ 47 * (norm arc.ellipse.center + arc.ellipse.majLen + arc.ellipse.minLen) := by
  constructor
  · exact C165_point arc 0 hu hv ha hb hs ht le_rfl zero_le_one _ (by rw [zero_mul, add_zero])
  · have h := C165_point arc 1 hu hv ha hb hs ht zero_le_one le_rfl _ rfl
    rw [one_mul] at h
    split_ifs at h with hlt
    · rwa [add_sub_cancel] at h
    · rwa [show arc.sourceAngle + (2 * Real.pi - arc.sourceAngle + arc.targetAngle) = arc.targetAngle + 2 * Real.pi by ring,
        Real.cos_add_two_pi, Real.sin_add_two_pi] at h

theorem angular_nonneg : 0 ≤ Fp.angular := rnd_nonneg (mul_nonneg (rnd_nonneg (by positivity)) (by norm_num))

/-- **Construction.**  The angles of an arc that is constructed are in [0, 2π]; they are the ones that the ellipse
computes for the two points, except for full ellipses, where the second one is the first one or 2π. -/
theorem C165_construction (d : Elliptical) (p q : V3) (arc : EllipseArc) (ha : 0 ≤ d.majLen) (hb : 0 ≤ d.minLen)
    (h : Fp.arcMake d p q = .val arc) :
    arc.ellipse = d ∧ arc.source = p ∧ arc.target = q ∧ Fp.ellipseAngle d p = .val arc.sourceAngle ∧
      (0 ≤ arc.sourceAngle ∧ arc.sourceAngle ≤ Fp.mul 2 Fp.pi) ∧
      (0 ≤ arc.targetAngle ∧ arc.targetAngle ≤ Fp.mul 2 Fp.pi) ∧
      (¬ arc.isFullEllipse → Fp.ellipseAngle d q = .val arc.targetAngle) ∧
      (arc.isFullEllipse → arc.targetAngle = arc.sourceAngle ∨
        arc.targetAngle = Fp.mul 2 Fp.pi ∧ arc.sourceAngle < Fp.angular) := by
  unfold Fp.arcMake at h
  simp only at h
  split_ifs at h with heq
  · cases hsa : Fp.ellipseAngle d p with
    | val sa =>
      rw [hsa] at h
      cases h
      obtain ⟨-, r1, r2⟩ := C165_range d p true sa ha hb hsa
      refine ⟨rfl, rfl, rfl, rfl, ⟨r1, r2⟩, ?_, fun hf => (hf trivial).elim, fun _ => ?_⟩
      · dsimp only
        split_ifs
        · exact ⟨r1.trans r2, le_rfl⟩
        · exact ⟨r1, r2⟩
      · dsimp only
        split_ifs with hlt
        · exact .inr ⟨rfl, hlt⟩
        · exact .inl rfl
    | thrown _ => rw [hsa] at h; cases h
    | nan => rw [hsa] at h; cases h
    | ub => rw [hsa] at h; cases h
  · cases hsa : Fp.ellipseAngle d p with
    | val sa =>
      cases hta : Fp.ellipseAngle d q with
      | val ta =>
        rw [hsa, hta] at h
        cases h
        obtain ⟨-, r1, r2⟩ := C165_range d p true sa ha hb hsa
        obtain ⟨-, r3, r4⟩ := C165_range d q true ta ha hb hta
        exact ⟨rfl, rfl, rfl, rfl, ⟨r1, r2⟩, ⟨r3, r4⟩, fun _ => rfl, fun hf => hf.elim⟩
      | thrown _ => rw [hsa, hta] at h; cases h
      | nan => rw [hsa, hta] at h; cases h
      | ub => rw [hsa, hta] at h; cases h
    | thrown _ => rw [hsa] at h; cases h
    | nan => rw [hsa] at h; cases h
    | ub => rw [hsa] at h; cases h

/-- The computed angle is the same without the check. -/
theorem ellipseAngle_unchecked {d : Elliptical} {p : V3} {t : ℝ} (h : Fp.ellipseAngle d p = .val t) (check : Bool) :
    Fp.ellipseAngle d p check = .val t := by
  cases check
  · unfold Fp.ellipseAngle at h ⊢
    rw [if_neg (by simp)]
    split_ifs at h with h0
    exact h
  · exact h

/-- **Arcs contain their ends.**  An arc contains its source, and its target unless it is a full ellipse, if the ellipse
contains them with the tolerance used, whatever the rounding errors are; without the check always. -/
theorem C165_contains_ends (d : Elliptical) (p q : V3) (arc : EllipseArc) (eps : ℝ) (check : Bool) (ha : 0 ≤ d.majLen)
    (hb : 0 ≤ d.minLen) (he : 0 ≤ eps) (h : Fp.arcMake d p q = .val arc) :
    ((check = true → Fp.ellipseContains d p eps) → ∃ r, Fp.arcContains arc p eps check = .val r ∧ r) ∧
    (¬ arc.isFullEllipse → (check = true → Fp.ellipseContains d q eps) → ∃ r, Fp.arcContains arc q eps check = .val r ∧ r) := by
  obtain ⟨h1, -, -, h2, -, -, h3, h4⟩ := C165_construction d p q arc ha hb h
  subst h1
  have below : ∀ x, Fp.rnd x = x → x ≥ Fp.sub x eps := by
    intro x hx
    have := rnd_mono (show x - eps ≤ x by linarith)
    rw [hx] at this
    exact this
  have above : ∀ x, Fp.rnd x = x → x ≤ Fp.add x eps := by
    intro x hx
    have := rnd_mono (show x ≤ x + eps by linarith)
    rw [hx] at this
    exact this
  obtain ⟨s1, -, -⟩ := C165_range _ _ _ _ ha hb h2
  have t1 : Fp.rnd arc.targetAngle = arc.targetAngle := by
    by_cases hf : arc.isFullEllipse
    · rcases h4 hf with h5 | ⟨h5, -⟩
      · rw [h5, s1]
      · rw [h5]
        exact rnd_rnd _
    · exact (C165_range _ _ _ _ ha hb (h3 hf)).1
  refine ⟨fun hc => ?_, fun hf hc => ?_⟩
  · unfold Fp.arcContains
    rw [if_neg (by rintro ⟨c1, c2⟩; exact c2 (hc c1)), ellipseAngle_unchecked h2 check]
    refine ⟨_, rfl, ?_⟩
    split_ifs with hst
    · exact .inl (below _ s1)
    · exact ⟨below _ s1, (not_lt.1 hst).trans (above _ t1)⟩
  · unfold Fp.arcContains
    rw [if_neg (by rintro ⟨c1, c2⟩; exact c2 (hc c1)), ellipseAngle_unchecked (h3 hf) check]
    refine ⟨_, rfl, ?_⟩
    split_ifs with hst
    · exact .inr (above _ t1)
    · exact ⟨(below _ s1).trans (not_lt.1 hst), above _ t1⟩


/-- The unit circle around the origin. -/
noncomputable def arcExample : Elliptical := ⟨0, ⟨1, 0, 0⟩, ⟨0, 1, 0⟩, ⟨0, 0, 1⟩, 1, 1⟩

theorem arcExample_contains {x y : ℝ} (h : (x = 1 ∧ y = 0) ∨ (x = 0 ∧ y = 1)) :
    Fp.ellipseContainsDefault arcExample ⟨x, y, 0⟩ := by
  have c0 := confusion_bounds.1
  have c1 : 0 < Fp.confusion := rnd_pos (by positivity)
  rcases h with ⟨rfl, rfl⟩ | ⟨rfl, rfl⟩ <;>
  · refine ⟨fun _ => ?_, ?_⟩
    · simp [Fp.planeContains, Fp.supportingPlane, arcExample, Fp.scalarProduct, Fp.vectorBetween, Fp.mul, Fp.add, Fp.sub,
        rnd_zero, rnd_one, c1]
    · simp [arcExample, Fp.scalarProduct, Fp.vectorBetween, Fp.mul, Fp.add, Fp.sub, Fp.div, rnd_zero, rnd_one, c1]

theorem arcExample_angles : Fp.ellipseAngle arcExample ⟨1, 0, 0⟩ = .val 0 ∧
    Fp.ellipseAngle arcExample ⟨0, 1, 0⟩ = .val (Fp.div Fp.pi 2) := by
  have c0 : 0 < Fp.rnd Fp.confusion := rnd_pos (rnd_pos (by positivity))
  have c1 : Fp.rnd Fp.confusion < 1 := by
    rw [show Fp.rnd Fp.confusion = Fp.confusion from rnd_rnd _]
    exact confusion_bounds.2.trans_lt (by norm_num)
  constructor
  · unfold Fp.ellipseAngle
    rw [if_neg (by rintro ⟨-, h⟩; exact h (arcExample_contains (.inl ⟨rfl, rfl⟩)))]
    simp [arcExample, Fp.scalarProduct, Fp.vectorBetween, Fp.mul, Fp.add, Fp.sub, rnd_zero, rnd_one, c0, c1.not_gt]
  · unfold Fp.ellipseAngle
    rw [if_neg (by rintro ⟨-, h⟩; exact h (arcExample_contains (.inr ⟨rfl, rfl⟩)))]
    simp [arcExample, Fp.scalarProduct, Fp.vectorBetween, Fp.mul, Fp.add, Fp.sub, rnd_zero, rnd_one, c0]

theorem arcExample_make : Fp.arcMake arcExample ⟨1, 0, 0⟩ ⟨0, 1, 0⟩
    = .val ⟨arcExample, ⟨1, 0, 0⟩, ⟨0, 1, 0⟩, 0, Fp.div Fp.pi 2, False⟩ := by
  unfold Fp.arcMake
  simp only
  rw [if_neg, arcExample_angles.1, arcExample_angles.2]
  · rfl
  · have c1 : Fp.mul (Fp.mul 1 Fp.confusion) (Fp.mul 1 Fp.confusion) ≤ 1 := by
      have c0 : 0 ≤ Fp.confusion := rnd_nonneg (by positivity)
      have h1 : Fp.mul 1 Fp.confusion = Fp.confusion := by
        unfold Fp.mul
        rw [one_mul]
        exact rnd_rnd _
      have h2 := rnd_mono (show Fp.confusion * Fp.confusion ≤ 1 by
        have := confusion_bounds.2
        norm_num at this
        nlinarith)
      rw [h1]
      rwa [rnd_one] at h2
    have c2 : (1 : ℝ) ≤ Fp.squaredLength (Fp.vectorBetween ⟨1, 0, 0⟩ ⟨0, 1, 0⟩) := by
      have h2 : Fp.rnd (1 + 1) = 1 + 1 := rnd_of_isDouble ⟨2, 0, by norm_num, by norm_num⟩
      have h3 : Fp.rnd (-1) = -1 := by rw [rnd_neg, rnd_one]
      simp [Fp.squaredLength, Fp.vectorBetween, Fp.mul, Fp.add, Fp.sub, rnd_zero, rnd_one, h2, h3]
    intro h
    have h' : Fp.squaredLength (Fp.vectorBetween ⟨1, 0, 0⟩ ⟨0, 1, 0⟩)
      < Fp.mul (Fp.mul 1 Fp.confusion) (Fp.mul 1 Fp.confusion) := h
    linarith

/-- An example: a quarter of the unit circle from (1, 0, 0) to (0, 1, 0) contains both points. -/
example : ∃ arc, Fp.arcMake arcExample ⟨1, 0, 0⟩ ⟨0, 1, 0⟩ = .val arc ∧ ¬ arc.isFullEllipse ∧
    arc.sourceAngle = 0 ∧ arc.targetAngle = Fp.div Fp.pi 2 ∧
    (∃ r, Fp.arcContainsDefault arc ⟨1, 0, 0⟩ false = .val r ∧ r) ∧
    (∃ r, Fp.arcContainsDefault arc ⟨0, 1, 0⟩ false = .val r ∧ r) ∧
    Spec.dist ⟨1, 0, 0⟩ (Fp.arcGetPoint arc 0) ≤ 1 / 2 ^ 46 := by
  have hm := arcExample_make
  obtain ⟨k1, k2⟩ := C165_contains_ends _ _ _ _ Fp.angular false zero_le_one zero_le_one angular_nonneg hm
  obtain ⟨-, -, -, -, k3, k4, -⟩ := C165_construction _ _ _ _ zero_le_one zero_le_one hm
  refine ⟨_, hm, fun h => h, rfl, rfl, k1 nofun, k2 (fun h => h) nofun, ?_⟩
  have n1 : ∀ v : V3, v.x ^ 2 + v.y ^ 2 + v.z ^ 2 = 1 → |Spec.norm v - 1| ≤ 1 / 2 ^ 49 := by
    intro v h
    rw [Spec.norm, h, Real.sqrt_one, sub_self, abs_zero]
    positivity
  have h := (C165_ends _ (n1 _ (by norm_num [arcExample])) (n1 _ (by norm_num [arcExample])) zero_le_one zero_le_one k3 k4).1
  have e1 : arcExample.center + (arcExample.majLen * Real.cos 0) • arcExample.major
      + (arcExample.minLen * Real.sin 0) • arcExample.minor = ⟨1, 0, 0⟩ := by
    ext <;> simp [arcExample]
  have e2 : Spec.norm arcExample.center = 0 := by
    rw [Spec.norm]
    simp [arcExample]
  simp only at h
  rw [e1, e2] at h
  refine h.trans ?_
  norm_num [arcExample]

theorem abs_arctan_le (x : ℝ) : |Real.arctan x| ≤ |x| := by
  have key : ∀ x : ℝ, 0 ≤ x → Real.arctan x ≤ x := by
    intro x hx
    have h := Real.le_tan (Real.arctan_nonneg.2 hx) (Real.arctan_lt_pi_div_two x)
    rwa [Real.tan_arctan] at h
  rcases le_total 0 x with h | h
  · rw [abs_of_nonneg h, abs_of_nonneg (Real.arctan_nonneg.2 h)]
    exact key x h
  · rw [abs_of_nonpos h, abs_of_nonpos (Real.arctan_le_zero.2 h), ← Real.arctan_neg]
    exact key (-x) (by linarith)

/-- A relative error of the argument is an absolute error of the arc tangent. -/
theorem arctan_rel {w z ε : ℝ} (h0 : 0 ≤ ε) (h1 : ε ≤ 1 / 2) (h : |w - z| ≤ ε * |z|) :
    |Real.arctan w - Real.arctan z| ≤ ε := by
  have hz : (1 - ε) * z ^ 2 ≤ w * z := by
    have h2 : |(w - z) * z| ≤ ε * z ^ 2 := by
      rw [abs_mul, ← sq_abs z, sq, ← mul_assoc]
      exact mul_le_mul_of_nonneg_right h (abs_nonneg z)
    have := (abs_le.1 h2).1
    nlinarith
  have hpos : 0 ≤ w * z := (mul_nonneg (by linarith) (sq_nonneg z)).trans hz
  have hsub : Real.arctan w - Real.arctan z = Real.arctan ((w - z) / (1 + w * z)) := by
    have := Real.arctan_add (x := w) (y := -z) (by nlinarith)
    rw [Real.arctan_neg] at this
    rw [sub_eq_add_neg, this]
    congr 1
    ring
  rw [hsub]
  refine (abs_arctan_le _).trans ?_
  rw [abs_div, abs_of_pos (show 0 < 1 + w * z by linarith), div_le_iff₀ (by linarith)]
  refine h.trans (mul_le_mul_of_nonneg_left ?_ h0)
  have : |z| ^ 2 = z ^ 2 := sq_abs z
  nlinarith [sq_nonneg (|z| - 1), abs_nonneg z]

/-- Polar coordinates of a point close to the unit circle. -/
theorem polar_close {X Y δ : ℝ} (hX : X ≠ 0) (hq : |X ^ 2 + Y ^ 2 - 1| ≤ δ) :
    (0 < X → |Real.cos (Real.arctan (Y / X)) - X| ≤ δ ∧ |Real.sin (Real.arctan (Y / X)) - Y| ≤ δ) ∧
    (X < 0 → |-Real.cos (Real.arctan (Y / X)) - X| ≤ δ ∧ |-Real.sin (Real.arctan (Y / X)) - Y| ≤ δ) := by
  set θ := Real.arctan (Y / X) with hθ
  have c0 : 0 < Real.cos θ := Real.cos_arctan_pos _
  have hs : Real.sin θ = Y / X * Real.cos θ := by
    have : Real.tan θ = Y / X := Real.tan_arctan _
    rw [← this, Real.tan_mul_cos c0.ne']
  have h1 := Real.sin_sq_add_cos_sq θ
  have c1 := Real.abs_cos_le_one θ
  have s1 := Real.abs_sin_le_one θ
  obtain ⟨r, hr⟩ : ∃ r, r = X / Real.cos θ := ⟨_, rfl⟩
  have hx : X = r * Real.cos θ := by rw [hr]; field_simp
  have hy : Y = r * Real.sin θ := by
    rw [hs, hr]
    field_simp
  have hr2 : X ^ 2 + Y ^ 2 = r ^ 2 := by
    rw [hx, hy]
    linear_combination r ^ 2 * h1
  rw [hr2] at hq
  have key : ∀ c k : ℝ, |c| ≤ 1 → |k| ≤ δ → |k * c| ≤ δ := by
    intro c k hc hk
    rw [abs_mul]
    exact (mul_le_of_le_one_right (abs_nonneg _) hc).trans hk
  constructor
  · intro hp
    have r0 : 0 < r := by rw [hr]; positivity
    have hk : |1 - r| ≤ δ := by
      rw [show r ^ 2 - 1 = (r - 1) * (r + 1) by ring, abs_mul, abs_of_pos (show 0 < r + 1 by linarith)] at hq
      rw [abs_sub_comm]
      exact (le_mul_of_one_le_right (abs_nonneg _) (by linarith)).trans hq
    refine ⟨?_, ?_⟩
    · rw [show Real.cos θ - X = (1 - r) * Real.cos θ by linear_combination -hx]
      exact key _ _ c1 hk
    · rw [show Real.sin θ - Y = (1 - r) * Real.sin θ by linear_combination -hy]
      exact key _ _ s1 hk
  · intro hn
    have r0 : r < 0 := by rw [hr]; exact div_neg_of_neg_of_pos hn c0
    have hk : |-1 - r| ≤ δ := by
      rw [show r ^ 2 - 1 = (-1 - r) * (1 - r) by ring, abs_mul, abs_of_pos (show 0 < 1 - r by linarith)] at hq
      exact (le_mul_of_one_le_right (abs_nonneg _) (by linarith)).trans hq
    refine ⟨?_, ?_⟩
    · rw [show -Real.cos θ - X = (-1 - r) * Real.cos θ by linear_combination -hx]
      exact key _ _ c1 hk
    · rw [show -Real.sin θ - Y = (-1 - r) * Real.sin θ by linear_combination -hy]
      exact key _ _ s1 hk

/-- The sum that `contains` compares with one. -/
theorem on_ellipse {d : Elliptical} {p : V3} (ha : 0 < d.majLen) (hb : 0 < d.minLen)
    (h : Fp.ellipseContainsDefault d p false) :
    |(Fp.scalarProduct (Fp.vectorBetween d.center p) d.major / d.majLen) ^ 2
      + (Fp.scalarProduct (Fp.vectorBetween d.center p) d.minor / d.minLen) ^ 2 - 1| ≤ 1.01 / 10 ^ 7 := by
  obtain ⟨-, -, -, h⟩ := h
  generalize Fp.scalarProduct (Fp.vectorBetween d.center p) d.major = x at *
  generalize Fp.scalarProduct (Fp.vectorBetween d.center p) d.minor = y at *
  have Q := (quotient_close (x := x) (y := y) ha hb).abs_sub_le
  have r4 : rho ^ 4 - 1 ≤ 1 / 10 ^ 10 := (rho_pow_sub_one_le (by norm_num)).trans (by norm_num)
  have q0 : 0 ≤ (x / d.majLen) ^ 2 + (y / d.minLen) ^ 2 := by positivity
  have Q' := Q.trans (mul_le_mul_of_nonneg_right r4 q0)
  generalize (x / d.majLen) ^ 2 + (y / d.minLen) ^ 2 = q at *
  generalize Fp.add (Fp.div (Fp.mul x x) (Fp.mul d.majLen d.majLen))
    (Fp.div (Fp.mul y y) (Fp.mul d.minLen d.minLen)) = R at *
  have e := rnd_error_num (R - 1)
  change |Fp.rnd (R - 1)| < _ at h
  have c := confusion_bounds.2
  have k : |R - 1| ≤ |Fp.rnd (R - 1) - (R - 1)| + |Fp.rnd (R - 1)| := by
    rw [abs_sub_comm (Fp.rnd (R - 1))]
    have := abs_add_le (R - 1 - Fp.rnd (R - 1)) (Fp.rnd (R - 1))
    rwa [sub_add_cancel] at this
  have k2 : |R - 1| ≤ 1.002 / 10 ^ 7 := by
    norm_num at *
    linarith
  have k3 := abs_le.1 k2
  have k4 := abs_le.1 Q'
  rw [abs_le]
  norm_num at *
  constructor <;> linarith

/-- Angles close to each other have close sines and cosines. -/
theorem trig_close {φ θ X Y : ℝ} (h : |φ - θ| ≤ 40 / 2 ^ 53) (hc : |Real.cos θ - X| ≤ 1.03 / 10 ^ 7)
    (hs : |Real.sin θ - Y| ≤ 1.03 / 10 ^ 7) : |Real.cos φ - X| ≤ 1.04 / 10 ^ 7 ∧ |Real.sin φ - Y| ≤ 1.04 / 10 ^ 7 := by
  have h1 := (Real.abs_cos_sub_cos_le φ θ).trans h
  have h2 := (Real.abs_sin_sub_sin_le φ θ).trans h
  have h3 := abs_sub_le (Real.cos φ) (Real.cos θ) X
  have h4 := abs_sub_le (Real.sin φ) (Real.sin θ) Y
  norm_num at *
  constructor <;> linarith

/-- One of two numbers whose squares sum up to almost one, if the other one is small. -/
theorem near_one {X Y : ℝ} (hq : |X ^ 2 + Y ^ 2 - 1| ≤ 1.01 / 10 ^ 7) (hX : |X| ≤ 1.01 / 10 ^ 7) :
    (0 ≤ Y → |1 - Y| ≤ 1.02 / 10 ^ 7) ∧ (Y ≤ 0 → |-1 - Y| ≤ 1.02 / 10 ^ 7) := by
  have x2 : X ^ 2 ≤ 1 / 10 ^ 13 := by
    rw [← sq_abs]
    exact (pow_le_pow_left₀ (abs_nonneg X) hX 2).trans (by norm_num)
  have key : ∀ Z : ℝ, Z ^ 2 = Y ^ 2 → 0 ≤ Z → |1 - Z| ≤ 1.02 / 10 ^ 7 := by
    intro Z hZ h0
    have h1 : |1 - Z| ≤ |1 - Z| * (1 + Z) := le_mul_of_one_le_right (abs_nonneg _) (by linarith)
    refine h1.trans ?_
    rw [← abs_of_nonneg (show 0 ≤ 1 + Z by linarith), ← abs_mul, show (1 - Z) * (1 + Z) = 1 - Z ^ 2 by ring, hZ, abs_le]
    have := abs_le.1 hq
    have := sq_nonneg X
    norm_num at *
    constructor <;> linarith
  refine ⟨fun h => key Y rfl h, fun h => ?_⟩
  have := key (-Y) (by ring) (by linarith)
  rwa [← abs_neg, show -(-1 - Y) = 1 - -Y by ring]

/-- The computed quarter and three quarters of a turn. -/
theorem quarter_turns : |Fp.div Fp.pi 2 - Real.pi / 2| ≤ 40 / 2 ^ 53 ∧
    |Fp.div (Fp.mul 3 Fp.pi) 2 - (Real.pi / 2 + Real.pi)| ≤ 40 / 2 ^ 53 ∧ |Fp.pi - Real.pi| ≤ 40 / 2 ^ 53 := by
  obtain ⟨p1, p2, p3⟩ := fpPi_bounds
  have p4 := abs_le.1 p3
  refine ⟨?_, ?_, p3.trans (by norm_num)⟩
  · have b : |Fp.pi / 2| ≤ 2 := by rw [abs_le]; norm_num at *; constructor <;> linarith
    have e := abs_le.1 (rnd_error_bound b)
    change _ ≤ Fp.div Fp.pi 2 - _ ∧ Fp.div Fp.pi 2 - _ ≤ _ at e
    rw [abs_le]
    norm_num at *
    constructor <;> linarith
  · have b : |3 * Fp.pi| ≤ 9.5 := by rw [abs_le]; norm_num at *; constructor <;> linarith
    have e := abs_le.1 (rnd_error_bound b)
    have b' := abs_le.1 b
    change _ ≤ Fp.mul 3 Fp.pi - _ ∧ Fp.mul 3 Fp.pi - _ ≤ _ at e
    generalize Fp.mul 3 Fp.pi = T at *
    have c : |T / 2| ≤ 5 := by rw [abs_le]; norm_num at *; constructor <;> linarith
    have e2 := abs_le.1 (rnd_error_bound c)
    change _ ≤ Fp.div T 2 - _ ∧ Fp.div T 2 - _ ≤ _ at e2
    rw [abs_le]
    norm_num at *
    constructor <;> linarith

/-- The computed arc tangent. -/
theorem atan_error (x y a b : ℝ) :
    |Fp.atan (Fp.div (Fp.mul y (Fp.div a b)) x) - Real.arctan (y / b / (x / a))| ≤ 6 / 2 ^ 53 := by
  have e1 : Err 3 (Fp.div (Fp.mul y (Fp.div a b)) x) (y * (a / b) * x⁻¹) (|y| * |a / b| * |x⁻¹|) := by
    have := (((Err.refl y).mul (Err.refl (a / b)).rnd).rnd.mul (Err.refl x⁻¹)).rnd
    exact this
  have e2 := e1.1
  rw [← abs_mul, ← abs_mul, show y * (a / b) * x⁻¹ = y / b / (x / a) by
    rw [div_div_eq_mul_div]; simp only [div_eq_mul_inv]; ring] at e2
  have r3 : rho ^ 3 - 1 ≤ 3.01 / 2 ^ 53 := (rho_pow_sub_one_le (by norm_num)).trans (by norm_num)
  have e3 := arctan_rel (by norm_num) (by norm_num) (e2.trans (mul_le_mul_of_nonneg_right r3 (abs_nonneg _)))
  generalize Fp.div (Fp.mul y (Fp.div a b)) x = w at *
  have b1 : |Real.arctan w| ≤ 1.6 := by
    have h1 := Real.neg_pi_div_two_lt_arctan w
    have h2 := Real.arctan_lt_pi_div_two w
    have p2 := Real.pi_lt_d4
    rw [abs_le]
    norm_num at *
    constructor <;> linarith
  have e4 := rnd_error_bound b1
  change |Fp.atan w - _| ≤ _ at e4
  have e5 := abs_sub_le (Fp.atan w) (Real.arctan w) (Real.arctan (y / b / (x / a)))
  norm_num at *
  linarith

theorem scaled_small {x a : ℝ} (ha : 0 < a) (h : |x| < Fp.mul a Fp.confusion) : |x / a| ≤ 1.01 / 10 ^ 7 := by
  have c := confusion_bounds.2
  have c0 : 0 ≤ Fp.confusion := rnd_nonneg (by positivity)
  have e := rnd_error_num (a * Fp.confusion)
  rw [abs_of_nonneg (mul_nonneg ha.le c0)] at e
  have e2 := (abs_le.1 e).2
  change Fp.mul a Fp.confusion - _ ≤ _ at e2
  have m := mul_le_mul_of_nonneg_left c ha.le
  rw [abs_div, abs_of_pos ha, div_le_iff₀ ha]
  norm_num at *
  linarith

/-- The computed angle of a point, in terms of its computed coordinates. -/
theorem angle_of_coordinates {d : Elliptical} {p : V3} {check : Bool} {t : ℝ} (ha : 0 < d.majLen) (hb : 0 < d.minLen)
    (h : Fp.ellipseAngle d p check = .val t) (hc : Fp.ellipseContainsDefault d p false) :
    |Real.cos t - Fp.scalarProduct (Fp.vectorBetween d.center p) d.major / d.majLen| ≤ 1.04 / 10 ^ 7 ∧
      |Real.sin t - Fp.scalarProduct (Fp.vectorBetween d.center p) d.minor / d.minLen| ≤ 1.04 / 10 ^ 7 := by
  have hq := on_ellipse ha hb hc
  obtain ⟨t1, t2, t3⟩ := quarter_turns
  obtain ⟨p1, p2, p3⟩ := fpPi_bounds
  obtain ⟨q1, q2, q3⟩ := two_fpPi_bounds
  unfold Fp.ellipseAngle at h
  simp only at h
  generalize Fp.scalarProduct (Fp.vectorBetween d.center p) d.major = x at *
  generalize Fp.scalarProduct (Fp.vectorBetween d.center p) d.minor = y at *
  have at1 := atan_error x y d.majLen d.minLen
  have ab : |Fp.atan (Fp.div (Fp.mul y (Fp.div d.majLen d.minLen)) x)| ≤ 1.58 :=
    abs_le.2 ⟨by have := (fpAtan_bounds (Fp.div (Fp.mul y (Fp.div d.majLen d.minLen)) x)).1; linarith,
      (fpAtan_bounds _).2.1⟩
  generalize Fp.atan (Fp.div (Fp.mul y (Fp.div d.majLen d.minLen)) x) = A at *
  have hxs : x / d.majLen = 0 ↔ x = 0 := by simp [ha.ne']
  have ys : (0 ≤ y → 0 ≤ y / d.minLen) ∧ (y < 0 → y / d.minLen ≤ 0) :=
    ⟨fun h => div_nonneg h hb.le, fun h => div_nonpos_of_nonpos_of_nonneg h.le hb.le⟩
  have xs : (0 ≤ x → 0 ≤ x / d.majLen) ∧ (x < 0 → x / d.majLen < 0) :=
    ⟨fun h => div_nonneg h ha.le, fun h => div_neg_of_neg_of_pos h ha⟩
  split_ifs at h with h0 h1 h2 h3 h4 h5 h6 h7
  all_goals first | (cases h; done) | cases h
  · have hX := scaled_small ha h1
    refine trig_close t2 ?_ ?_
    · rw [Real.cos_add_pi, Real.cos_pi_div_two, neg_zero, zero_sub, abs_neg]
      exact hX.trans (by norm_num)
    · rw [Real.sin_add_pi, Real.sin_pi_div_two]
      exact ((near_one hq hX).2 (ys.2 h2)).trans (by norm_num)
  · have hX := scaled_small ha h1
    refine trig_close t1 ?_ ?_
    · rw [Real.cos_pi_div_two, zero_sub, abs_neg]
      exact hX.trans (by norm_num)
    · rw [Real.sin_pi_div_two]
      exact ((near_one hq hX).1 (ys.1 (not_lt.1 h2))).trans (by norm_num)
  · have hY := scaled_small hb h3
    rw [add_comm] at hq
    refine trig_close t3 ?_ ?_
    · rw [Real.cos_pi]
      exact ((near_one hq hY).2 (xs.2 h4).le).trans (by norm_num)
    · rw [Real.sin_pi, zero_sub, abs_neg]
      exact hY.trans (by norm_num)
  · have hY := scaled_small hb h3
    rw [add_comm] at hq
    refine trig_close (θ := 0) (by norm_num) ?_ ?_
    · rw [Real.cos_zero]
      exact ((near_one hq hY).1 (xs.1 (not_lt.1 h4))).trans (by norm_num)
    · rw [Real.sin_zero, zero_sub, abs_neg]
      exact hY.trans (by norm_num)
  · push Not at h5 h6
    obtain ⟨u1, u2⟩ := (polar_close (by rw [Ne, hxs]; exact h5.2) hq).1
      (lt_of_le_of_ne (xs.1 h6.2) (by rw [ne_comm, Ne, hxs]; exact h5.2))
    exact trig_close (at1.trans (by norm_num)) (u1.trans (by norm_num)) (u2.trans (by norm_num))
  · push Not at h5
    obtain ⟨u1, u2⟩ := (polar_close (by rw [Ne, hxs]; exact h5.2) hq).1
      (lt_of_le_of_ne (xs.1 (not_lt.1 h7.2)) (by rw [ne_comm, Ne, hxs]; exact h5.2))
    rw [← Real.cos_add_two_pi] at u1
    rw [← Real.sin_add_two_pi] at u2
    refine trig_close ?_ (u1.trans (by norm_num)) (u2.trans (by norm_num))
    have ab' := abs_le.1 ab
    have b : |Fp.mul 2 Fp.pi + A| ≤ 8 := by rw [abs_le]; norm_num at *; constructor <;> linarith
    have e := abs_le.1 (rnd_error_bound b)
    change _ ≤ Fp.add (Fp.mul 2 Fp.pi) A - _ ∧ Fp.add (Fp.mul 2 Fp.pi) A - _ ≤ _ at e
    have at2 := abs_le.1 at1
    have q4 := abs_le.1 q3
    rw [abs_le]
    norm_num at *
    constructor <;> linarith
  · push Not at h5
    have hx : x < 0 := by
      by_contra hx
      by_cases hy : y < 0
      · exact h7 ⟨hy, hx⟩
      · exact h6 ⟨hy, hx⟩
    obtain ⟨u1, u2⟩ := (polar_close (by rw [Ne, hxs]; exact h5.2) hq).2 (xs.2 hx)
    rw [← Real.cos_add_pi] at u1
    rw [← Real.sin_add_pi] at u2
    refine trig_close ?_ (u1.trans (by norm_num)) (u2.trans (by norm_num))
    have ab' := abs_le.1 ab
    have b : |Fp.pi + A| ≤ 5 := by rw [abs_le]; norm_num at *; constructor <;> linarith
    have e := abs_le.1 (rnd_error_bound b)
    change _ ≤ Fp.add Fp.pi A - _ ∧ Fp.add Fp.pi A - _ ≤ _ at e
    have at2 := abs_le.1 at1
    have q4 := abs_le.1 p3
    rw [abs_le]
    norm_num at *
    constructor <;> linarith

/-- **Accuracy of the angles.**  The angle that an ellipse computes for a point that it contains is the one of a point of the
ellipse whose coordinates along both axes differ from the ones of the given point by no more than the tolerance 1.1·10⁻⁷ times
the axis length and a rounding error. -/
theorem C165_angle (d : Elliptical) (p : V3) (check : Bool) (t : ℝ) (hu : |norm d.major - 1| ≤ 1 / 2 ^ 49)
    (hv : |norm d.minor - 1| ≤ 1 / 2 ^ 49) (ha : 0 < d.majLen) (hb : 0 < d.minLen)
    (h : Fp.ellipseAngle d p check = .val t) (hc : check = false → Fp.ellipseContainsDefault d p false) :
    |d.majLen * Real.cos t - ((p.x - d.center.x) * d.major.x + (p.y - d.center.y) * d.major.y
        + (p.z - d.center.z) * d.major.z)| ≤ 1.1 / 10 ^ 7 * d.majLen + 1 / 2 ^ 50 * Spec.dist d.center p ∧
    |d.minLen * Real.sin t - ((p.x - d.center.x) * d.minor.x + (p.y - d.center.y) * d.minor.y
        + (p.z - d.center.z) * d.minor.z)| ≤ 1.1 / 10 ^ 7 * d.minLen + 1 / 2 ^ 50 * Spec.dist d.center p := by
  have hc' : Fp.ellipseContainsDefault d p false := by
    cases check
    · exact hc rfl
    · unfold Fp.ellipseAngle at h
      split_ifs at h with h0
      have h1 : Fp.ellipseContainsDefault d p := by
        by_contra hn
        exact h0 ⟨rfl, hn⟩
      exact ⟨nofun, h1.2⟩
  obtain ⟨k1, k2⟩ := angle_of_coordinates ha hb h hc'
  rw [norm_eq_len] at hu hv
  have key : ∀ (n : V3) (a c : ℝ), |n.len - 1| ≤ 1 / 2 ^ 49 → 0 < a →
      |c - Fp.scalarProduct (Fp.vectorBetween d.center p) n / a| ≤ 1.04 / 10 ^ 7 →
      |a * c - ((p.x - d.center.x) * n.x + (p.y - d.center.y) * n.y + (p.z - d.center.z) * n.z)|
        ≤ 1.1 / 10 ^ 7 * a + 1 / 2 ^ 50 * Spec.dist d.center p := by
    intro n a c hn ha k
    have h4 := (err_between_dot d.center p n).1
    have hd : Spec.dist d.center p = (p - d.center).len := by rw [dist_eq_len, V3.len_sub_comm]
    rw [hd]
    have v0 := V3.len_nonneg (p - d.center)
    have r4 : (rho ^ 4 - 1) * (n.len * (p - d.center).len) ≤ 5 / 2 ^ 53 * (p - d.center).len := by
      have r4 : rho ^ 4 - 1 ≤ 4.01 / 2 ^ 53 := (rho_pow_sub_one_le (by norm_num)).trans (by norm_num)
      have n2 := (abs_le.1 hn).2
      have : n.len * (p - d.center).len ≤ 1.001 * (p - d.center).len :=
        mul_le_mul_of_nonneg_right (by norm_num at n2 ⊢; linarith) v0
      calc _ ≤ 4.01 / 2 ^ 53 * (1.001 * (p - d.center).len) :=
            mul_le_mul r4 this (mul_nonneg (V3.len_nonneg _) v0) (by positivity)
        _ ≤ _ := by
          rw [← mul_assoc]
          exact mul_le_mul_of_nonneg_right (by norm_num) v0
    have h5 := h4.trans r4
    change |Fp.scalarProduct (Fp.vectorBetween d.center p) n
      - ((p.x - d.center.x) * n.x + (p.y - d.center.y) * n.y + (p.z - d.center.z) * n.z)| ≤ _ at h5
    generalize Fp.scalarProduct (Fp.vectorBetween d.center p) n = s at *
    have k' : |a * c - s| ≤ 1.04 / 10 ^ 7 * a := by
      rw [show a * c - s = (c - s / a) * a by field_simp, abs_mul, abs_of_pos ha]
      exact mul_le_mul_of_nonneg_right k ha.le
    refine (abs_sub_le _ s _).trans ((add_le_add k' h5).trans ?_)
    norm_num
    linarith
  exact ⟨key _ _ _ hu ha k1, key _ _ _ hv hb k2⟩

/-- An example: the computed angle of (0, 1, 0) on the unit circle around the origin. -/
example : |Real.cos (Fp.div Fp.pi 2)| ≤ 1.2 / 10 ^ 7 ∧ |Real.sin (Fp.div Fp.pi 2) - 1| ≤ 1.2 / 10 ^ 7 := by
  have n1 : ∀ v : V3, v.x ^ 2 + v.y ^ 2 + v.z ^ 2 = 1 → |Spec.norm v - 1| ≤ 1 / 2 ^ 49 := by
    intro v h
    rw [Spec.norm, h, Real.sqrt_one, sub_self, abs_zero]
    positivity
  obtain ⟨h1, h2⟩ := C165_angle arcExample ⟨0, 1, 0⟩ true _ (n1 _ (by norm_num [arcExample]))
    (n1 _ (by norm_num [arcExample])) zero_lt_one zero_lt_one arcExample_angles.2 nofun
  have hd : Spec.dist arcExample.center ⟨0, 1, 0⟩ = 1 := by
    rw [Spec.dist]
    simp [arcExample]
  rw [hd] at h1 h2
  simp only [arcExample] at h1 h2
  norm_num at h1 h2 ⊢
  exact ⟨h1.trans (by norm_num), h2.trans (by norm_num)⟩

/-- **Parameters.**  The parameter of a point is in [0, 1] and, up to 2⁻⁴⁸, the angle divided by 2π. -/
theorem C165_param (d : Elliptical) (p : V3) (check : Bool) (r : ℝ) (ha : 0 ≤ d.majLen) (hb : 0 ≤ d.minLen)
    (h : Fp.ellipseParam d p check = .val r) :
    0 ≤ r ∧ r ≤ 1 ∧ ∃ t, Fp.ellipseAngle d p check = .val t ∧ |2 * Real.pi * r - t| ≤ 1 / 2 ^ 48 := by
  unfold Fp.ellipseParam at h
  cases ht : Fp.ellipseAngle d p check with
  | val t =>
    rw [ht] at h
    cases h
    obtain ⟨-, r1, r2⟩ := C165_range d p check t ha hb ht
    obtain ⟨q1, q2, q3⟩ := two_fpPi_bounds
    have T0 : 0 < Fp.mul 2 Fp.pi := by linarith
    have d0 : 0 ≤ t / Fp.mul 2 Fp.pi := div_nonneg r1 T0.le
    have d1 : t / Fp.mul 2 Fp.pi ≤ 1 := (div_le_one T0).2 r2
    refine ⟨rnd_nonneg d0, ?_, t, rfl, ?_⟩
    · have := rnd_mono d1
      rwa [rnd_one] at this
    · have e := rnd_error_bound (x := t / Fp.mul 2 Fp.pi) (m := 1) (by rwa [abs_of_nonneg d0])
      change |Fp.div t (Fp.mul 2 Fp.pi) - _| ≤ _ at e
      have k : t = Fp.mul 2 Fp.pi * (t / Fp.mul 2 Fp.pi) := by field_simp
      generalize Fp.div t (Fp.mul 2 Fp.pi) = r at *
      generalize t / Fp.mul 2 Fp.pi = s at *
      generalize Fp.mul 2 Fp.pi = T at *
      have p0 := Real.pi_pos
      have p2 := Real.pi_lt_d4
      rw [show 2 * Real.pi * r - t = 2 * Real.pi * (r - s) + (2 * Real.pi - T) * s by rw [k]; ring]
      have k1 : |2 * Real.pi * (r - s)| ≤ 2 * 3.1416 * (1 / 2 ^ 53 * 1) := by
        rw [abs_mul, abs_of_pos (by linarith)]
        exact mul_le_mul (by linarith) e (abs_nonneg _) (by norm_num)
      have k2 : |(2 * Real.pi - T) * s| ≤ 16 / 2 ^ 53 := by
        rw [abs_mul, abs_sub_comm, abs_of_nonneg d0]
        exact (mul_le_of_le_one_right (abs_nonneg _) d1).trans q3
      refine (abs_add_le _ _).trans ((add_le_add k1 k2).trans ?_)
      norm_num
  | thrown _ => rw [ht] at h; cases h
  | nan => rw [ht] at h; cases h
  | ub => rw [ht] at h; cases h

/-- An example: the point (1, 0, 0) of the unit circle around the origin has the parameter 0. -/
example : ∃ r, Fp.ellipseParam arcExample ⟨1, 0, 0⟩ = .val r ∧ |2 * Real.pi * r| ≤ 1 / 2 ^ 48 := by
  have h : Fp.ellipseParam arcExample ⟨1, 0, 0⟩ = .val (Fp.div 0 (Fp.mul 2 Fp.pi)) := by
    unfold Fp.ellipseParam
    rw [arcExample_angles.1]
    rfl
  obtain ⟨-, -, t, ht, h3⟩ := C165_param _ _ _ _ zero_le_one zero_le_one h
  rw [arcExample_angles.1] at ht
  cases ht
  rw [sub_zero] at h3
  exact ⟨_, h, h3⟩

/-- **Points that are not on the ellipse.**  The angle and the construction of an arc raise an exception, and an arc does not
contain the point. -/
theorem C165_rejects (d : Elliptical) (p q : V3) (arc : EllipseArc) (eps : ℝ) :
    (¬ Fp.ellipseContainsDefault d p → Fp.ellipseAngle d p = .thrown "Point not on ellipse!" ∧
      Fp.ellipseParam d p = .thrown "Point not on ellipse!" ∧ Fp.arcMake d p q = .thrown "Point not on ellipse!") ∧
    (¬ Fp.ellipseContains arc.ellipse p eps → Fp.arcContains arc p eps = .val False) ∧
    (¬ Fp.ellipseContains arc.ellipse p Fp.angular → Fp.arcContainsDefault arc p = .val False) := by
  refine ⟨fun h => ?_, fun h => ?_, fun h => ?_⟩
  · have h1 : Fp.ellipseAngle d p = .thrown "Point not on ellipse!" := by
      unfold Fp.ellipseAngle
      rw [if_pos ⟨rfl, h⟩]
    refine ⟨h1, ?_, ?_⟩
    · unfold Fp.ellipseParam
      rw [h1]
      rfl
    · unfold Fp.arcMake
      simp only
      split_ifs <;> rw [h1] <;> rfl
  · unfold Fp.arcContains
    rw [if_pos ⟨rfl, h⟩]
  · unfold Fp.arcContainsDefault Fp.arcContains
    rw [if_pos ⟨rfl, h⟩]

/-- An example: the point (1, 0, 1) and the unit circle around the origin. -/
example : Fp.ellipseAngle arcExample ⟨1, 0, 1⟩ = .thrown "Point not on ellipse!" := by
  refine ((C165_rejects arcExample ⟨1, 0, 1⟩ 0 ⟨arcExample, 0, 0, 0, 0, True⟩ 0).1 ?_).1
  rintro ⟨h, -⟩
  have h' := h rfl
  have c := confusion_bounds.2
  norm_num at c
  simp [Fp.planeContains, Fp.supportingPlane, arcExample, Fp.scalarProduct, Fp.vectorBetween, Fp.mul, Fp.add, Fp.sub,
    rnd_zero, rnd_one] at h'
  linarith

/-- **Containment in arcs.**  For points on the ellipse, the computed angle is compared with the two angles of the arc: with
a tolerance of at most one, the arc contains all points between the angles, from the source in the direction of the minor
axis, and only points whose distance from them is, up to 2⁻⁵⁰, at most the tolerance. -/
theorem C165_contains (arc : EllipseArc) (p : V3) (eps : ℝ) (check : Bool) (t : ℝ) (he : 0 ≤ eps) (he' : eps ≤ 1)
    (ha : 0 ≤ arc.ellipse.majLen) (hb : 0 ≤ arc.ellipse.minLen)
    (hs : 0 ≤ arc.sourceAngle ∧ arc.sourceAngle ≤ Fp.mul 2 Fp.pi)
    (ht : 0 ≤ arc.targetAngle ∧ arc.targetAngle ≤ Fp.mul 2 Fp.pi)
    (hc : check = true → Fp.ellipseContains arc.ellipse p eps) (h : Fp.ellipseAngle arc.ellipse p check = .val t) :
    ∃ r, Fp.arcContains arc p eps check = .val r ∧
      ((arc.sourceAngle ≤ arc.targetAngle → arc.sourceAngle ≤ t ∧ t ≤ arc.targetAngle) →
        (arc.targetAngle < arc.sourceAngle → arc.sourceAngle ≤ t ∨ t ≤ arc.targetAngle) → r) ∧
      (r → (arc.sourceAngle ≤ arc.targetAngle →
          arc.sourceAngle ≤ t + eps + 1 / 2 ^ 50 ∧ t ≤ arc.targetAngle + eps + 1 / 2 ^ 50) ∧
        (arc.targetAngle < arc.sourceAngle →
          arc.sourceAngle ≤ t + eps + 1 / 2 ^ 50 ∨ t ≤ arc.targetAngle + eps + 1 / 2 ^ 50)) := by
  obtain ⟨t1, -, -⟩ := C165_range _ _ _ _ ha hb h
  obtain ⟨-, q2, -⟩ := two_fpPi_bounds
  obtain ⟨s0, s1⟩ := hs
  obtain ⟨u0, u1⟩ := ht
  have lo : arc.sourceAngle ≤ t → t ≥ Fp.sub arc.sourceAngle eps := by
    intro hst
    have := rnd_mono (show arc.sourceAngle - eps ≤ t by linarith)
    rw [t1] at this
    exact this
  have hi : t ≤ arc.targetAngle → t ≤ Fp.add arc.targetAngle eps := by
    intro hst
    have := rnd_mono (show t ≤ arc.targetAngle + eps by linarith)
    rw [t1] at this
    exact this
  have e1 := abs_le.1 (rnd_error_bound (x := arc.sourceAngle - eps) (m := 8) (by
    rw [abs_le]; norm_num at *; constructor <;> linarith))
  have e2 := abs_le.1 (rnd_error_bound (x := arc.targetAngle + eps) (m := 8) (by
    rw [abs_le]; norm_num at *; constructor <;> linarith))
  change _ ≤ Fp.sub arc.sourceAngle eps - _ ∧ Fp.sub arc.sourceAngle eps - _ ≤ _ at e1
  change _ ≤ Fp.add arc.targetAngle eps - _ ∧ Fp.add arc.targetAngle eps - _ ≤ _ at e2
  have lo' : t ≥ Fp.sub arc.sourceAngle eps → arc.sourceAngle ≤ t + eps + 1 / 2 ^ 50 := by
    intro hst
    norm_num at *
    linarith
  have hi' : t ≤ Fp.add arc.targetAngle eps → t ≤ arc.targetAngle + eps + 1 / 2 ^ 50 := by
    intro hst
    norm_num at *
    linarith
  unfold Fp.arcContains
  rw [if_neg (by rintro ⟨c1, c2⟩; exact c2 (hc c1)), h]
  refine ⟨_, rfl, fun k1 k2 => ?_, fun hr => ⟨fun hle => ?_, fun hlt => ?_⟩⟩
  · split_ifs with hst
    · exact (k2 hst).imp lo hi
    · exact (k1 (not_lt.1 hst)).imp lo hi
  · rw [if_neg (not_lt.2 hle)] at hr
    exact hr.imp lo' hi'
  · rw [if_pos hlt] at hr
    exact hr.imp lo' hi'

/-- An example: a quarter of the unit circle around the origin, and an arc that does not contain the point (1, 0, 0). -/
example : (∃ r, Fp.arcContains ⟨arcExample, 0, 0, 0, 1, False⟩ ⟨1, 0, 0⟩ 0 false = .val r ∧ r) ∧
    ∃ r, Fp.arcContains ⟨arcExample, 0, 0, 1, 2, False⟩ ⟨1, 0, 0⟩ 0 false = .val r ∧ ¬ r := by
  obtain ⟨q1, -, -⟩ := two_fpPi_bounds
  have ha := ellipseAngle_unchecked arcExample_angles.1 false
  constructor
  · obtain ⟨r, h1, h2, -⟩ := C165_contains ⟨arcExample, 0, 0, 0, 1, False⟩ ⟨1, 0, 0⟩ 0 false 0 le_rfl zero_le_one
      zero_le_one zero_le_one ⟨le_rfl, by simp only; linarith⟩ ⟨zero_le_one, by norm_num at *; linarith⟩ nofun ha
    exact ⟨r, h1, h2 (fun _ => ⟨le_rfl, zero_le_one⟩) (fun h => by norm_num at h)⟩
  · obtain ⟨r, h1, -, h2⟩ := C165_contains ⟨arcExample, 0, 0, 1, 2, False⟩ ⟨1, 0, 0⟩ 0 false 0 le_rfl zero_le_one
      zero_le_one zero_le_one ⟨zero_le_one, by norm_num at *; linarith⟩ ⟨zero_le_two, by norm_num at *; linarith⟩ nofun ha
    refine ⟨r, h1, fun hr => ?_⟩
    have := ((h2 hr).1 (by norm_num)).1
    norm_num at this

/-- Coordinates of a point close to a point of the ellipse. -/
theorem coordinate_close {c u v P q : V3} {α β a b δ ε : ℝ} (hu : |u.len - 1| ≤ 1 / 2 ^ 49) (huv : |u.dot v| ≤ 1 / 2 ^ 49)
    (hα : |α| ≤ a) (hβ : |β| ≤ b) (hP : Spec.dist (c + α • u + β • v) P ≤ δ)
    (hq : |α - ((q.x - c.x) * u.x + (q.y - c.y) * u.y + (q.z - c.z) * u.z)| ≤ ε) :
    |(P.x - q.x) * u.x + (P.y - q.y) * u.y + (P.z - q.z) * u.z| ≤ 1.001 * δ + (2.01 * a + b) / 2 ^ 49 + ε := by
  have u2 := abs_le.1 hu
  have ub : u.len ≤ 1.001 := by norm_num at *; linarith
  have hδ : 0 ≤ δ := (Real.sqrt_nonneg _).trans hP
  have k1 : |(P - (c + α • u + β • v)).dot u| ≤ 1.001 * δ := by
    refine (V3.abs_dot_le _ _).trans ?_
    rw [Spec.dist_comm, dist_eq_len] at hP
    rw [mul_comm 1.001 δ]
    exact mul_le_mul hP ub (V3.len_nonneg _) hδ
  have k2 : |α * (u.dot u - 1)| ≤ a * (2.01 / 2 ^ 49) := by
    rw [abs_mul]
    refine mul_le_mul hα ?_ (abs_nonneg _) ((abs_nonneg _).trans hα)
    have : u.dot u = u.len * u.len := (V3.len_mul_self u).symm
    rw [this, show u.len * u.len - 1 = (u.len - 1) * (u.len + 1) by ring, abs_mul]
    have h2 : |u.len + 1| ≤ 2.001 := by
      rw [abs_of_nonneg (by linarith [V3.len_nonneg u])]
      linarith
    exact (mul_le_mul hu h2 (abs_nonneg _) (by norm_num)).trans (by norm_num)
  have k3 : |β * u.dot v| ≤ b * (1 / 2 ^ 49) := by
    rw [abs_mul]
    exact mul_le_mul hβ huv (abs_nonneg _) ((abs_nonneg _).trans hβ)
  have k4 : (P.x - q.x) * u.x + (P.y - q.y) * u.y + (P.z - q.z) * u.z
      = (P - (c + α • u + β • v)).dot u + (α * (u.dot u - 1) + (β * u.dot v
        + (α - ((q.x - c.x) * u.x + (q.y - c.y) * u.y + (q.z - c.z) * u.z)))) := by
    simp [V3.dot]
    ring
  rw [k4]
  refine (abs_add_le _ _).trans ((add_le_add k1 ((abs_add_le _ _).trans (add_le_add k2 ((abs_add_le _ _).trans
    (add_le_add k3 hq))))).trans ?_)
  linarith

/-- **The ends of an arc are the points it was made of.**  For an arc on an ellipse with axes that are orthonormal up to 2⁻⁴⁹,
the points for the parameters 0 and, unless it is a full ellipse, 1 have the coordinates of the source and the target along
both axes, up to 1.1·10⁻⁷ times the axis length and rounding errors. -/
theorem C165_source_and_target (d : Elliptical) (p q : V3) (arc : EllipseArc) (hu : |norm d.major - 1| ≤ 1 / 2 ^ 49)
    (hv : |norm d.minor - 1| ≤ 1 / 2 ^ 49)
    (huv : |d.major.x * d.minor.x + d.major.y * d.minor.y + d.major.z * d.minor.z| ≤ 1 / 2 ^ 49)
    (ha : 0 < d.majLen) (hb : 0 < d.minLen) (h : Fp.arcMake d p q = .val arc) :
    ∀ t s, (t = 0 ∧ s = p) ∨ (t = 1 ∧ s = q ∧ ¬ arc.isFullEllipse) →
      |((Fp.arcGetPoint arc t).x - s.x) * d.major.x + ((Fp.arcGetPoint arc t).y - s.y) * d.major.y
          + ((Fp.arcGetPoint arc t).z - s.z) * d.major.z|
        ≤ 1.1 / 10 ^ 7 * d.majLen + 1 / 2 ^ 46 * (norm d.center + d.majLen + d.minLen + Spec.dist d.center s) ∧
      |((Fp.arcGetPoint arc t).x - s.x) * d.minor.x + ((Fp.arcGetPoint arc t).y - s.y) * d.minor.y
          + ((Fp.arcGetPoint arc t).z - s.z) * d.minor.z|
        ≤ 1.1 / 10 ^ 7 * d.minLen + 1 / 2 ^ 46 * (norm d.center + d.majLen + d.minLen + Spec.dist d.center s) := by
  obtain ⟨h1, -, -, h2, h3, h4, h5, -⟩ := C165_construction d p q arc ha.le hb.le h
  subst h1
  obtain ⟨e1, e2⟩ := C165_ends arc hu hv ha.le hb.le h3 h4
  have key : ∀ t s θ, Fp.ellipseAngle arc.ellipse s = .val θ →
      Spec.dist (arc.ellipse.center + (arc.ellipse.majLen * Real.cos θ) • arc.ellipse.major
        + (arc.ellipse.minLen * Real.sin θ) • arc.ellipse.minor) (Fp.arcGetPoint arc t)
        ≤ 1 / 2 ^ 47 * (norm arc.ellipse.center + arc.ellipse.majLen + arc.ellipse.minLen) →
      |((Fp.arcGetPoint arc t).x - s.x) * arc.ellipse.major.x + ((Fp.arcGetPoint arc t).y - s.y) * arc.ellipse.major.y
          + ((Fp.arcGetPoint arc t).z - s.z) * arc.ellipse.major.z|
        ≤ 1.1 / 10 ^ 7 * arc.ellipse.majLen + 1 / 2 ^ 46 * (norm arc.ellipse.center + arc.ellipse.majLen
          + arc.ellipse.minLen + Spec.dist arc.ellipse.center s) ∧
      |((Fp.arcGetPoint arc t).x - s.x) * arc.ellipse.minor.x + ((Fp.arcGetPoint arc t).y - s.y) * arc.ellipse.minor.y
          + ((Fp.arcGetPoint arc t).z - s.z) * arc.ellipse.minor.z|
        ≤ 1.1 / 10 ^ 7 * arc.ellipse.minLen + 1 / 2 ^ 46 * (norm arc.ellipse.center + arc.ellipse.majLen
          + arc.ellipse.minLen + Spec.dist arc.ellipse.center s) := by
    intro t s θ hθ hP
    obtain ⟨a1, a2⟩ := C165_angle _ s true θ hu hv ha hb hθ nofun
    rw [norm_eq_len] at hu hv
    have D0 : 0 ≤ Spec.dist arc.ellipse.center s := Real.sqrt_nonneg _
    have c0 : 0 ≤ norm arc.ellipse.center := Real.sqrt_nonneg _
    have bc : |arc.ellipse.majLen * Real.cos θ| ≤ arc.ellipse.majLen := by
      rw [abs_mul, abs_of_pos ha]
      exact mul_le_of_le_one_right ha.le (Real.abs_cos_le_one θ)
    have bs : |arc.ellipse.minLen * Real.sin θ| ≤ arc.ellipse.minLen := by
      rw [abs_mul, abs_of_pos hb]
      exact mul_le_of_le_one_right hb.le (Real.abs_sin_le_one θ)
    have f1 := coordinate_close hu huv bc bs hP a1
    have hP' : arc.ellipse.center + (arc.ellipse.majLen * Real.cos θ) • arc.ellipse.major
        + (arc.ellipse.minLen * Real.sin θ) • arc.ellipse.minor = arc.ellipse.center
        + (arc.ellipse.minLen * Real.sin θ) • arc.ellipse.minor + (arc.ellipse.majLen * Real.cos θ) • arc.ellipse.major := by
      ext <;> simp <;> ring
    rw [hP'] at hP
    have f2 := coordinate_close hv (by rw [V3.dot_comm]; exact huv) bs bc hP a2
    generalize norm arc.ellipse.center = C at *
    generalize Spec.dist arc.ellipse.center s = D at *
    generalize arc.ellipse.majLen = a at *
    generalize arc.ellipse.minLen = b at *
    refine ⟨f1.trans ?_, f2.trans ?_⟩
    · norm_num
      linarith
    · norm_num
      linarith
  rintro t s (⟨rfl, rfl⟩ | ⟨rfl, rfl, hf⟩)
  · exact key _ _ _ h2 e1
  · exact key _ _ _ (h5 hf) e2

/-- An example: the end of a quarter of the unit circle from (1, 0, 0) to (0, 1, 0). -/
example : ∃ arc, Fp.arcMake arcExample ⟨1, 0, 0⟩ ⟨0, 1, 0⟩ = .val arc ∧ |(Fp.arcGetPoint arc 1).x| ≤ 1.2 / 10 ^ 7 ∧
    |(Fp.arcGetPoint arc 1).y - 1| ≤ 1.2 / 10 ^ 7 := by
  have n1 : ∀ v : V3, v.x ^ 2 + v.y ^ 2 + v.z ^ 2 = 1 → |Spec.norm v - 1| ≤ 1 / 2 ^ 49 := by
    intro v h
    rw [Spec.norm, h, Real.sqrt_one, sub_self, abs_zero]
    positivity
  obtain ⟨h1, h2⟩ := C165_source_and_target arcExample _ _ _ (n1 _ (by norm_num [arcExample]))
    (n1 _ (by norm_num [arcExample])) (by norm_num [arcExample]) zero_lt_one zero_lt_one arcExample_make 1 _
    (.inr ⟨rfl, rfl, fun h => h⟩)
  have hd : Spec.dist arcExample.center ⟨0, 1, 0⟩ = 1 := by
    rw [Spec.dist]
    simp [arcExample]
  have hc : Spec.norm arcExample.center = 0 := by
    rw [Spec.norm]
    simp [arcExample]
  rw [hd, hc] at h1 h2
  refine ⟨_, arcExample_make, ?_⟩
  generalize Fp.arcGetPoint _ 1 = P at *
  simp only [arcExample] at h1 h2
  norm_num at h1 h2 ⊢
  exact ⟨h1.trans (by norm_num), h2.trans (by norm_num)⟩

end Props
