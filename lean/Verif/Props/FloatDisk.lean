import Verif.Props.FloatCircle
import Verif.Props.FloatArea

/-!
# C154 Containment in disks in double precision
-/

namespace Props
open Verif Frackit Spec

/-- Area of a disk. -/
theorem C154_area (d : Elliptical) (ha : 0 ≤ d.majLen) (hb : 0 ≤ d.minLen) :
    |Fp.diskArea d - Real.pi * d.majLen * d.minLen| ≤ 1 / 2 ^ 51 * (Real.pi * d.majLen * d.minLen) := by
  have h1 : Close 1 Fp.pi Real.pi := close_rnd Real.pi_pos.le
  have h2 := ((h1.mul (Close.refl ha)).rnd.mul (Close.refl hb)).rnd.abs_sub_le
  refine h2.trans (mul_le_mul_of_nonneg_right ?_ (by have := Real.pi_pos; positivity))
  exact (rho_pow_sub_one_le (by norm_num)).trans (by norm_num)

theorem radius_tolerance : 1 ≤ Fp.add 1 (Fp.mul Fp.confusion Fp.confusion) ∧
    Fp.add 1 (Fp.mul Fp.confusion Fp.confusion) ≤ 1 + 1.03 / 10 ^ 14 := by
  obtain ⟨c1, c2⟩ := confusion_bounds
  have c0 : 0 ≤ Fp.confusion := le_trans (by norm_num) c1
  have q1 : 0.999 / 10 ^ 7 * (0.999 / 10 ^ 7) ≤ Fp.confusion * Fp.confusion := mul_le_mul c1 c1 (by norm_num) c0
  have q2 : Fp.confusion * Fp.confusion ≤ 1.001 / 10 ^ 7 * (1.001 / 10 ^ 7) := mul_le_mul c2 c2 c0 (by norm_num)
  obtain ⟨r1, r2⟩ := abs_le.1 (rnd_error_num (Fp.confusion * Fp.confusion))
  rw [abs_of_nonneg (mul_nonneg c0 c0)] at r1 r2
  have e1 : Fp.mul Fp.confusion Fp.confusion = Fp.rnd (Fp.confusion * Fp.confusion) := rfl
  rw [← e1] at r1 r2
  generalize Fp.mul Fp.confusion Fp.confusion = e at *
  have e0 : 0 ≤ 1 + e := by norm_num at *; linarith
  obtain ⟨s1, s2⟩ := abs_le.1 (rnd_error_num (1 + e))
  rw [abs_of_nonneg e0] at s1 s2
  have e2 : Fp.add 1 e = Fp.rnd (1 + e) := rfl
  rw [e2]
  norm_num at *
  constructor <;> linarith

/-- The sum of the squares of the coordinates of a point relative to the axes, divided by the axis lengths. -/
noncomputable def radialSquare (d : Elliptical) (p : V3) : ℝ :=
  (inner (p - d.center) d.major / d.majLen) ^ 2 + (inner (p - d.center) d.minor / d.minLen) ^ 2

theorem axisCoordinate_error {c p u : V3} {a m : ℝ} (hu : |u.len - 1| ≤ 1 / 2 ^ 49) (hm : 0 < m) (hma : m ≤ a) :
    |Fp.scalarProduct (Fp.vectorBetween c p) u / a - inner (p - c) u / a| ≤ 4.02 / 2 ^ 53 * (Spec.dist c p / m) := by
  have ha := hm.trans_le hma
  have h4 := (err_between_dot c p u).1
  rw [V3.len_sub_comm, ← dist_eq_len] at h4
  change |_ - inner (p - c) u| ≤ _ at h4
  have u3 := (abs_le.1 hu).2
  have uhi : u.len ≤ 1.001 := by norm_num at u3 ⊢; linarith
  have d0 : 0 ≤ Spec.dist c p := Real.sqrt_nonneg _
  have r4 : rho ^ 4 - 1 ≤ 4.01 / 2 ^ 53 := (rho_pow_sub_one_le (by norm_num)).trans (by norm_num)
  have h5 : (rho ^ 4 - 1) * (u.len * Spec.dist c p) ≤ 4.01 / 2 ^ 53 * (1.001 * Spec.dist c p) :=
    mul_le_mul r4 (mul_le_mul_of_nonneg_right uhi d0) (mul_nonneg (V3.len_nonneg _) d0) (by norm_num)
  rw [← sub_div, abs_div, abs_of_pos ha, div_le_iff₀ ha]
  have h6 : Spec.dist c p ≤ Spec.dist c p / m * a := by
    rw [div_mul_eq_mul_div, le_div_iff₀ hm]
    exact mul_le_mul_of_nonneg_left hma d0
  have h7 := h4.trans h5
  norm_num at *
  linarith

theorem square_error {X X' k : ℝ} (hX : |X| ≤ 1.1) (hk : k ≤ 10 ^ 6) (h : |X' - X| ≤ 4.02 / 2 ^ 53 * k) :
    |X' ^ 2 - X ^ 2| ≤ 9 / 2 ^ 53 * k := by
  have k0 : 0 ≤ k := by
    have := (abs_nonneg _).trans h
    norm_num at this
    linarith
  rw [show X' ^ 2 - X ^ 2 = (X' - X) * ((X' - X) + 2 * X) by ring, abs_mul]
  have h2 : |X' - X + 2 * X| ≤ 2.201 := by
    refine (abs_add_le _ _).trans ?_
    rw [abs_mul, abs_two]
    norm_num at *
    linarith
  refine (mul_le_mul h h2 (abs_nonneg _) (by positivity)).trans ?_
  norm_num
  linarith

/-- **Containment in disks.**  In double precision, a disk contains a point of its plane if it is in the disk by a margin
of 2⁻⁴⁸ (1 + distance from the centre / smallest axis length), and a point that it contains is in the disk up to such a
margin and 1.1e-14, and on the plane up to 1.01e-7. -/
theorem C154_contains_partial (d : Elliptical) (p : V3) (hu : |norm d.major - 1| ≤ 1 / 2 ^ 49) (hv : |norm d.minor - 1| ≤ 1 / 2 ^ 49)
    (hn : |norm d.normal - 1| ≤ 1 / 2 ^ 50) (ha : 0 < d.majLen) (hb : 0 < d.minLen)
    (hp : Spec.dist d.center p ≤ 10 ^ 6 * min d.majLen d.minLen) :
    (radialSquare d p + 1 / 2 ^ 48 * (1 + Spec.dist d.center p / min d.majLen d.minLen) ≤ 1 →
      Fp.diskContainsDefault d p false ∧
      ∀ q, OnPlane d.center d.normal q → Spec.dist p q + 1 / 2 ^ 50 * Spec.dist d.center p ≤ 0.99 / 10 ^ 7 →
        Fp.diskContainsDefault d p) ∧
    (∀ check, Fp.diskContainsDefault d p check →
      radialSquare d p ≤ 1 + 1.1 / 10 ^ 14 + 1 / 2 ^ 48 * (1 + Spec.dist d.center p / min d.majLen d.minLen)) ∧
    (Fp.diskContainsDefault d p → ∃ q, OnPlane d.center d.normal q ∧
      Spec.dist p q < 1.01 / 10 ^ 7 + 1 / 2 ^ 50 * Spec.dist d.center p) := by
  have hpl := C129_plane_contains (Fp.supportingPlane d) p hn
  rw [norm_eq_len] at hu hv
  have hm := lt_min ha hb
  have t := radius_tolerance
  have x1 := axisCoordinate_error (c := d.center) (p := p) hu hm (min_le_left d.majLen d.minLen)
  have y1 := axisCoordinate_error (c := d.center) (p := p) hv hm (min_le_right d.majLen d.minLen)
  have k1 : Spec.dist d.center p / min d.majLen d.minLen ≤ 10 ^ 6 := by rwa [div_le_iff₀ hm]
  have k0 : 0 ≤ Spec.dist d.center p / min d.majLen d.minLen := div_nonneg (Real.sqrt_nonneg _) hm.le
  have Q := (quotient_close (x := Fp.scalarProduct (Fp.vectorBetween d.center p) d.major)
    (y := Fp.scalarProduct (Fp.vectorBetween d.center p) d.minor) ha hb)
  have nz1 : Fp.mul d.majLen d.majLen ≠ 0 := (rnd_pos (mul_pos ha ha)).ne'
  have nz2 : Fp.mul d.minLen d.minLen ≠ 0 := (rnd_pos (mul_pos hb hb)).ne'
  have r4 : rho ^ 4 - 1 ≤ 4.01 / 2 ^ 53 := (rho_pow_sub_one_le (by norm_num)).trans (by norm_num)
  have hdef : ∀ check, Fp.diskContainsDefault d p check ↔
      (check = true → Fp.planeContainsDefault (Fp.supportingPlane d) p) ∧
      Fp.add (Fp.div (Fp.mul (Fp.scalarProduct (Fp.vectorBetween d.center p) d.major)
          (Fp.scalarProduct (Fp.vectorBetween d.center p) d.major)) (Fp.mul d.majLen d.majLen))
        (Fp.div (Fp.mul (Fp.scalarProduct (Fp.vectorBetween d.center p) d.minor)
          (Fp.scalarProduct (Fp.vectorBetween d.center p) d.minor)) (Fp.mul d.minLen d.minLen)) ≤
        Fp.add 1 (Fp.mul Fp.confusion Fp.confusion) := by
    intro check
    exact ⟨fun h => ⟨h.1, h.2.2.2⟩, fun h => ⟨h.1, nz1, nz2, h.2⟩⟩
  unfold radialSquare
  generalize Fp.scalarProduct (Fp.vectorBetween d.center p) d.major = x at *
  generalize Fp.scalarProduct (Fp.vectorBetween d.center p) d.minor = y at *
  generalize x / d.majLen = X' at *
  generalize y / d.minLen = Y' at *
  generalize inner (p - d.center) d.major / d.majLen = X at *
  generalize inner (p - d.center) d.minor / d.minLen = Y at *
  generalize Spec.dist d.center p / min d.majLen d.minLen = κ at *
  generalize Fp.add (Fp.div (Fp.mul x x) (Fp.mul d.majLen d.majLen))
      (Fp.div (Fp.mul y y) (Fp.mul d.minLen d.minLen)) = R at *
  generalize Fp.add 1 (Fp.mul Fp.confusion Fp.confusion) = T at *
  refine ⟨fun h => ?_, fun check h => ?_, fun h => hpl.2 (((hdef true).1 h).1 rfl)⟩
  · have hX : |X| ≤ 1.1 := by
      apply abs_le_of_sq_le_sq _ (by norm_num)
      nlinarith [sq_nonneg Y]
    have hY : |Y| ≤ 1.1 := by
      apply abs_le_of_sq_le_sq _ (by norm_num)
      nlinarith [sq_nonneg X]
    have s1 := (abs_le.1 (square_error hX k1 x1)).2
    have s2 := (abs_le.1 (square_error hY k1 y1)).2
    have s3 : X' ^ 2 + Y' ^ 2 ≤ 2 := by norm_num at *; linarith
    have q := (abs_le.1 (Q.abs_sub_le.trans (mul_le_mul r4 s3 Q.2.1 (by norm_num)))).2
    have hR : R ≤ T := by norm_num at *; linarith
    exact ⟨(hdef false).2 ⟨nofun, hR⟩, fun q' h1 h2 => (hdef true).2 ⟨fun _ => hpl.1 q' h1 h2, hR⟩⟩
  · have hR := ((hdef check).1 h).2
    have q := (abs_le.1 (Q.symm.abs_sub_le.trans (mul_le_mul r4 (show R ≤ 1.01 by norm_num at *; linarith) Q.1 (by norm_num)))).2
    have hS : X' ^ 2 + Y' ^ 2 ≤ 1.02 := by norm_num at *; linarith
    have hX : |X'| ≤ 1.1 := by
      apply abs_le_of_sq_le_sq _ (by norm_num)
      nlinarith [sq_nonneg Y']
    have hY : |Y'| ≤ 1.1 := by
      apply abs_le_of_sq_le_sq _ (by norm_num)
      nlinarith [sq_nonneg X']
    rw [abs_sub_comm] at x1 y1
    have s1 := (abs_le.1 (square_error hX k1 x1)).2
    have s2 := (abs_le.1 (square_error hY k1 y1)).2
    norm_num at *
    linarith

/-- Without the third argument the plane is checked. -/
theorem C154_default_check (d : Elliptical) (p : V3) (hn : |norm d.normal - 1| ≤ 1 / 2 ^ 50)
    (h : Fp.diskContains d p Fp.confusion) : Fp.diskContainsDefault d p ∧
      ∃ q, OnPlane d.center d.normal q ∧ Spec.dist p q < 1.01 / 10 ^ 7 + 1 / 2 ^ 50 * Spec.dist d.center p :=
  ⟨h, (C129_plane_contains (Fp.supportingPlane d) p hn).2 (h.1 rfl)⟩

/-- The supporting plane of a disk goes through the centre, is spanned by the given axes and has the normal of the
disk. -/
theorem C154_supporting_plane (c u v : V3) (a b : ℝ) (d : Elliptical) (h : Fp.ellipticalMake c u v a b = .val d) :
    (Fp.supportingPlane d).supp = c ∧ (Fp.supportingPlane d).base1 = u ∧ (Fp.supportingPlane d).base2 = v ∧
    Fp.mkDirection (Fp.crossProduct u v) = .val (Fp.supportingPlane d).normal := by
  unfold Fp.ellipticalMake at h
  obtain ⟨n, h1, h2⟩ := Outcome.bind_eq_val.1 h
  obtain rfl := Outcome.val.inj h2
  exact ⟨rfl, rfl, rfl, h1⟩

example : ∃ d, Fp.ellipticalMake 0 ⟨1, 0, 0⟩ ⟨0, 1, 0⟩ 2 1 = .val d ∧ (Fp.supportingPlane d).base1 = ⟨1, 0, 0⟩ := by
  have hz : Fp.crossProduct ⟨1, 0, 0⟩ ⟨0, 1, 0⟩ ≠ 0 := by
    intro h
    have h1 := congrArg V3.z h
    have r1 : Fp.rnd 1 = 1 := rnd_of_isDouble ⟨1, 0, by norm_num, by norm_num⟩
    simp [Fp.crossProduct, Fp.sub, Fp.mul, rnd_zero, r1] at h1
  obtain ⟨n, hn, -⟩ := C87_direction _ hz
  have hd : Fp.ellipticalMake 0 ⟨1, 0, 0⟩ ⟨0, 1, 0⟩ 2 1 = .val ⟨0, ⟨1, 0, 0⟩, ⟨0, 1, 0⟩, n, 2, 1⟩ := by
    unfold Fp.ellipticalMake
    rw [hn]
    rfl
  exact ⟨_, hd, (C154_supporting_plane _ _ _ _ _ _ hd).2.1⟩

/-- A disk contains its centre. -/
theorem C154_centre (d : Elliptical) (check : Bool) (ha : 0 < d.majLen) (hb : 0 < d.minLen) :
    Fp.diskContainsDefault d d.center check := by
  have z : ∀ w : V3, Fp.scalarProduct (Fp.vectorBetween d.center d.center) w = 0 := by
    intro w
    unfold Fp.scalarProduct Fp.vectorBetween Fp.sub Fp.mul Fp.add
    simp [rnd_zero]
  refine ⟨fun _ => ?_, (rnd_pos (mul_pos ha ha)).ne', (rnd_pos (mul_pos hb hb)).ne', ?_⟩
  · change |Fp.scalarProduct (Fp.vectorBetween d.center d.center) d.normal| < _
    rw [z, abs_zero]
    exact lt_of_lt_of_le (by norm_num) confusion_bounds.1
  · simp only [z]
    refine le_trans (le_of_eq ?_) (zero_le_one.trans radius_tolerance.1)
    unfold Fp.add Fp.div Fp.mul
    simp [rnd_zero]

example : ∃ q, OnPlane 0 ⟨0, 0, 1⟩ q ∧ Spec.dist 0 q < 1.01 / 10 ^ 7 + 1 / 2 ^ 50 * Spec.dist 0 0 :=
  (C154_default_check ⟨0, ⟨1, 0, 0⟩, ⟨0, 1, 0⟩, ⟨0, 0, 1⟩, 2, 1⟩ 0 (by rw [Spec.norm]; norm_num)
    (C154_centre _ true (by norm_num) (by norm_num))).2

/-- The full property: a disk contains the points of its boundary. -/
def C154_full : Prop := ∀ (c u v : V3) (a b t : ℝ), DoubleCoordinates c → DoubleCoordinates u → DoubleCoordinates v →
  IsDouble a → IsDouble b → IsDouble t → Spec.IsUnit u → Spec.IsUnit v → Orthogonal u v → 0 < b → b ≤ a →
  ∃ d, Fp.ellipticalMake c u v a b = .val d ∧ Fp.diskContainsDefault d (Fp.pointFromAngle d t)

theorem C154_disproof : ¬ C154_full := by
  intro h
  have d0 : IsDouble 0 := ⟨0, 0, by norm_num, by norm_num⟩
  have d1 : IsDouble 1 := ⟨1, 0, by norm_num, by norm_num⟩
  have dx : IsDouble (2 ^ 20 : ℝ) := ⟨1, 20, by norm_num, by norm_num⟩
  have dr : IsDouble (1 + 3 / 2 ^ 34 : ℝ) := ⟨2 ^ 34 + 3, -34, by norm_num, by norm_num⟩
  have ds : IsDouble (1 + 1 / 2 ^ 32 : ℝ) := ⟨2 ^ 32 + 1, -32, by norm_num, by norm_num⟩
  have dp : IsDouble (2 ^ 20 + (1 + 1 / 2 ^ 32) : ℝ) := ⟨2 ^ 52 + 2 ^ 32 + 1, -32, by norm_num, by norm_num⟩
  have r1 := rnd_of_isDouble d1
  have rr := rnd_of_isDouble dr
  have rs := rnd_of_isDouble ds
  have rp := rnd_of_isDouble dp
  have rc : Fp.rnd (2 ^ 20 + (1 + 3 / 2 ^ 34)) = 2 ^ 20 + (1 + 1 / 2 ^ 32) := by
    refine rnd_eq (-32) (2 ^ 52 + 2 ^ 32 + 1) ?_ ?_ ?_ |>.trans (by norm_num)
    · rw [abs_of_pos (by norm_num)]; norm_num
    · rw [abs_of_pos (by norm_num)]; norm_num
    · rw [abs_lt]; constructor <;> norm_num
  obtain ⟨d, hd, hc⟩ := h ⟨2 ^ 20, 0, 0⟩ ⟨1, 0, 0⟩ ⟨0, 1, 0⟩ (1 + 3 / 2 ^ 34) (1 + 3 / 2 ^ 34) 0 ⟨dx, d0, d0⟩ ⟨d1, d0, d0⟩
    ⟨d0, d1, d0⟩ dr dr d0 (by simp [Spec.IsUnit]) (by simp [Spec.IsUnit]) (by simp [Orthogonal, inner]) (by norm_num) le_rfl
  unfold Fp.ellipticalMake at hd
  obtain ⟨n, -, hd⟩ := Outcome.bind_eq_val.1 hd
  obtain rfl := Outcome.val.inj hd
  have hp : Fp.pointFromAngle ⟨⟨2 ^ 20, 0, 0⟩, ⟨1, 0, 0⟩, ⟨0, 1, 0⟩, n, 1 + 3 / 2 ^ 34, 1 + 3 / 2 ^ 34⟩ 0
      = ⟨2 ^ 20 + (1 + 1 / 2 ^ 32), 0, 0⟩ := by
    unfold Fp.pointFromAngle Fp.move Fp.scale Fp.mul Fp.add Fp.cos Fp.sin
    simp only [Real.cos_zero, Real.sin_zero, one_mul, mul_zero, zero_mul, add_zero, rnd_zero, r1, rr, rc, rp]
  rw [hp] at hc
  have hc := hc.2.2.2
  have hx : Fp.scalarProduct (Fp.vectorBetween ⟨2 ^ 20, 0, 0⟩ ⟨2 ^ 20 + (1 + 1 / 2 ^ 32), 0, 0⟩) ⟨1, 0, 0⟩ = 1 + 1 / 2 ^ 32 := by
    unfold Fp.scalarProduct Fp.vectorBetween Fp.sub Fp.mul Fp.add
    simp only [add_sub_cancel_left, sub_self, mul_one, mul_zero, zero_add, add_zero, rnd_zero, rs]
  have hy : Fp.scalarProduct (Fp.vectorBetween ⟨2 ^ 20, 0, 0⟩ ⟨2 ^ 20 + (1 + 1 / 2 ^ 32), 0, 0⟩) ⟨0, 1, 0⟩ = 0 := by
    unfold Fp.scalarProduct Fp.vectorBetween Fp.sub Fp.mul Fp.add
    simp only [sub_self, mul_zero, zero_mul, add_zero, rnd_zero]
  simp only [hx, hy] at hc
  have Q := (quotient_close (x := 1 + 1 / 2 ^ 32) (y := 0) (a := 1 + 3 / 2 ^ 34) (b := 1 + 3 / 2 ^ 34)
    (by norm_num) (by norm_num))
  have r4 : rho ^ 4 - 1 ≤ 4.01 / 2 ^ 53 := (rho_pow_sub_one_le (by norm_num)).trans (by norm_num)
  have t := radius_tolerance.2
  generalize Fp.add 1 (Fp.mul Fp.confusion Fp.confusion) = T at *
  have V : (1 + 1 / 10 ^ 11 : ℝ) ≤ ((1 + 1 / 2 ^ 32) / (1 + 3 / 2 ^ 34)) ^ 2 + (0 / (1 + 3 / 2 ^ 34)) ^ 2 := by norm_num
  generalize Fp.add _ _ = R at *
  have q := (abs_le.1 (Q.symm.abs_sub_le.trans (mul_le_mul r4 (show R ≤ 1.01 by norm_num at *; linarith) Q.1 (by norm_num)))).2
  norm_num at q V t hc
  linarith

/-- A disk with the radius one contains a point half-way between its centre and its boundary. -/
example : Fp.diskContainsDefault ⟨⟨1, 2, 3⟩, ⟨1, 0, 0⟩, ⟨0, 1, 0⟩, ⟨0, 0, 1⟩, 1, 1⟩ ⟨1.5, 2, 3⟩ := by
  have hd : Spec.dist ⟨1, 2, 3⟩ ⟨1.5, 2, 3⟩ = 0.5 := by
    unfold Spec.dist
    norm_num
    rw [show (4 : ℝ) = 2 ^ 2 by norm_num, Real.sqrt_sq (by norm_num)]
    norm_num
  have n1 : ∀ v : V3, v.x ^ 2 + v.y ^ 2 + v.z ^ 2 = 1 → ∀ k : ℕ, |Spec.norm v - 1| ≤ 1 / 2 ^ k := by
    intro v h k
    rw [Spec.norm, h, Real.sqrt_one, sub_self, abs_zero]
    positivity
  refine ((C154_contains_partial ⟨⟨1, 2, 3⟩, ⟨1, 0, 0⟩, ⟨0, 1, 0⟩, ⟨0, 0, 1⟩, 1, 1⟩ ⟨1.5, 2, 3⟩ (n1 _ (by norm_num) _)
    (n1 _ (by norm_num) _) (n1 _ (by norm_num) _) one_pos one_pos (by simp only [hd]; norm_num)).1 ?_).2 ⟨1.5, 2, 3⟩
    (by simp [OnPlane]) ?_
  · simp only [hd, radialSquare, inner]
    norm_num
  · simp only [hd]
    have : Spec.dist ⟨1.5, 2, 3⟩ ⟨1.5, 2, 3⟩ = 0 := by simp [Spec.dist]
    rw [this]
    norm_num

end Props
