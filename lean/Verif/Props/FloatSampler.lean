import Verif.Model.Float.Sampler
import Verif.Props.FloatBox
import Verif.Props.Cylinder

/-!
# C108 Sampled points in double precision
-/

namespace Props
open Verif Frackit Spec

/-- A number that a generator of random numbers may return. -/
def Canonical (u : ℝ) : Prop := IsDouble u ∧ 0 ≤ u ∧ u < 1

/-- Positive numbers of type `double` have a significand of exactly 53 bits. -/
theorem double_rep {x : ℝ} (h : IsDouble x) (h0 : 0 < x) :
    ∃ m e : ℤ, 2 ^ 52 ≤ m ∧ m ≤ 2 ^ 53 - 1 ∧ x = m * 2 ^ e := by
  obtain ⟨h1, h2⟩ := ulp_bounds h0.ne'
  rw [abs_of_pos h0] at h1 h2
  have hr := rnd_of_isDouble h
  have hp : (0 : ℝ) < 2 ^ Fp.ulpExponent x := by positivity
  unfold Fp.rnd at hr
  set k := Fp.nearestEven (x / 2 ^ Fp.ulpExponent x)
  have h1' : (2 : ℝ) ^ 52 ≤ k := le_of_mul_le_mul_right (h1.trans_eq hr.symm) hp
  have h2' : (k : ℝ) < 2 ^ 53 := lt_of_mul_lt_mul_right (hr.trans_lt h2) hp.le
  refine ⟨k, Fp.ulpExponent x, by exact_mod_cast h1', ?_, hr.symm⟩
  have : k < 2 ^ 53 := by exact_mod_cast h2'
  omega

theorem double_of_rep {m e : ℤ} (h0 : 0 ≤ m) (h1 : m ≤ 2 ^ 53) : IsDouble (m * 2 ^ e : ℝ) :=
  ⟨m, e, by rw [abs_of_nonneg h0]; exact h1, rfl⟩

/-- Rounding of numbers that are close to a number of type `double`. -/
theorem rnd_near {x : ℝ} {m e : ℤ} (h2 : m ≤ 2 ^ 53 - 1) (hx : (m - 1 / 2 : ℝ) * 2 ^ e < x)
    (hx' : x < (m + 1 / 2) * 2 ^ e) (hlow : (2 : ℝ) ^ 52 * 2 ^ e ≤ x) : Fp.rnd x = m * 2 ^ e := by
  have hp : (0 : ℝ) < 2 ^ e := by positivity
  have h0 : 0 < x := lt_of_lt_of_le (by positivity) hlow
  have h2' : (m : ℝ) ≤ 2 ^ 53 - 1 := by exact_mod_cast h2
  refine rnd_eq e m ?_ ?_ ?_
  · rw [abs_of_pos h0]
    exact hlow
  · rw [abs_of_pos h0]
    refine hx'.trans_le (mul_le_mul_of_nonneg_right ?_ hp.le)
    norm_num at h2' ⊢
    linarith
  · rw [abs_lt]
    constructor
    · have : (m : ℝ) - 1 / 2 < x / 2 ^ e := by rwa [lt_div_iff₀ hp]
      linarith
    · have : x / 2 ^ e < (m : ℝ) + 1 / 2 := by rwa [div_lt_iff₀ hp]
      linarith

/-- The product with a number less than one is rounded to a number that does not exceed the exact difference. -/
theorem mul_le_difference {u d : ℝ} (hu : Canonical u) (hd : 0 ≤ d) : Fp.mul u (Fp.rnd d) ≤ d := by
  rcases hd.eq_or_lt with rfl | hd
  · unfold Fp.mul
    rw [rnd_zero, mul_zero, rnd_zero]
  have hu1 := double_lt_one hu.1 hu.2.2
  have hw := rnd_pos hd
  have hx : u * Fp.rnd d ≤ (1 - 1 / 2 ^ 53) * Fp.rnd d := mul_le_mul_of_nonneg_right hu1 hw.le
  unfold Fp.mul
  rcases le_or_gt (Fp.rnd d) d with hle | hlt
  · refine le_trans (rnd_le_of_le (isDouble_rnd d) (hx.trans ?_)) hle
    have : (1 - 1 / 2 ^ 53) * Fp.rnd d ≤ 1 * Fp.rnd d := mul_le_mul_of_nonneg_right (by norm_num) hw.le
    linarith
  obtain ⟨m, e, hm1, hm2, hwe⟩ := double_rep (isDouble_rnd d) hw
  have hp : (0 : ℝ) < 2 ^ e := by positivity
  rw [hwe] at hx hlt
  have hm1' : (2 : ℝ) ^ 52 ≤ m := by exact_mod_cast hm1
  rcases hm1.eq_or_lt with heq | hgt
  · -- power of two
    have hpred : IsDouble (((2 ^ 53 - 1 : ℤ) : ℝ) * 2 ^ (e - 1)) := double_of_rep (by norm_num) (by norm_num)
    have hm : (m : ℝ) = 2 ^ 52 := by rw [← heq]; norm_num
    have hh : (2 : ℝ) ^ (e - 1) = 2 ^ e / 2 := by rw [zpow_sub_one₀ (by norm_num)]; ring
    have e1 : (1 - 1 / 2 ^ 53) * ((m : ℝ) * 2 ^ e) = ((2 ^ 53 - 1 : ℤ) : ℝ) * 2 ^ (e - 1) := by
      rw [hm, hh]; push_cast; ring
    rw [e1] at hx
    rw [hwe]
    refine le_trans (rnd_le_of_le hpred hx) ?_
    by_contra hn
    push Not at hn
    have := rnd_le_of_le hpred hn.le
    rw [hwe, hm, hh] at this
    push_cast at this
    norm_num at this
    nlinarith
  · have hpred : IsDouble (((m - 1 : ℤ) : ℝ) * 2 ^ e) := double_of_rep (by omega) (by omega)
    have hgt' : (2 : ℝ) ^ 52 < m := by exact_mod_cast hgt
    have hx2 : u * (m * 2 ^ e) < (((m - 1 : ℤ) : ℝ) + 1 / 2) * 2 ^ e := by
      refine hx.trans_lt ?_
      rw [← mul_assoc]
      refine mul_lt_mul_of_pos_right ?_ hp
      push_cast
      norm_num at hgt' ⊢
      linarith
    rw [hwe]
    have key : Fp.rnd (u * (m * 2 ^ e)) ≤ ((m - 1 : ℤ) : ℝ) * 2 ^ e := by
      rcases le_or_gt (u * (m * 2 ^ e)) (((m - 1 : ℤ) : ℝ) * 2 ^ e) with h | h
      · exact rnd_le_of_le hpred h
      · refine le_of_eq (rnd_near (by omega) ?_ hx2 ?_)
        · refine lt_trans (mul_lt_mul_of_pos_right ?_ hp) h
          linarith
        · refine le_trans (mul_le_mul_of_nonneg_right ?_ hp.le) h.le
          have : (2 : ℤ) ^ 52 ≤ m - 1 := by omega
          exact_mod_cast this
    refine key.trans ?_
    by_contra hn
    push Not at hn
    have := rnd_le_of_le hpred hn.le
    rw [hwe] at this
    have := le_of_mul_le_mul_right this hp
    push_cast at this
    linarith

/-- The numbers returned by a uniform distribution are in the interval, without any tolerance. -/
theorem C108_interval (u a b : ℝ) (hu : Canonical u) (ha : IsDouble a) (hb : IsDouble b) (hab : a ≤ b) :
    a ≤ Fp.uniform u a b ∧ Fp.uniform u a b ≤ b ∧ IsDouble (Fp.uniform u a b) := by
  have hw : 0 ≤ Fp.sub b a := rnd_nonneg (by linarith)
  have h0 : 0 ≤ Fp.mul u (Fp.sub b a) := rnd_nonneg (mul_nonneg hu.2.1 hw)
  have h1 : Fp.mul u (Fp.sub b a) ≤ b - a := mul_le_difference hu (by linarith)
  refine ⟨le_rnd_of_le ha (by linarith), rnd_le_of_le hb (by linarith), isDouble_rnd _⟩

theorem canonical_half : Canonical 0.5 := by
  refine ⟨?_, by norm_num, by norm_num⟩
  have := double_half (a := 1) (by exact_mod_cast isDouble_int (m := 1) (by norm_num))
  rwa [mul_one] at this

example : 0 ≤ Fp.uniform 0.5 0 3 ∧ Fp.uniform 0.5 0 3 ≤ 3 := by
  have h := C108_interval 0.5 0 3 canonical_half (by exact_mod_cast isDouble_int (m := 0) (by norm_num))
    (by exact_mod_cast isDouble_int (m := 3) (by norm_num)) (by norm_num)
  exact ⟨h.1, h.2.1⟩

/-- Points sampled in a box are in the box, without any tolerance. -/
theorem C108_box (b : Box) (hb : OrderedBox b) (hd : DoubleBox b) (ux uy uz : ℝ) (hx : Canonical ux)
    (hy : Canonical uy) (hz : Canonical uz) : InBox (Box.lo b) (Box.hi b) (Fp.boxSample b ux uy uz) := by
  obtain ⟨ox, oy, oz⟩ := hb
  obtain ⟨⟨x1, y1, z1⟩, ⟨x2, y2, z2⟩⟩ := hd
  have cx := C108_interval ux b.xMin b.xMax hx x1 x2 ox
  have cy := C108_interval uy b.yMin b.yMax hy y1 y2 oy
  have cz := C108_interval uz b.zMin b.zMax hz z1 z2 oz
  exact ⟨cx.1, cx.2.1, cy.1, cy.2.1, cz.1, cz.2.1⟩

example : InBox (Box.lo farBox) (Box.hi farBox) (Fp.boxSample farBox 0.5 0.5 0) :=
  C108_box _ ordered_farBox double_farBox _ _ _ canonical_half canonical_half
    ⟨by exact_mod_cast isDouble_int (m := 0) (by norm_num), le_rfl, one_pos⟩

/-! ### Cylinders -/

/-- The square root of the rounded square of a number is the number. -/
theorem sqrt_square {r : ℝ} (h : IsDouble r) (h0 : 0 ≤ r) : Fp.sqrt (Fp.mul r r) = r := by
  unfold Fp.sqrt Fp.mul
  rcases h0.eq_or_lt with rfl | h0
  · rw [mul_zero, rnd_zero, Real.sqrt_zero, rnd_zero]
  obtain ⟨m, e, hm1, hm2, he⟩ := double_rep h h0
  have hp : (0 : ℝ) < 2 ^ e := by positivity
  have hm1' : (2 : ℝ) ^ 52 ≤ m := by exact_mod_cast hm1
  have hm2' : (m : ℝ) ≤ 2 ^ 53 - 1 := by exact_mod_cast hm2
  have herr := abs_le.1 (rnd_error_num (r * r))
  rw [abs_of_pos (mul_pos h0 h0)] at herr
  -- bounds of the square root
  have hup : √(Fp.rnd (r * r)) ≤ r * (1 + 1 / 2 ^ 54) := by
    refine Real.sqrt_le_iff.2 ⟨by positivity, ?_⟩
    have : (r * (1 + 1 / 2 ^ 54)) ^ 2 = r * r + 1 / 2 ^ 53 * (r * r) + 1 / 2 ^ 108 * (r * r) := by ring
    rw [this]
    have : 0 ≤ 1 / 2 ^ 108 * (r * r) := by positivity
    linarith [herr.2]
  rcases hm1.eq_or_lt with heq | hgt
  · have hd : IsDouble (r * r) := by
      refine ⟨1, 104 + 2 * e, by norm_num, ?_⟩
      rw [he, ← heq, zpow_add₀ (by norm_num), two_mul, zpow_add₀ (by norm_num)]
      norm_num
      ring
    rw [rnd_of_isDouble hd, Real.sqrt_mul_self h0.le, rnd_of_isDouble h]
  · have hlo : r * (1 - 1 / 2 ^ 54 - 1 / 2 ^ 107) ≤ √(Fp.rnd (r * r)) := by
      refine Real.le_sqrt_of_sq_le ?_
      have h2 : (r * (1 - 1 / 2 ^ 54 - 1 / 2 ^ 107)) ^ 2 = (r * r) * (1 - 1 / 2 ^ 54 - 1 / 2 ^ 107) ^ 2 := by ring
      have h3 : (r * r) * (1 - 1 / 2 ^ 54 - 1 / 2 ^ 107) ^ 2 ≤ (r * r) * (1 - 1 / 2 ^ 53) :=
        mul_le_mul_of_nonneg_left (by norm_num) (by positivity)
      rw [h2]
      linarith [herr.1]
    have hgt' : (2 : ℝ) ^ 52 + 1 ≤ m := by exact_mod_cast hgt
    conv_rhs => rw [he]
    refine rnd_near hm2 ?_ ?_ ?_
    · refine lt_of_lt_of_le ?_ hlo
      rw [he, mul_right_comm]
      refine mul_lt_mul_of_pos_right ?_ hp
      norm_num at hm2' ⊢
      linarith
    · refine hup.trans_lt ?_
      rw [he, mul_right_comm]
      refine mul_lt_mul_of_pos_right ?_ hp
      norm_num at hm2' ⊢
      linarith
    · refine le_trans ?_ hlo
      rw [he, mul_right_comm]
      refine mul_le_mul_of_nonneg_right ?_ hp.le
      norm_num at hgt' ⊢
      linarith

theorem sqrt_mono_fp {x y : ℝ} (h : x ≤ y) : Fp.sqrt x ≤ Fp.sqrt y := rnd_mono (Real.sqrt_le_sqrt h)

/-- The radius used by the sampler is between those of the hollow cylinder, without any tolerance. -/
theorem radius_bounds {u r1 r2 : ℝ} (hu : Canonical u) (h1 : IsDouble r1) (h2 : IsDouble r2) (h0 : 0 ≤ r1)
    (h : r1 ≤ r2) : r1 ≤ Fp.sqrt (Fp.uniform u (Fp.mul r1 r1) (Fp.mul r2 r2)) ∧
      Fp.sqrt (Fp.uniform u (Fp.mul r1 r1) (Fp.mul r2 r2)) ≤ r2 := by
  obtain ⟨a, b, _⟩ := C108_interval u (Fp.mul r1 r1) (Fp.mul r2 r2) hu (isDouble_rnd _) (isDouble_rnd _)
    (rnd_mono (mul_self_le_mul_self h0 h))
  have a' := sqrt_mono_fp a
  have b' := sqrt_mono_fp b
  rw [sqrt_square h1 h0] at a'
  rw [sqrt_square h2 (h0.trans h)] at b'
  exact ⟨a', b'⟩

/-- The error of a coordinate of a sampled point. -/
theorem coordinate_error (c a b n r φ h R H : ℝ) (hr0 : 0 ≤ r) (hr : r ≤ R) (hh0 : 0 ≤ h) (hh : h ≤ H) :
    |Fp.add (Fp.add (Fp.add c (Fp.mul a (Fp.mul r (Fp.cos φ)))) (Fp.mul b (Fp.mul r (Fp.sin φ)))) (Fp.mul n h)
      - (c + r * Real.cos φ * a + r * Real.sin φ * b + h * n)|
      ≤ 1 / 2 ^ 50 * (|c| + R * |a| + R * |b| + H * |n|) := by
  have trig : ∀ (t x : ℝ), |t| ≤ 1 → Err 3 (Fp.mul x (Fp.mul r (Fp.rnd t))) (x * (r * t)) (|x| * (R * 1)) := by
    intro t x ht
    have h1 : Err 1 (Fp.rnd t) t 1 := (Err.refl t).rnd.mono le_rfl ht
    have h2 : Err 0 r r R := (Err.refl r).mono le_rfl (by rwa [abs_of_nonneg hr0])
    exact ((Err.refl x).mul ((h2.mul h1).rnd)).rnd
  have e1 := trig _ a (Real.abs_cos_le_one φ)
  have e2 := trig _ b (Real.abs_sin_le_one φ)
  have e3 : Err 1 (Fp.mul n h) (n * h) (|n| * H) :=
    ((Err.refl n).mul ((Err.refl h).mono le_rfl (by rwa [abs_of_nonneg hh0]))).rnd
  have s1 := (((Err.refl c).mono (Nat.zero_le 3) le_rfl).add e1).rnd
  have s2 := (s1.add (e2.mono (by norm_num) le_rfl)).rnd
  have s3 := (s2.add (e3.mono (by norm_num) le_rfl)).rnd
  have key := s3.1
  have hk : rho ^ (3 + 1 + 1 + 1) - 1 ≤ 1 / 2 ^ 50 := by
    have := rho_pow_sub_one_le (k := 6) (by norm_num)
    refine this.trans ?_
    norm_num
  have hM := s3.nonneg
  have e : c + r * Real.cos φ * a + r * Real.sin φ * b + h * n
      = c + a * (r * Real.cos φ) + b * (r * Real.sin φ) + n * h := by ring
  rw [e]
  refine key.trans (le_trans (mul_le_mul_of_nonneg_right hk hM) (le_of_eq ?_))
  ring

/-- The distance of every coordinate, relative to the size of the geometry and its distance from the origin. -/
def CloseTo (c : V3) (size : ℝ) (p q : V3) : Prop :=
  |p.x - q.x| ≤ 1 / 2 ^ 50 * (|c.x| + size) ∧ |p.y - q.y| ≤ 1 / 2 ^ 50 * (|c.y| + size) ∧
    |p.z - q.z| ≤ 1 / 2 ^ 50 * (|c.z| + size)

theorem unit_coordinates {v : V3} (h : IsUnit v) : |v.x| ≤ 1 ∧ |v.y| ≤ 1 ∧ |v.z| ≤ 1 := by
  have h' : v.x ^ 2 + v.y ^ 2 + v.z ^ 2 = 1 := h
  refine ⟨?_, ?_, ?_⟩ <;> refine abs_le_one_iff_mul_self_le_one.2 ?_ <;>
    nlinarith [mul_self_nonneg v.x, mul_self_nonneg v.y, mul_self_nonneg v.z]

/-- Points of a hollow cylinder with an exactly orthonormal basis, for the values drawn for angle, height and radius. -/
theorem cylinderPoint_close (d : Elliptical) (φ h r2 R H : ℝ) (hf : RightHandedOrthonormal d.major d.minor d.normal)
    (hr : Fp.sqrt r2 ≤ R) (hh0 : 0 ≤ h) (hh : h ≤ H) :
    ∃ q, axial d.center d.normal q = h ∧ radial d.center d.normal q = Fp.sqrt r2 ∧
      CloseTo d.center (2 * R + H) (Fp.cylinderPoint d φ h r2) q := by
  have hr0 : 0 ≤ Fp.sqrt r2 := rnd_nonneg (Real.sqrt_nonneg _)
  obtain ⟨k1, k2⟩ := sample_coords hf φ h (Fp.sqrt r2 * Fp.sqrt r2) (mul_self_nonneg _)
  rw [Real.sqrt_mul_self hr0] at k1 k2
  refine ⟨_, k1, k2, ?_⟩
  have hR : 0 ≤ R := hr0.trans hr
  have hH : 0 ≤ H := hh0.trans hh
  have um := unit_coordinates hf.1
  have un := unit_coordinates hf.2.1
  have uk := unit_coordinates hf.2.2.1
  have bound : ∀ c a b n : ℝ, |a| ≤ 1 → |b| ≤ 1 → |n| ≤ 1 →
      1 / 2 ^ 50 * (|c| + R * |a| + R * |b| + H * |n|) ≤ 1 / 2 ^ 50 * (|c| + (2 * R + H)) := by
    intro c a b n ha hb hn
    refine mul_le_mul_of_nonneg_left ?_ (by positivity)
    nlinarith [mul_nonneg hR (sub_nonneg.2 ha), mul_nonneg hR (sub_nonneg.2 hb), mul_nonneg hH (sub_nonneg.2 hn)]
  exact ⟨(coordinate_error _ _ _ _ _ φ _ R H hr0 hr hh0 hh).trans (bound _ _ _ _ um.1 un.1 uk.1),
    (coordinate_error _ _ _ _ _ φ _ R H hr0 hr hh0 hh).trans (bound _ _ _ _ um.2.1 un.2.1 uk.2.1),
    (coordinate_error _ _ _ _ _ φ _ R H hr0 hr hh0 hh).trans (bound _ _ _ _ um.2.2 un.2.2 uk.2.2)⟩

theorem double_zero : IsDouble 0 := by exact_mod_cast isDouble_int (m := 0) (by norm_num)

/-- Points sampled in a hollow cylinder with an exactly orthonormal basis: up to 2⁻⁵⁰ of the size and of the distance
from the origin, the point is a point of the hollow cylinder. -/
theorem C108_hollow_cylinder (bottom : Elliptical) (r1 r2 height ur uphi uh : ℝ)
    (hf : RightHandedOrthonormal bottom.major bottom.minor bottom.normal) (h1 : IsDouble r1) (h2 : IsDouble r2)
    (hh : IsDouble height) (h0 : 0 ≤ r1) (h12 : r1 ≤ r2) (hh0 : 0 ≤ height) (hr : Canonical ur) (huh : Canonical uh) :
    ∃ q, InShell bottom.center bottom.normal r1 r2 height q ∧
      CloseTo bottom.center (2 * r2 + height) (Fp.hollowCylinderSample bottom r1 r2 height ur uphi uh) q := by
  obtain ⟨a, b⟩ := radius_bounds hr h1 h2 h0 h12
  obtain ⟨c, d, _⟩ := C108_interval uh 0 height huh double_zero hh hh0
  obtain ⟨q, q1, q2, q3⟩ := cylinderPoint_close bottom (Fp.uniform uphi 0 (Fp.mul 2 Fp.pi)) _ _ r2 height hf b c d
  exact ⟨q, ⟨by rw [q1]; exact c, by rw [q1]; exact d, by rw [q2]; exact a, by rw [q2]; exact b⟩, q3⟩

/-- Points sampled in a cylinder with an exactly orthonormal basis: up to 2⁻⁵⁰ of the size and of the distance from the
origin, the point is a point of the cylinder. -/
theorem C108_cylinder (bottom : Elliptical) (radius height ur uphi uh : ℝ)
    (hf : RightHandedOrthonormal bottom.major bottom.minor bottom.normal) (h1 : IsDouble radius) (hh : IsDouble height)
    (h0 : 0 ≤ radius) (hh0 : 0 ≤ height) (hr : Canonical ur) (huh : Canonical uh) :
    ∃ q, InCylinder bottom.center bottom.normal radius height q ∧
      CloseTo bottom.center (2 * radius + height) (Fp.cylinderSample bottom radius height ur uphi uh) q := by
  obtain ⟨q, ⟨q1, q2, _, q4⟩, q5⟩ := C108_hollow_cylinder bottom 0 radius height ur uphi uh hf double_zero h1 hh le_rfl
    h0 hh0 hr huh
  refine ⟨q, ⟨q1, q2, q4⟩, ?_⟩
  unfold Fp.hollowCylinderSample at q5
  have : Fp.mul 0 0 = 0 := by unfold Fp.mul; rw [mul_zero, rnd_zero]
  rw [this] at q5
  exact q5

example : ∃ q, InCylinder ⟨0, 0, 0⟩ ⟨0, 0, 1⟩ 3 2 q ∧
    CloseTo ⟨0, 0, 0⟩ (2 * 3 + 2) (Fp.cylinderSample unitCircle 3 2 0.5 0.5 0.5) q := by
  have h3 : IsDouble 3 := by exact_mod_cast isDouble_int (m := 3) (by norm_num)
  have h2 : IsDouble 2 := by exact_mod_cast isDouble_int (m := 2) (by norm_num)
  exact C108_cylinder unitCircle 3 2 0.5 0.5 0.5 unitCircle_valid.frame h3 h2 (by norm_num) (by norm_num)
    canonical_half canonical_half

example : ∃ q, InShell ⟨0, 0, 0⟩ ⟨0, 0, 1⟩ 2 3 2 q ∧
    CloseTo ⟨0, 0, 0⟩ (2 * 3 + 2) (Fp.hollowCylinderSample unitCircle 2 3 2 0.5 0.5 0.5) q := by
  have h3 : IsDouble 3 := by exact_mod_cast isDouble_int (m := 3) (by norm_num)
  have h2 : IsDouble 2 := by exact_mod_cast isDouble_int (m := 2) (by norm_num)
  exact C108_hollow_cylinder unitCircle 2 3 2 0.5 0.5 0.5 unitCircle_valid.frame h2 h3 h2 (by norm_num) (by norm_num)
    (by norm_num) canonical_half canonical_half

end Props
