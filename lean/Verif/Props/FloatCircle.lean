import Mathlib.Analysis.SpecialFunctions.Trigonometric.Bounds
import Verif.Model.Float.Elliptical
import Verif.Props.FloatSampler
import Verif.Props.FloatPlane
import Verif.Props.Plane

/-!
# C152 Circles and ellipses contain the points they compute in double precision
-/

namespace Props
open Verif Frackit Spec

/-- Axes and normal of an elliptical geometry that are orthonormal up to 2⁻⁴⁹. -/
structure NearlyOrthonormal (u v n : V3) : Prop where
  u1 : |norm u - 1| ≤ 1 / 2 ^ 49
  v1 : |norm v - 1| ≤ 1 / 2 ^ 49
  n1 : |norm n - 1| ≤ 1 / 2 ^ 49
  uv : |u.x * v.x + u.y * v.y + u.z * v.z| ≤ 1 / 2 ^ 49
  un : |u.x * n.x + u.y * n.y + u.z * n.z| ≤ 1 / 2 ^ 49
  vn : |v.x * n.x + v.y * n.y + v.z * n.z| ≤ 1 / 2 ^ 49

theorem fpDirection_of_ne {v : V3} (h : v ≠ 0) : ∃ n, Fp.mkDirection v = .val n := by
  obtain ⟨n, hn, -⟩ := C87_direction v h
  exact ⟨n, hn⟩

/-- The direction of the computed cross product of two vectors that are orthonormal up to 2⁻⁴⁹. -/
theorem direction_of_cross {u v : V3} (u1 : |u.len - 1| ≤ 1 / 2 ^ 49) (v1 : |v.len - 1| ≤ 1 / 2 ^ 49)
    (uv : |u.dot v| ≤ 1 / 2 ^ 49) : ∃ n, Fp.mkDirection (Fp.crossProduct u v) = .val n ∧ |n.len - 1| ≤ 1 / 2 ^ 50 ∧
      |n.dot u| ≤ 1 / 2 ^ 49 ∧ |n.dot v| ≤ 1 / 2 ^ 49 := by
  have he := crossProduct_error (u := u) (b := v) (Err.refl u.x) (Err.refl u.y) (Err.refl u.z) (Err.refl v.x)
    (Err.refl v.y) (Err.refl v.z)
  have hr : rho ^ (0 + 0 + 2) - 1 ≤ 2.001 / 2 ^ 53 := (rho_pow_sub_one_le (by norm_num)).trans (by norm_num)
  obtain ⟨u2, u3⟩ := abs_le.1 u1
  obtain ⟨v2, v3⟩ := abs_le.1 v1
  have ua : 0.9999 ≤ u.len := by norm_num at u2 ⊢; linarith
  have ub : u.len ≤ 1.0001 := by norm_num at u3 ⊢; linarith
  have va : 0.9999 ≤ v.len := by norm_num at v2 ⊢; linarith
  have vb : v.len ≤ 1.0001 := by norm_num at v3 ⊢; linarith
  have hp : u.len * v.len ≤ 1.0001 * 1.0001 := mul_le_mul ub vb (by linarith) (by norm_num)
  have hd : (Fp.crossProduct u v - u.cross v).len ≤ 4.01 / 2 ^ 53 := by
    refine he.trans ((mul_le_mul hr (mul_le_mul_of_nonneg_left hp (by norm_num))
      (by have := V3.len_nonneg u; have := V3.len_nonneg v; positivity) (by norm_num)).trans (by norm_num))
  have hs := sq_cross u v
  have hc : 0.9995 ≤ (u.cross v).len := by
    have h1 : 0.9999 * 0.9999 ≤ u.len * u.len := mul_le_mul ua ua (by norm_num) (by linarith)
    have h2 : 0.9999 * 0.9999 ≤ v.len * v.len := mul_le_mul va va (by norm_num) (by linarith)
    have h3 : (0.9999 * 0.9999) * (0.9999 * 0.9999) ≤ u.len * u.len * (v.len * v.len) :=
      mul_le_mul h1 h2 (by norm_num) (by positivity)
    have h4 : u.dot v * u.dot v ≤ 1 / 2 ^ 49 * (1 / 2 ^ 49) := by
      rw [← abs_mul_abs_self]
      exact mul_le_mul uv uv (abs_nonneg _) (by positivity)
    by_contra hn
    push Not at hn
    have h5 := mul_self_lt_mul_self (V3.len_nonneg _) hn
    rw [hs] at h5
    norm_num at h3 h4 h5
    linarith
  have hL : 0.999 ≤ (Fp.crossProduct u v).len := by
    have := (abs_le.1 (abs_len_sub_le (Fp.crossProduct u v) (u.cross v))).1
    norm_num at hd hc ⊢
    linarith
  have hne : Fp.crossProduct u v ≠ 0 := V3.len_pos.1 (by linarith)
  obtain ⟨n, hn⟩ := fpDirection_of_ne hne
  have hk : ∀ a : V3, a.len ≤ 1.0001 → (1 / 2 ^ 50 + 4.01 / 2 ^ 53 / 0.999) * a.len ≤ 1 / 2 ^ 49 := fun a ha =>
    (mul_le_mul_of_nonneg_left ha (by norm_num)).trans (by norm_num)
  exact ⟨n, hn, (len_direction hn hne).2,
    (normal_dot hd (by norm_num) hL (cross_dot_left u v) hn).trans (hk u ub),
    (normal_dot hd (by norm_num) hL (cross_dot_right u v) hn).trans (hk v vb)⟩

theorem nearlyOrthonormal_of {u v n : V3} (hu : |u.len - 1| ≤ 1 / 2 ^ 49) (hv : |v.len - 1| ≤ 1 / 2 ^ 49)
    (hn : |n.len - 1| ≤ 1 / 2 ^ 49) (huv : |u.dot v| ≤ 1 / 2 ^ 49) (hun : |n.dot u| ≤ 1 / 2 ^ 49)
    (hvn : |n.dot v| ≤ 1 / 2 ^ 49) : NearlyOrthonormal u v n := by
  rw [V3.dot_comm] at hun hvn
  exact ⟨by rwa [norm_eq_len], by rwa [norm_eq_len], by rwa [norm_eq_len], huv, hun, hvn⟩

/-- **Ellipses.**  If the given axes are orthonormal up to 2⁻⁴⁹, then so are axes and computed normal. -/
theorem C152_ellipse_axes (c u v : V3) (a b : ℝ) (hu : |norm u - 1| ≤ 1 / 2 ^ 49) (hv : |norm v - 1| ≤ 1 / 2 ^ 49)
    (huv : |u.x * v.x + u.y * v.y + u.z * v.z| ≤ 1 / 2 ^ 49) :
    ∃ d, Fp.ellipticalMake c u v a b = .val d ∧ d.center = c ∧ d.major = u ∧ d.minor = v ∧ d.majLen = a ∧ d.minLen = b ∧
      NearlyOrthonormal u v d.normal := by
  rw [norm_eq_len] at hu hv
  obtain ⟨n, hn, n1, n2, n3⟩ := direction_of_cross hu hv huv
  refine ⟨⟨c, u, v, n, a, b⟩, ?_, rfl, rfl, rfl, rfl, rfl, ?_⟩
  · unfold Fp.ellipticalMake
    rw [hn]
    rfl
  · exact nearlyOrthonormal_of hu hv (n1.trans (by norm_num)) huv n2 n3

/-- **Circles.**  The axes and the normal of a circle with a computed normal direction are orthonormal up to 2⁻⁴⁹. -/
theorem C152_circle_axes (c n : V3) (r : ℝ) (hn : |norm n - 1| ≤ 1 / 2 ^ 50) :
    ∃ k, Fp.circleMake c n r = .val k ∧ k.center = c ∧ k.majLen = r ∧ k.minLen = r ∧
      NearlyOrthonormal k.major k.minor k.normal := by
  rw [norm_eq_len] at hn
  have hw := makeOrthogonalVector_ne_zero n
  obtain ⟨u, hu⟩ := fpDirection_of_ne hw
  obtain ⟨u0, u1⟩ := len_direction hu hw
  have n3 := (abs_le.1 hn).2
  have nu : |n.dot u| ≤ 1 / 2 ^ 49 := by
    have e : n.dot u = n.dot (u - (makeOrthogonalVector n).len⁻¹ • makeOrthogonalVector n) := by
      rw [V3.dot_sub, V3.dot_smul, makeOrthogonalVector_orthogonal, mul_zero, sub_zero]
    rw [e]
    refine (V3.abs_dot_le _ _).trans ((mul_le_mul (show n.len ≤ 2 by norm_num at n3; linarith) u0 (V3.len_nonneg _)
      (by norm_num)).trans (by norm_num))
  obtain ⟨v, hv, v1, -, vu⟩ := direction_of_cross (hn.trans (by norm_num)) (u1.trans (by norm_num)) nu
  have u1' := u1.trans (show (1 : ℝ) / 2 ^ 50 ≤ 1 / 2 ^ 49 by norm_num)
  have v1' := v1.trans (show (1 : ℝ) / 2 ^ 50 ≤ 1 / 2 ^ 49 by norm_num)
  rw [V3.dot_comm] at vu
  obtain ⟨m, hm, m1, m2, m3⟩ := direction_of_cross u1' v1' vu
  refine ⟨⟨c, u, v, m, r, r⟩, ?_, rfl, rfl, rfl, nearlyOrthonormal_of u1' v1' (m1.trans (by norm_num)) vu m2 m3⟩
  unfold Fp.circleMake Fp.ellipticalMake
  rw [hu]
  change (Fp.mkDirection (Fp.crossProduct n u)).bind _ = _
  rw [hv]
  change (Fp.mkDirection (Fp.crossProduct u v)).bind _ = _
  rw [hm]
  rfl

/-! ### The computed points -/

/-- The point of the ellipse for an angle, without roundings. -/
noncomputable def idealOffset (d : Elliptical) (t : ℝ) : V3 :=
  (d.majLen * Real.cos t) • d.major + (d.minLen * Real.sin t) • d.minor

theorem pointFromAngle_coordinate (c a b u v t : ℝ) (ha : 0 ≤ a) (hb : 0 ≤ b) :
    |Fp.add (Fp.add c (Fp.mul u (Fp.mul (Fp.cos t) a))) (Fp.mul v (Fp.mul (Fp.sin t) b))
      - (c + (a * Real.cos t * u + b * Real.sin t * v))| ≤ (rho ^ 5 - 1) * (|c| + (a * |u| + b * |v|)) := by
  have trig : ∀ (s x l : ℝ), 0 ≤ l → |s| ≤ 1 → Err 3 (Fp.mul x (Fp.mul (Fp.rnd s) l)) (x * (s * l)) (|x| * (1 * l)) := by
    intro s x l hl hs
    have h1 : Err 1 (Fp.rnd s) s 1 := (Err.refl s).rnd.mono le_rfl hs
    have h2 : Err 0 l l l := (Err.refl l).mono le_rfl (by rw [abs_of_nonneg hl])
    exact ((Err.refl x).mul ((h1.mul h2).rnd)).rnd
  have e1 := trig _ u a ha (Real.abs_cos_le_one t)
  have e2 := trig _ v b hb (Real.abs_sin_le_one t)
  have s1 := (((Err.refl c).mono (Nat.zero_le 3) le_rfl).add e1).rnd
  have s2 := (s1.add (e2.mono (by norm_num) le_rfl)).rnd
  have key := s2.1
  rw [show c + (a * Real.cos t * u + b * Real.sin t * v) = c + u * (Real.cos t * a) + v * (Real.sin t * b) by ring]
  refine key.trans (le_of_eq ?_)
  ring

theorem pointFromAngle_error (d : Elliptical) (t : ℝ) (ha : 0 ≤ d.majLen) (hb : 0 ≤ d.minLen) :
    ((Fp.pointFromAngle d t - d.center) - idealOffset d t).len
      ≤ (rho ^ 5 - 1) * (d.center.len + (d.majLen * d.major.len + d.minLen * d.minor.len)) := by
  have c0 : 0 ≤ rho ^ 5 - 1 := by linarith [one_le_rho_pow 5]
  have h := len_sub_le_of (a := Fp.pointFromAngle d t) (b := d.center + idealOffset d t)
    (m := absV d.center + (d.majLen • absV d.major + d.minLen • absV d.minor)) c0
    (pointFromAngle_coordinate d.center.x d.majLen d.minLen d.major.x d.minor.x t ha hb)
    (pointFromAngle_coordinate d.center.y d.majLen d.minLen d.major.y d.minor.y t ha hb)
    (pointFromAngle_coordinate d.center.z d.majLen d.minLen d.major.z d.minor.z t ha hb)
  rw [show Fp.pointFromAngle d t - d.center - idealOffset d t = Fp.pointFromAngle d t - (d.center + idealOffset d t) by
    ext <;> simp <;> ring]
  refine h.trans (mul_le_mul_of_nonneg_left ?_ c0)
  refine (V3.len_add_le _ _).trans (add_le_add (absV_len _).le ((V3.len_add_le _ _).trans (le_of_eq ?_)))
  rw [V3.len_smul, V3.len_smul, absV_len, absV_len, abs_of_nonneg ha, abs_of_nonneg hb]

/-- The quantities used below for a computed point: size of the geometry, distance of the centre from the origin. -/
theorem point_bounds {d : Elliptical} (h : NearlyOrthonormal d.major d.minor d.normal) (t : ℝ) (ha : 0 ≤ d.majLen)
    (hb : 0 ≤ d.minLen) :
    ((Fp.pointFromAngle d t - d.center) - idealOffset d t).len
        ≤ 5.01 / 2 ^ 53 * (d.center.len + 1.001 * (d.majLen + d.minLen)) ∧
      (idealOffset d t).len ≤ 1.001 * (d.majLen + d.minLen) ∧
      (Fp.pointFromAngle d t - d.center).len ≤ 1.002 * (d.majLen + d.minLen) + 5.01 / 2 ^ 53 * d.center.len := by
  have u3 := (abs_le.1 h.u1).2
  have v3 := (abs_le.1 h.v1).2
  rw [norm_eq_len] at u3 v3
  have ub : d.major.len ≤ 1.001 := by norm_num at u3 ⊢; linarith
  have vb : d.minor.len ≤ 1.001 := by norm_num at v3 ⊢; linarith
  have hs : d.majLen * d.major.len + d.minLen * d.minor.len ≤ 1.001 * (d.majLen + d.minLen) := by
    have := mul_le_mul_of_nonneg_left ub ha
    have := mul_le_mul_of_nonneg_left vb hb
    linarith
  have c0 := V3.len_nonneg d.center
  have e1 : ((Fp.pointFromAngle d t - d.center) - idealOffset d t).len
        ≤ 5.01 / 2 ^ 53 * (d.center.len + 1.001 * (d.majLen + d.minLen)) := by
    refine (pointFromAngle_error d t ha hb).trans (mul_le_mul ?_ (by linarith) ?_ (by norm_num))
    · exact (rho_pow_sub_one_le (by norm_num)).trans (by norm_num)
    · have := V3.len_nonneg d.major
      have := V3.len_nonneg d.minor
      positivity
  have e2 : (idealOffset d t).len ≤ 1.001 * (d.majLen + d.minLen) := by
    refine le_trans ?_ hs
    unfold idealOffset
    refine (V3.len_add_le _ _).trans (add_le_add ?_ ?_)
    · rw [V3.len_smul, abs_mul, abs_of_nonneg ha]
      refine mul_le_mul_of_nonneg_right ?_ (V3.len_nonneg _)
      exact (mul_le_mul_of_nonneg_left (Real.abs_cos_le_one t) ha).trans (mul_one _).le
    · rw [V3.len_smul, abs_mul, abs_of_nonneg hb]
      refine mul_le_mul_of_nonneg_right ?_ (V3.len_nonneg _)
      exact (mul_le_mul_of_nonneg_left (Real.abs_sin_le_one t) hb).trans (mul_one _).le
  refine ⟨e1, e2, ?_⟩
  have e3 := V3.len_add_le ((Fp.pointFromAngle d t - d.center) - idealOffset d t) (idealOffset d t)
  rw [show (Fp.pointFromAngle d t - d.center) - idealOffset d t + idealOffset d t = Fp.pointFromAngle d t - d.center by
    ext <;> simp] at e3
  norm_num at *
  linarith

/-- The scalar product that is computed for a computed point, compared with the one of the exact point. -/
theorem point_dot {d : Elliptical} (h : NearlyOrthonormal d.major d.minor d.normal) (t : ℝ) (ha : 0 ≤ d.majLen)
    (hb : 0 ≤ d.minLen) {w : V3} (hw : |w.len - 1| ≤ 1 / 2 ^ 49) :
    |Fp.scalarProduct (Fp.vectorBetween d.center (Fp.pointFromAngle d t)) w - (idealOffset d t).dot w|
      ≤ 1 / 2 ^ 53 * (9.2 * (d.majLen + d.minLen) + 5.1 * d.center.len) := by
  obtain ⟨e1, e2, e3⟩ := point_bounds h t ha hb
  have w3 := (abs_le.1 hw).2
  have wb : w.len ≤ 1.001 := by norm_num at w3 ⊢; linarith
  have w0 := V3.len_nonneg w
  set W := Fp.pointFromAngle d t - d.center with hW
  set I := idealOffset d t with hI
  set S := Fp.scalarProduct (Fp.vectorBetween d.center (Fp.pointFromAngle d t)) w with hS
  have h4 : |S - W.dot w| ≤ (rho ^ 4 - 1) * (w.len * W.len) := (err_between_dot d.center (Fp.pointFromAngle d t) w).1
  have r4 : rho ^ 4 - 1 ≤ 4.01 / 2 ^ 53 := (rho_pow_sub_one_le (by norm_num)).trans (by norm_num)
  have h5 : (rho ^ 4 - 1) * (w.len * W.len) ≤ 4.01 / 2 ^ 53 * (1.001 * W.len) :=
    mul_le_mul r4 (mul_le_mul_of_nonneg_right wb (V3.len_nonneg _)) (mul_nonneg w0 (V3.len_nonneg _)) (by norm_num)
  have h6 : |W.dot w - I.dot w| ≤ 1.001 * (W - I).len := by
    rw [← V3.sub_dot, mul_comm]
    exact (V3.abs_dot_le _ _).trans (mul_le_mul_of_nonneg_left wb (V3.len_nonneg _))
  have h7 : |S - I.dot w| ≤ |S - W.dot w| + |W.dot w - I.dot w| := by
    have := abs_add_le (S - W.dot w) (W.dot w - I.dot w)
    rwa [sub_add_sub_cancel] at this
  have c0 := V3.len_nonneg d.center
  have s0 : 0 ≤ d.majLen + d.minLen := add_nonneg ha hb
  generalize d.majLen + d.minLen = s at *
  norm_num at *
  linarith

theorem offset_dot (d : Elliptical) (t : ℝ) (w : V3) :
    (idealOffset d t).dot w = d.majLen * Real.cos t * d.major.dot w + d.minLen * Real.sin t * d.minor.dot w := by
  unfold idealOffset
  rw [V3.add_dot, V3.smul_dot, V3.smul_dot]

theorem abs_scaled_le {a c x δ : ℝ} (ha : 0 ≤ a) (hc : |c| ≤ 1) (hx : |x| ≤ δ) : |a * c * x| ≤ a * δ := by
  rw [mul_assoc, abs_mul, abs_of_nonneg ha]
  refine mul_le_mul_of_nonneg_left ?_ ha
  rw [abs_mul]
  exact (mul_le_mul hc hx (abs_nonneg _) zero_le_one).trans (one_mul _).le

/-- The computed points are on the supporting plane up to roundings. -/
theorem point_on_plane {d : Elliptical} (h : NearlyOrthonormal d.major d.minor d.normal) (t : ℝ) (ha : 0 ≤ d.majLen)
    (hb : 0 ≤ d.minLen) :
    |Fp.scalarProduct (Fp.vectorBetween d.center (Fp.pointFromAngle d t)) d.normal|
      ≤ 1 / 2 ^ 53 * (25.2 * (d.majLen + d.minLen) + 5.1 * d.center.len) := by
  have n1 := h.n1
  rw [norm_eq_len] at n1
  have h1 := point_dot h t ha hb n1
  have h2 : |(idealOffset d t).dot d.normal| ≤ 16 / 2 ^ 53 * (d.majLen + d.minLen) := by
    rw [offset_dot]
    have k1 := abs_scaled_le ha (Real.abs_cos_le_one t) (show |d.major.dot d.normal| ≤ _ from h.un)
    have k2 := abs_scaled_le hb (Real.abs_sin_le_one t) (show |d.minor.dot d.normal| ≤ _ from h.vn)
    refine (abs_add_le _ _).trans ((add_le_add k1 k2).trans (le_of_eq ?_))
    ring
  set S := Fp.scalarProduct (Fp.vectorBetween d.center (Fp.pointFromAngle d t)) d.normal
  have h3 : |S| ≤ |S - (idealOffset d t).dot d.normal| + |(idealOffset d t).dot d.normal| := by
    have := abs_add_le (S - (idealOffset d t).dot d.normal) ((idealOffset d t).dot d.normal)
    rwa [sub_add_cancel] at this
  generalize d.majLen + d.minLen = s at *
  norm_num at *
  linarith

/-! ### Circles -/

theorem offset_len {d : Elliptical} (h : NearlyOrthonormal d.major d.minor d.normal) (t : ℝ) (ha : 0 ≤ d.majLen)
    (hab : d.minLen = d.majLen) : |(idealOffset d t).len - d.majLen| ≤ 64 / 2 ^ 53 * d.majLen := by
  have u1 := h.u1
  have v1 := h.v1
  have huv := abs_le.1 (show |d.major.dot d.minor| ≤ _ from h.uv)
  rw [norm_eq_len] at u1 v1
  obtain ⟨u2, u3⟩ := abs_le.1 u1
  obtain ⟨v2, v3⟩ := abs_le.1 v1
  set a := d.majLen with haD
  have hsq : (idealOffset d t).sqLen = a * a * (Real.cos t ^ 2 * (d.major.len * d.major.len)
      + Real.sin t ^ 2 * (d.minor.len * d.minor.len) + 2 * (Real.cos t * Real.sin t) * d.major.dot d.minor) := by
    unfold idealOffset
    rw [hab, V3.len_mul_self, V3.len_mul_self]
    simp only [V3.sqLen, V3.dot, V3.add_x, V3.add_y, V3.add_z, V3.smul_x, V3.smul_y, V3.smul_z, ← haD]
    ring
  have hcs := Real.sin_sq_add_cos_sq t
  have hc2 := sq_nonneg (Real.cos t)
  have hs2 := sq_nonneg (Real.sin t)
  have hx : |2 * (Real.cos t * Real.sin t)| ≤ 1 := by
    rw [abs_le]
    constructor <;> nlinarith [sq_nonneg (Real.cos t - Real.sin t), sq_nonneg (Real.cos t + Real.sin t)]
  have hd : |2 * (Real.cos t * Real.sin t) * d.major.dot d.minor| ≤ 16 / 2 ^ 53 := by
    rw [abs_mul]
    refine (mul_le_mul hx (show |d.major.dot d.minor| ≤ _ from h.uv) (abs_nonneg _) zero_le_one).trans (by norm_num)
  obtain ⟨d1, d2⟩ := abs_le.1 hd
  have hm : ∀ x : ℝ, -(1 / 2 ^ 49) ≤ x - 1 → x - 1 ≤ 1 / 2 ^ 49 → 1 - 33 / 2 ^ 53 ≤ x * x ∧ x * x ≤ 1 + 33 / 2 ^ 53 := by
    intro x h1 h2
    have h0 : 0 ≤ x := by norm_num at h1; linarith
    constructor
    · have : (1 - 1 / 2 ^ 49) * (1 - 1 / 2 ^ 49) ≤ x * x := mul_le_mul (by linarith) (by linarith) (by norm_num) h0
      norm_num at this ⊢
      linarith
    · have : x * x ≤ (1 + 1 / 2 ^ 49) * (1 + 1 / 2 ^ 49) := mul_le_mul (by linarith) (by linarith) h0 (by norm_num)
      norm_num at this ⊢
      linarith
  obtain ⟨m1, m2⟩ := hm _ u2 u3
  obtain ⟨m3, m4⟩ := hm _ v2 v3
  have lo : (1 - 64 / 2 ^ 53) * (1 - 64 / 2 ^ 53) ≤ Real.cos t ^ 2 * (d.major.len * d.major.len)
      + Real.sin t ^ 2 * (d.minor.len * d.minor.len) + 2 * (Real.cos t * Real.sin t) * d.major.dot d.minor := by
    have k1 := mul_le_mul_of_nonneg_left m1 hc2
    have k2 := mul_le_mul_of_nonneg_left m3 hs2
    have k3 : Real.cos t ^ 2 * (1 - 33 / 2 ^ 53) + Real.sin t ^ 2 * (1 - 33 / 2 ^ 53) = 1 - 33 / 2 ^ 53 := by
      rw [← add_mul, add_comm, hcs, one_mul]
    norm_num at *
    linarith
  have hi : Real.cos t ^ 2 * (d.major.len * d.major.len)
      + Real.sin t ^ 2 * (d.minor.len * d.minor.len) + 2 * (Real.cos t * Real.sin t) * d.major.dot d.minor
      ≤ (1 + 64 / 2 ^ 53) * (1 + 64 / 2 ^ 53) := by
    have k1 := mul_le_mul_of_nonneg_left m2 hc2
    have k2 := mul_le_mul_of_nonneg_left m4 hs2
    have k3 : Real.cos t ^ 2 * (1 + 33 / 2 ^ 53) + Real.sin t ^ 2 * (1 + 33 / 2 ^ 53) = 1 + 33 / 2 ^ 53 := by
      rw [← add_mul, add_comm, hcs, one_mul]
    norm_num at *
    linarith
  have a2 : 0 ≤ a * a := mul_nonneg ha ha
  rw [abs_le]
  constructor
  · have : a * (1 - 64 / 2 ^ 53) ≤ (idealOffset d t).len := by
      unfold V3.len
      refine Real.le_sqrt_of_sq_le ?_
      rw [hsq]
      calc (a * (1 - 64 / 2 ^ 53)) ^ 2 = a * a * ((1 - 64 / 2 ^ 53) * (1 - 64 / 2 ^ 53)) := by ring
        _ ≤ _ := mul_le_mul_of_nonneg_left lo a2
    linarith
  · have : (idealOffset d t).len ≤ a * (1 + 64 / 2 ^ 53) := by
      unfold V3.len
      refine Real.sqrt_le_iff.2 ⟨mul_nonneg ha (by norm_num), ?_⟩
      rw [hsq]
      calc _ ≤ a * a * ((1 + 64 / 2 ^ 53) * (1 + 64 / 2 ^ 53)) := mul_le_mul_of_nonneg_left hi a2
        _ = _ := by ring
    linarith

theorem tolerance_bounds {r : ℝ} (hr : 0 < r) : 0.998 / 10 ^ 7 * r ≤ Fp.mul Fp.confusion r ∧
    Fp.mul Fp.confusion r ≤ 1.002 / 10 ^ 7 * r := by
  have h := (Close.mul close_confusion (Close.refl hr.le)).rnd.abs_sub_le
  have r2 : rho ^ (1 + 0 + 1) - 1 ≤ 1 / 1000 := (rho_pow_sub_one_le (by norm_num)).trans (by norm_num)
  have h2 := abs_le.1 (h.trans (mul_le_mul_of_nonneg_right r2 (by positivity)))
  change 0.998 / 10 ^ 7 * r ≤ Fp.rnd _ ∧ Fp.rnd _ ≤ _
  norm_num at h2 ⊢
  constructor <;> linarith [h2.1, h2.2]

/-- **Circles contain the points they compute.**  A circle with a computed normal direction contains with its default
tolerance the point that it computes for any angle, if the distance of its centre from the origin is at most 10⁸ radii. -/
theorem C152_circle_partial (c n : V3) (r t : ℝ) (hn : |norm n - 1| ≤ 1 / 2 ^ 50) (hr : 0 < r)
    (hc : norm c ≤ 10 ^ 8 * r) :
    ∃ k, Fp.circleMake c n r = .val k ∧ Fp.circleContainsDefault k (Fp.pointFromAngle k t) := by
  obtain ⟨k, hk, rfl, rfl, hm, hf⟩ := C152_circle_axes c n r hn
  refine ⟨k, hk, ?_⟩
  rw [norm_eq_len] at hc
  obtain ⟨t1, -⟩ := tolerance_bounds hr
  have hr' : 0 ≤ k.minLen := by rw [hm]; exact hr.le
  have p1 := point_on_plane hf t hr.le hr'
  obtain ⟨e1, e2, e3⟩ := point_bounds hf t hr.le hr'
  have o1 := offset_len hf t hr.le hm
  rw [hm] at p1 e1 e2 e3
  constructor
  · change |Fp.scalarProduct (Fp.vectorBetween k.center (Fp.pointFromAngle k t)) k.normal| < _
    norm_num at *
    linarith
  · have l1 := (close_distPointPoint (Fp.pointFromAngle k t) k.center).abs_sub_le
    have r4 : rho ^ 4 - 1 ≤ 4.01 / 2 ^ 53 := (rho_pow_sub_one_le (by norm_num)).trans (by norm_num)
    rw [dist_eq_len] at l1
    set W := Fp.pointFromAngle k t - k.center with hW
    have l2 := l1.trans (mul_le_mul_of_nonneg_right r4 (V3.len_nonneg W))
    have l3 := abs_len_sub_le W (idealOffset k t)
    have l4 := rnd_error_num (Fp.length (Fp.vectorBetween (Fp.pointFromAngle k t) k.center) - k.majLen)
    change |Fp.rnd (Fp.length (Fp.vectorBetween (Fp.pointFromAngle k t) k.center) - k.majLen)| < _
    change |Fp.length (Fp.vectorBetween (Fp.pointFromAngle k t) k.center) - W.len| ≤ _ at l2
    generalize Fp.length (Fp.vectorBetween (Fp.pointFromAngle k t) k.center) = L at *
    have l5 : |L - k.majLen| ≤ |L - W.len| + (|W.len - (idealOffset k t).len| + |(idealOffset k t).len - k.majLen|) := by
      have h1 := abs_add_le (L - W.len) (W.len - k.majLen)
      have h2 := abs_add_le (W.len - (idealOffset k t).len) ((idealOffset k t).len - k.majLen)
      rw [sub_add_sub_cancel] at h1 h2
      linarith
    have l6 : |Fp.rnd (L - k.majLen)| ≤ |Fp.rnd (L - k.majLen) - (L - k.majLen)| + |L - k.majLen| := by
      have h1 := abs_add_le (Fp.rnd (L - k.majLen) - (L - k.majLen)) (L - k.majLen)
      rwa [sub_add_cancel] at h1
    norm_num at *
    linarith

/-- **Points on a circle.**  A point that is contained in a circle with the default tolerance has a distance from the
centre of one radius and is on the plane of the circle, both up to 1.01e-7 radii. -/
theorem C152_circle_sound (d : Elliptical) (p : V3) (hn : |norm d.normal - 1| ≤ 1 / 2 ^ 49) (hr : 0 < d.majLen)
    (h : Fp.circleContainsDefault d p) :
    |Spec.dist d.center p - d.majLen| < 1.01 / 10 ^ 7 * d.majLen ∧
      ∃ q, OnPlane d.center d.normal q ∧ Spec.dist p q < 1.01 / 10 ^ 7 * d.majLen := by
  obtain ⟨h1, h2⟩ := h
  obtain ⟨-, t2⟩ := tolerance_bounds hr
  rw [norm_eq_len] at hn
  obtain ⟨n1, n2⟩ := abs_le.1 hn
  have l1 := (close_distPointPoint p d.center).abs_sub_le
  rw [Spec.dist_comm] at l1
  have d0 : 0 ≤ Spec.dist d.center p := Real.sqrt_nonneg _
  have r4 : rho ^ 4 - 1 ≤ 4.01 / 2 ^ 53 := (rho_pow_sub_one_le (by norm_num)).trans (by norm_num)
  have l2 := l1.trans (mul_le_mul_of_nonneg_right r4 d0)
  change |Fp.length (Fp.vectorBetween p d.center) - _| ≤ _ at l2
  have l4 := rnd_error_num (Fp.length (Fp.vectorBetween p d.center) - d.majLen)
  change |Fp.rnd (Fp.length (Fp.vectorBetween p d.center) - d.majLen)| < _ at h2
  generalize Fp.length (Fp.vectorBetween p d.center) = L at *
  have hL : |L - d.majLen| ≤ 1.003 / 10 ^ 7 * d.majLen := by
    have k := abs_sub_abs_le_abs_sub (L - d.majLen) (Fp.rnd (L - d.majLen))
    rw [abs_sub_comm (L - d.majLen)] at k
    norm_num at *
    linarith
  have hA : |Spec.dist d.center p - d.majLen| < 1.01 / 10 ^ 7 * d.majLen := by
    have k := abs_sub_le (Spec.dist d.center p) L d.majLen
    rw [abs_sub_comm _ L] at k
    have hu : Spec.dist d.center p ≤ 2 * d.majLen := by
      have a1 := (abs_le.1 l2).1
      have a2 := (abs_le.1 hL).2
      norm_num at a1 a2
      linarith
    norm_num at *
    linarith
  refine ⟨hA, ?_⟩
  have hu : Spec.dist d.center p ≤ 1.001 * d.majLen := by
    have := (abs_lt.1 hA).2
    norm_num at this ⊢
    linarith
  set n := d.normal with hnd
  set N := n.len with hN
  set e := (p - d.center).dot n with he
  have Npos : 0 < N := by norm_num at n1; linarith
  have Nhi : N ≤ 1.001 := by norm_num at n2 ⊢; linarith
  have nn : n.sqLen = N * N := (V3.len_mul_self n).symm
  have h4 := (err_between_dot d.center p n).1
  rw [V3.len_sub_comm, ← dist_eq_len] at h4
  change |Fp.scalarProduct (Fp.vectorBetween d.center p) n - e| ≤ (rho ^ 4 - 1) * (N * Spec.dist d.center p) at h4
  change |Fp.scalarProduct (Fp.vectorBetween d.center p) n| < _ at h1
  generalize Fp.scalarProduct (Fp.vectorBetween d.center p) n = S at *
  have h5 : (rho ^ 4 - 1) * (N * Spec.dist d.center p) ≤ 4.01 / 2 ^ 53 * (1.001 * (1.001 * d.majLen)) :=
    mul_le_mul r4 (mul_le_mul Nhi hu d0 (by norm_num)) (by positivity) (by norm_num)
  let q0 : V3 := p - (e / (N * N)) • n
  refine ⟨q0, ?_, ?_⟩
  · rw [onPlane_iff, show q0 - d.center = (p - d.center) - (e / (N * N)) • n by ext <;> simp [q0] <;> ring, V3.dot_sub,
      V3.dot_smul, ← V3.sqLen_eq_dot, nn, V3.dot_comm, ← he]
    field_simp
    ring
  · have e1 : p - q0 = (e / (N * N)) • n := by ext <;> simp [q0]
    rw [dist_eq_len, e1, V3.len_smul, abs_div, abs_of_pos (mul_pos Npos Npos), ← hN]
    have e2 : |e| / (N * N) * N = |e| / N := by field_simp
    rw [e2, div_lt_iff₀ Npos]
    have e5 : |e| ≤ |S - e| + |S| := by
      have := abs_add_le (e - S) S
      rwa [sub_add_cancel, abs_sub_comm] at this
    have e6 : 0.9999 ≤ N := by norm_num at n1 ⊢; linarith
    have e7 : 0.9999 * (1.01 / 10 ^ 7 * d.majLen) ≤ N * (1.01 / 10 ^ 7 * d.majLen) :=
      mul_le_mul_of_nonneg_right e6 (by positivity)
    rw [mul_comm]
    norm_num at *
    linarith

/-- The full property: circles contain with their default tolerance all points that they compute. -/
def C152_full : Prop := ∀ (c v n : V3) (r t : ℝ), DoubleCoordinates c → DoubleCoordinates v → IsDouble r → IsDouble t →
  0 < r → Fp.mkDirection v = .val n →
  ∃ k, Fp.circleMake c n r = .val k ∧ Fp.circleContainsDefault k (Fp.pointFromAngle k t)

/-- The full property fails: a circle of radius one around a point that is 2⁶⁰ away from the origin computes its own
centre. -/
theorem C152_disproof : ¬ C152_full := by
  intro h
  have d0 : IsDouble 0 := ⟨0, 0, by norm_num, by norm_num⟩
  have d1 : IsDouble 1 := ⟨1, 0, by norm_num, by norm_num⟩
  have dx : IsDouble (2 ^ 60 : ℝ) := ⟨1, 60, by norm_num, by norm_num⟩
  have r1 := rnd_of_isDouble d1
  have rx := rnd_of_isDouble dx
  have rx1 : Fp.rnd (2 ^ 60 + 1) = 2 ^ 60 := by
    have hu : Fp.ulpExponent (2 ^ 60 + 1) = 8 := ulpExponent_eq (by rw [abs_of_pos (by norm_num)]; norm_num)
      (by rw [abs_of_pos (by norm_num)]; norm_num)
    refine rnd_eq 8 (2 ^ 52) ?_ ?_ ?_ |>.trans (by norm_num)
    · rw [abs_of_pos (by norm_num)]; norm_num
    · rw [abs_of_pos (by norm_num)]; norm_num
    · rw [abs_lt]; constructor <;> norm_num
  have l1 : ∀ v : V3, (v = ⟨0, 0, 1⟩ ∨ v = ⟨0, 1, 0⟩ ∨ v = ⟨1, 0, 0⟩) → Fp.mkDirection v = .val v := by
    intro v hv
    have hl : Fp.length v = 1 := by
      unfold Fp.length Fp.squaredLength Fp.sqrt Fp.add Fp.mul
      rcases hv with rfl | rfl | rfl <;> simp [rnd_zero, r1]
    unfold Fp.mkDirection
    rw [if_neg (by rw [hl]; norm_num), hl]
    unfold Fp.div
    rcases hv with rfl | rfl | rfl <;> simp [rnd_zero, r1]
  have c1 : Fp.crossProduct ⟨0, 0, 1⟩ ⟨1, 0, 0⟩ = ⟨0, 1, 0⟩ := by
    unfold Fp.crossProduct Fp.sub Fp.mul
    simp [rnd_zero, r1]
  have c2 : Fp.crossProduct ⟨1, 0, 0⟩ ⟨0, 1, 0⟩ = ⟨0, 0, 1⟩ := by
    unfold Fp.crossProduct Fp.sub Fp.mul
    simp [rnd_zero, r1]
  have o1 : makeOrthogonalVector ⟨0, 0, 1⟩ = ⟨1, 0, 0⟩ := if_pos rfl
  obtain ⟨k, hk, hc⟩ := h ⟨2 ^ 60, 0, 0⟩ ⟨0, 0, 1⟩ ⟨0, 0, 1⟩ 1 0 ⟨dx, d0, d0⟩ ⟨d0, d0, d1⟩ d1 d0 one_pos (l1 _ (Or.inl rfl))
  have hk' : Fp.circleMake ⟨2 ^ 60, 0, 0⟩ ⟨0, 0, 1⟩ 1
      = .val ⟨⟨2 ^ 60, 0, 0⟩, ⟨1, 0, 0⟩, ⟨0, 1, 0⟩, ⟨0, 0, 1⟩, 1, 1⟩ := by
    unfold Fp.circleMake Fp.ellipticalMake
    rw [o1, l1 ⟨1, 0, 0⟩ (by simp)]
    change (Fp.mkDirection (Fp.crossProduct ⟨0, 0, 1⟩ ⟨1, 0, 0⟩)).bind _ = _
    rw [c1, l1 ⟨0, 1, 0⟩ (by simp)]
    change (Fp.mkDirection (Fp.crossProduct ⟨1, 0, 0⟩ ⟨0, 1, 0⟩)).bind _ = _
    rw [c2, l1 ⟨0, 0, 1⟩ (by simp)]
    rfl
  rw [hk'] at hk
  obtain rfl := Outcome.val.inj hk
  have hp : Fp.pointFromAngle ⟨⟨2 ^ 60, 0, 0⟩, ⟨1, 0, 0⟩, ⟨0, 1, 0⟩, ⟨0, 0, 1⟩, 1, 1⟩ 0 = ⟨2 ^ 60, 0, 0⟩ := by
    unfold Fp.pointFromAngle Fp.move Fp.scale Fp.mul Fp.add Fp.cos Fp.sin
    simp only [Real.cos_zero, Real.sin_zero, mul_one, one_mul, mul_zero, zero_mul, add_zero, zero_add, rnd_zero, r1, rx, rx1]
  rw [hp] at hc
  have h2 := hc.2
  have t2 := (tolerance_bounds one_pos).2
  have hz : Fp.length (Fp.vectorBetween ⟨2 ^ 60, 0, 0⟩ ⟨2 ^ 60, 0, 0⟩) = 0 := by
    rw [length_eq_zero]
    unfold Fp.vectorBetween Fp.sub
    simp only [sub_self, rnd_zero]
    rfl
  simp only [hz, Fp.sub, zero_sub, rnd_neg, r1, abs_neg, abs_one] at h2
  norm_num at t2
  linarith

/-- A circle of radius one whose centre is twenty million radii away from the origin. -/
example : ∃ k, Fp.circleMake ⟨2 * 10 ^ 7, 0, 0⟩ ⟨0, 0, 1⟩ 1 = .val k ∧
    Fp.circleContainsDefault k (Fp.pointFromAngle k 0.25) := by
  apply C152_circle_partial
  · unfold Spec.norm; norm_num
  · norm_num
  · have : Spec.norm (⟨2 * 10 ^ 7, 0, 0⟩ : V3) = 2 * 10 ^ 7 := by
      unfold Spec.norm
      rw [Real.sqrt_eq_iff_mul_self_eq_of_pos (by norm_num)]
      norm_num
    rw [this]
    norm_num

/-! ### Ellipses -/

theorem axis_coordinate {d : Elliptical} (h : NearlyOrthonormal d.major d.minor d.normal) (t : ℝ) (ha : 0 ≤ d.majLen)
    (hb : 0 ≤ d.minLen) :
    |Fp.scalarProduct (Fp.vectorBetween d.center (Fp.pointFromAngle d t)) d.major - d.majLen * Real.cos t|
        ≤ 1 / 2 ^ 53 * (42.3 * (d.majLen + d.minLen) + 5.1 * d.center.len) ∧
    |Fp.scalarProduct (Fp.vectorBetween d.center (Fp.pointFromAngle d t)) d.minor - d.minLen * Real.sin t|
        ≤ 1 / 2 ^ 53 * (42.3 * (d.majLen + d.minLen) + 5.1 * d.center.len) := by
  have u1 := h.u1
  have v1 := h.v1
  rw [norm_eq_len] at u1 v1
  have hm : ∀ x : ℝ, |x - 1| ≤ 1 / 2 ^ 49 → |x * x - 1| ≤ 33 / 2 ^ 53 := by
    intro x hx
    obtain ⟨h1, h2⟩ := abs_le.1 hx
    have h0 : 0 ≤ x := by norm_num at h1; linarith
    rw [abs_le]
    constructor
    · have : (1 - 1 / 2 ^ 49) * (1 - 1 / 2 ^ 49) ≤ x * x := mul_le_mul (by linarith) (by linarith) (by norm_num) h0
      norm_num at this ⊢
      linarith
    · have : x * x ≤ (1 + 1 / 2 ^ 49) * (1 + 1 / 2 ^ 49) := mul_le_mul (by linarith) (by linarith) h0 (by norm_num)
      norm_num at this ⊢
      linarith
  have uu : d.major.dot d.major = d.major.len * d.major.len := (V3.len_mul_self _).symm
  have vv : d.minor.dot d.minor = d.minor.len * d.minor.len := (V3.len_mul_self _).symm
  have huv : |d.major.dot d.minor| ≤ 1 / 2 ^ 49 := h.uv
  have hvu : |d.minor.dot d.major| ≤ 1 / 2 ^ 49 := by rw [V3.dot_comm]; exact h.uv
  constructor
  · have p1 := point_dot h t ha hb u1
    have e1 : (idealOffset d t).dot d.major - d.majLen * Real.cos t
        = d.majLen * Real.cos t * (d.major.len * d.major.len - 1) + d.minLen * Real.sin t * d.minor.dot d.major := by
      rw [offset_dot, uu]; ring
    have e2 : |(idealOffset d t).dot d.major - d.majLen * Real.cos t| ≤ d.majLen * (33 / 2 ^ 53) + d.minLen * (1 / 2 ^ 49) := by
      rw [e1]
      exact (abs_add_le _ _).trans (add_le_add (abs_scaled_le ha (Real.abs_cos_le_one t) (hm _ u1))
        (abs_scaled_le hb (Real.abs_sin_le_one t) hvu))
    have e3 := abs_sub_le (Fp.scalarProduct (Fp.vectorBetween d.center (Fp.pointFromAngle d t)) d.major)
      ((idealOffset d t).dot d.major) (d.majLen * Real.cos t)
    norm_num at *
    linarith
  · have p1 := point_dot h t ha hb v1
    have e1 : (idealOffset d t).dot d.minor - d.minLen * Real.sin t
        = d.majLen * Real.cos t * d.major.dot d.minor + d.minLen * Real.sin t * (d.minor.len * d.minor.len - 1) := by
      rw [offset_dot, vv]; ring
    have e2 : |(idealOffset d t).dot d.minor - d.minLen * Real.sin t| ≤ d.majLen * (1 / 2 ^ 49) + d.minLen * (33 / 2 ^ 53) := by
      rw [e1]
      exact (abs_add_le _ _).trans (add_le_add (abs_scaled_le ha (Real.abs_cos_le_one t) huv)
        (abs_scaled_le hb (Real.abs_sin_le_one t) (hm _ v1)))
    have e3 := abs_sub_le (Fp.scalarProduct (Fp.vectorBetween d.center (Fp.pointFromAngle d t)) d.minor)
      ((idealOffset d t).dot d.minor) (d.minLen * Real.sin t)
    norm_num at *
    linarith

theorem quotient_close {x y a b : ℝ} (ha : 0 < a) (hb : 0 < b) :
    Close 4 (Fp.add (Fp.div (Fp.mul x x) (Fp.mul a a)) (Fp.div (Fp.mul y y) (Fp.mul b b)))
      ((x / a) ^ 2 + (y / b) ^ 2) := by
  have k : ∀ x a : ℝ, 0 < a → Close 3 (Fp.div (Fp.mul x x) (Fp.mul a a)) ((x / a) ^ 2) := by
    intro x a ha
    have := ((close_abs_mul_self x).div (close_abs_mul_self a)).rnd
    rwa [show x * x / (a * a) = (x / a) ^ 2 by rw [div_pow, sq, sq]] at this
  exact ((k x a ha).add (k y b hb)).rnd

/-- **Ellipses contain the points they compute.**  An ellipse with axes that are orthonormal up to 2⁻⁴⁹ contains with its
default tolerance the point that it computes for any angle, if both axis lengths are not small compared to the distance of
the centre from the origin and to each other; if the plane is checked, neither the axes nor the coordinates may be too
large. -/
theorem C152_ellipse_partial (c u v : V3) (a b t : ℝ) (check : Bool) (hu : |norm u - 1| ≤ 1 / 2 ^ 49)
    (hv : |norm v - 1| ≤ 1 / 2 ^ 49) (huv : |u.x * v.x + u.y * v.y + u.z * v.z| ≤ 1 / 2 ^ 49) (ha : 0 < a) (hb : 0 < b)
    (hc : norm c ≤ 10 ^ 7 * min a b) (hab : a + b ≤ 2 * 10 ^ 6 * min a b)
    (hp : check = true → norm c ≤ 10 ^ 8 ∧ a + b ≤ 10 ^ 7) :
    ∃ d, Fp.ellipticalMake c u v a b = .val d ∧ Fp.ellipseContainsDefault d (Fp.pointFromAngle d t) check := by
  obtain ⟨d, hd, rfl, rfl, rfl, rfl, rfl, hf⟩ := C152_ellipse_axes c u v a b hu hv huv
  refine ⟨d, hd, ?_, ?_⟩
  · intro hch
    obtain ⟨p1, p2⟩ := hp hch
    have h1 := point_on_plane hf t ha.le hb.le
    rw [norm_eq_len] at p1
    have c1 := confusion_bounds.1
    change |Fp.scalarProduct (Fp.vectorBetween d.center (Fp.pointFromAngle d t)) d.normal| < _
    norm_num at *
    linarith
  · obtain ⟨x1, y1⟩ := axis_coordinate hf t ha.le hb.le
    rw [norm_eq_len] at hc
    refine ⟨(rnd_pos (mul_pos ha ha)).ne', (rnd_pos (mul_pos hb hb)).ne', ?_⟩
    generalize Fp.scalarProduct (Fp.vectorBetween d.center (Fp.pointFromAngle d t)) d.major = x at *
    generalize Fp.scalarProduct (Fp.vectorBetween d.center (Fp.pointFromAngle d t)) d.minor = y at *
    have hm := lt_min ha hb
    have hη : 1 / 2 ^ 53 * (42.3 * (d.majLen + d.minLen) + 5.1 * d.center.len) ≤ 1.6 / 10 ^ 8 * min d.majLen d.minLen := by
      norm_num at *
      linarith
    have X : |x / d.majLen - Real.cos t| ≤ 1.6 / 10 ^ 8 := by
      rw [show x / d.majLen - Real.cos t = (x - d.majLen * Real.cos t) / d.majLen by field_simp, abs_div, abs_of_pos ha,
        div_le_iff₀ ha]
      exact (x1.trans hη).trans (mul_le_mul_of_nonneg_left (min_le_left _ _) (by norm_num))
    have Y : |y / d.minLen - Real.sin t| ≤ 1.6 / 10 ^ 8 := by
      rw [show y / d.minLen - Real.sin t = (y - d.minLen * Real.sin t) / d.minLen by field_simp, abs_div, abs_of_pos hb,
        div_le_iff₀ hb]
      exact (y1.trans hη).trans (mul_le_mul_of_nonneg_left (min_le_right _ _) (by norm_num))
    have Q := (quotient_close (x := x) (y := y) ha hb).abs_sub_le
    have r4 : rho ^ 4 - 1 ≤ 1 / 10 ^ 10 := (rho_pow_sub_one_le (by norm_num)).trans (by norm_num)
    generalize x / d.majLen = X' at *
    generalize y / d.minLen = Y' at *
    have hcs := Real.sin_sq_add_cos_sq t
    have hcos := Real.abs_cos_le_one t
    have hsin := Real.abs_sin_le_one t
    generalize Real.cos t = C at *
    generalize Real.sin t = S at *
    have sqd : ∀ z w : ℝ, |w| ≤ 1 → |z - w| ≤ 1.6 / 10 ^ 8 → |z ^ 2 - w ^ 2| ≤ 3.3 / 10 ^ 8 := by
      intro z w hw hz
      rw [show z ^ 2 - w ^ 2 = (z - w) * ((z - w) + 2 * w) by ring, abs_mul]
      have h2 : |z - w + 2 * w| ≤ 2.01 := by
        refine (abs_add_le _ _).trans ?_
        rw [abs_mul, abs_two]
        norm_num at *
        linarith
      exact (mul_le_mul hz h2 (abs_nonneg _) (by norm_num)).trans (by norm_num)
    have q1 := sqd _ _ hcos X
    have q2 := sqd _ _ hsin Y
    have q3 : |X' ^ 2 + Y' ^ 2 - 1| ≤ 6.6 / 10 ^ 8 := by
      rw [show X' ^ 2 + Y' ^ 2 - 1 = (X' ^ 2 - C ^ 2) + (Y' ^ 2 - S ^ 2) by linarith]
      exact (abs_add_le _ _).trans ((add_le_add q1 q2).trans (by norm_num))
    have q0 : 0 ≤ X' ^ 2 + Y' ^ 2 := by positivity
    have q4 : X' ^ 2 + Y' ^ 2 ≤ 2 := by
      have := (abs_le.1 q3).2
      norm_num at this
      linarith
    have q5 := Q.trans (mul_le_mul r4 q4 q0 (by norm_num))
    generalize Fp.add (Fp.div (Fp.mul x x) (Fp.mul d.majLen d.majLen))
      (Fp.div (Fp.mul y y) (Fp.mul d.minLen d.minLen)) = R at *
    have q6 := abs_sub_le R (X' ^ 2 + Y' ^ 2) 1
    have q7 := rnd_error_num (R - 1)
    have q8 : |Fp.rnd (R - 1)| ≤ |Fp.rnd (R - 1) - (R - 1)| + |R - 1| := by
      have h1 := abs_add_le (Fp.rnd (R - 1) - (R - 1)) (R - 1)
      rwa [sub_add_cancel] at h1
    have c1 := confusion_bounds.1
    change |Fp.rnd (R - 1)| < Fp.confusion
    norm_num at *
    linarith

/-- An ellipse with the axis lengths 3 and 2 around a point with coordinates in the millions. -/
example : ∃ d, Fp.ellipticalMake ⟨3 * 10 ^ 6, 4 * 10 ^ 6, 0⟩ ⟨1, 0, 0⟩ ⟨0, 0.6, 0.8⟩ 3 2 = .val d ∧
    Fp.ellipseContainsDefault d (Fp.pointFromAngle d 1.5) := by
  have hc : Spec.norm (⟨3 * 10 ^ 6, 4 * 10 ^ 6, 0⟩ : V3) = 5 * 10 ^ 6 := by
    unfold Spec.norm
    rw [Real.sqrt_eq_iff_mul_self_eq_of_pos (by norm_num)]
    norm_num
  have hm : min (3 : ℝ) 2 = 2 := min_eq_right (by norm_num)
  apply C152_ellipse_partial (check := true)
  · unfold Spec.norm; norm_num
  · unfold Spec.norm; norm_num
  · norm_num
  · norm_num
  · norm_num
  · rw [hc, hm]; norm_num
  · rw [hm]; norm_num
  · intro _
    rw [hc]
    norm_num

/-- **Accuracy of the points.**  The point that a circle or an ellipse computes for a parameter in [0, 1] is, up to
2⁻⁴⁸ times the sum of the axis lengths and the distance of the centre from the origin, the point with the angle 2π times the
parameter. -/
theorem C152_get_point (d : Elliptical) (t : ℝ) (hu : |norm d.major - 1| ≤ 1 / 2 ^ 49) (hv : |norm d.minor - 1| ≤ 1 / 2 ^ 49)
    (ha : 0 ≤ d.majLen) (hb : 0 ≤ d.minLen) (h0 : 0 ≤ t) (h1 : t ≤ 1) :
    Spec.dist (d.center + (d.majLen * Real.cos (2 * Real.pi * t)) • d.major
        + (d.minLen * Real.sin (2 * Real.pi * t)) • d.minor) (Fp.ellipticalGetPoint d t)
      ≤ 1 / 2 ^ 48 * (norm d.center + d.majLen + d.minLen) := by
  rw [norm_eq_len] at hu hv ⊢
  have ub : d.major.len ≤ 1.001 := by have := (abs_le.1 hu).2; norm_num at this ⊢; linarith
  have vb : d.minor.len ≤ 1.001 := by have := (abs_le.1 hv).2; norm_num at this ⊢; linarith
  set θ := Fp.mul (Fp.mul 2 Fp.pi) t with hθ
  have hcl : Close 3 θ (2 * Real.pi * t) := by
    have := (((Close.refl (show (0 : ℝ) ≤ 2 by norm_num)).mul (close_rnd Real.pi_pos.le)).rnd.mul (Close.refl h0)).rnd
    exact this
  have hang : |θ - 2 * Real.pi * t| ≤ 19 / 2 ^ 53 := by
    refine hcl.abs_sub_le.trans ?_
    have r3 : rho ^ 3 - 1 ≤ 3.01 / 2 ^ 53 := (rho_pow_sub_one_le (by norm_num)).trans (by norm_num)
    have hpi := Real.pi_lt_d2
    have h2 : 2 * Real.pi * t ≤ 6.3 := by nlinarith [Real.pi_pos]
    exact (mul_le_mul r3 h2 (by have := Real.pi_pos; positivity) (by norm_num)).trans (by norm_num)
  have e1 := pointFromAngle_error d θ ha hb
  have hs : d.majLen * d.major.len + d.minLen * d.minor.len ≤ 1.001 * (d.majLen + d.minLen) := by
    have := mul_le_mul_of_nonneg_left ub ha
    have := mul_le_mul_of_nonneg_left vb hb
    linarith
  have e2 : (idealOffset d θ - idealOffset d (2 * Real.pi * t)).len ≤ 19 / 2 ^ 53 * (1.001 * (d.majLen + d.minLen)) := by
    have hc := (Real.abs_cos_sub_cos_le θ (2 * Real.pi * t)).trans hang
    have hsn := (Real.abs_sin_sub_sin_le θ (2 * Real.pi * t)).trans hang
    have : idealOffset d θ - idealOffset d (2 * Real.pi * t)
        = (d.majLen * (Real.cos θ - Real.cos (2 * Real.pi * t))) • d.major
          + (d.minLen * (Real.sin θ - Real.sin (2 * Real.pi * t))) • d.minor := by
      unfold idealOffset
      ext <;> simp <;> ring
    rw [this]
    refine (V3.len_add_le _ _).trans ?_
    rw [V3.len_smul, V3.len_smul, abs_mul, abs_mul, abs_of_nonneg ha, abs_of_nonneg hb]
    have m1 := mul_le_mul_of_nonneg_left hc (mul_nonneg ha (V3.len_nonneg d.major))
    have m2 := mul_le_mul_of_nonneg_left hsn (mul_nonneg hb (V3.len_nonneg d.minor))
    have m3 := mul_le_mul_of_nonneg_left hs (show (0 : ℝ) ≤ 19 / 2 ^ 53 by norm_num)
    linarith
  rw [Spec.dist_comm, dist_eq_len]
  have e3 := V3.len_add_le ((Fp.pointFromAngle d θ - d.center) - idealOffset d θ) (idealOffset d θ - idealOffset d (2 * Real.pi * t))
  have r5 : rho ^ 5 - 1 ≤ 5.01 / 2 ^ 53 := (rho_pow_sub_one_le (by norm_num)).trans (by norm_num)
  have e4 := e1.trans (mul_le_mul_of_nonneg_right r5 (add_nonneg (V3.len_nonneg _)
    (add_nonneg (mul_nonneg ha (V3.len_nonneg _)) (mul_nonneg hb (V3.len_nonneg _)))))
  have e5 : Fp.ellipticalGetPoint d t - (d.center + (d.majLen * Real.cos (2 * Real.pi * t)) • d.major
      + (d.minLen * Real.sin (2 * Real.pi * t)) • d.minor)
      = ((Fp.pointFromAngle d θ - d.center) - idealOffset d θ) + (idealOffset d θ - idealOffset d (2 * Real.pi * t)) := by
    rw [show Fp.ellipticalGetPoint d t = Fp.pointFromAngle d θ from rfl]
    unfold idealOffset
    ext <;> simp <;> ring
  rw [e5]
  have l0 := V3.len_nonneg d.center
  norm_num at *
  linarith

/-- An example: a quarter of the unit circle around (1, 2, 3). -/
example : Spec.dist ⟨1, 3, 3⟩ (Fp.ellipticalGetPoint ⟨⟨1, 2, 3⟩, ⟨1, 0, 0⟩, ⟨0, 1, 0⟩, ⟨0, 0, 1⟩, 1, 1⟩ 0.25) ≤ 1 / 2 ^ 45 := by
  have n1 : ∀ v : V3, v.x ^ 2 + v.y ^ 2 + v.z ^ 2 = 1 → |Spec.norm v - 1| ≤ 1 / 2 ^ 49 := by
    intro v h
    rw [Spec.norm, h, Real.sqrt_one, sub_self, abs_zero]
    positivity
  have h := C152_get_point ⟨⟨1, 2, 3⟩, ⟨1, 0, 0⟩, ⟨0, 1, 0⟩, ⟨0, 0, 1⟩, 1, 1⟩ 0.25 (n1 _ (by norm_num)) (n1 _ (by norm_num))
    zero_le_one zero_le_one (by norm_num) (by norm_num)
  have ha : 2 * Real.pi * 0.25 = Real.pi / 2 := by ring
  have hp : (⟨1, 2, 3⟩ : V3) + (1 * Real.cos (2 * Real.pi * 0.25)) • ⟨1, 0, 0⟩
      + (1 * Real.sin (2 * Real.pi * 0.25)) • ⟨0, 1, 0⟩ = ⟨1, 3, 3⟩ := by
    rw [ha, Real.cos_pi_div_two, Real.sin_pi_div_two]
    ext <;> simp <;> norm_num
  have hn : Spec.norm ⟨1, 2, 3⟩ ≤ 4 := by
    rw [Spec.norm, Real.sqrt_le_iff]
    norm_num
  simp only [hp] at h
  refine h.trans ?_
  norm_num at *
  linarith

/-- **The plane is checked by default.**  Without the third argument an ellipse contains points close to its plane
only. -/
theorem C152_default_check (d : Elliptical) (p : V3) (hn : |norm d.normal - 1| ≤ 1 / 2 ^ 50)
    (h : Fp.ellipseContainsDefault d p ∨ Fp.ellipseContains d p Fp.confusion) :
    Fp.ellipseContainsDefault d p false ∧ ∃ q, OnPlane d.center d.normal q ∧
      Spec.dist p q < 1.01 / 10 ^ 7 + 1 / 2 ^ 50 * Spec.dist d.center p := by
  have hpl := C129_plane_contains (Fp.supportingPlane d) p hn
  rcases h with h | h <;> exact ⟨⟨nofun, h.2⟩, hpl.2 (h.1 rfl)⟩

/-- An example: the unit circle around the origin does not contain the point (1, 0, 1). -/
example : ¬ Fp.ellipseContainsDefault ⟨0, ⟨1, 0, 0⟩, ⟨0, 1, 0⟩, ⟨0, 0, 1⟩, 1, 1⟩ ⟨1, 0, 1⟩ := by
  intro h
  have n1 : |Spec.norm ⟨0, 0, 1⟩ - 1| ≤ 1 / 2 ^ 50 := by
    rw [Spec.norm]
    norm_num
  obtain ⟨-, q, h1, h2⟩ := C152_default_check _ _ n1 (.inl h)
  have hd : Spec.dist (0 : V3) ⟨1, 0, 1⟩ ≤ 2 := by
    rw [Spec.dist, Real.sqrt_le_iff]
    norm_num
  have hz : q.z = 0 := by simpa [OnPlane] using h1
  have hq : 1 ≤ Spec.dist ⟨1, 0, 1⟩ q := by
    rw [Spec.dist, Real.one_le_sqrt, hz]
    nlinarith [sq_nonneg (1 - q.x), sq_nonneg (0 - q.y)]
  simp only at h2
  norm_num at *
  linarith

end Props
