import Verif.Props.FloatDistance

/-!
# C129 Planes and projections in double precision
-/

namespace Props
open Verif Frackit Spec

/-! ## C129 Projections on planes and lines -/

theorem mul_neg_one_rnd (x : ℝ) : Fp.mul (Fp.rnd x) (-1) = -Fp.rnd x := by
  unfold Fp.mul
  rw [mul_neg_one, rnd_neg, rnd_rnd]

/-- The computed projection of a point on a plane. -/
theorem planeProjection_error (pl : Plane) (p : V3) :
    (Fp.planeProjection pl p - (p - (pl.normal.dot (p - pl.supp)) • pl.normal)).len ≤
      (rho ^ 6 - 1) * (p.len + pl.normal.len * pl.normal.len * (p - pl.supp).len) := by
  have hs := err_dot_between pl.normal pl.supp p
  set s := Fp.scalarProduct pl.normal (Fp.vectorBetween pl.supp p) with hsd
  set e := pl.normal.dot (p - pl.supp)
  set k := pl.normal.len * (p - pl.supp).len
  have c0 : 0 ≤ rho ^ 6 - 1 := by linarith [one_le_rho_pow 6]
  have hc : ∀ a d : ℝ, |Fp.add a (Fp.mul (Fp.mul d s) (-1)) - (a - e * d)| ≤ (rho ^ 6 - 1) * (|a| + k * |d|) := by
    intro a d
    have h1 := ((Err.refl d).mul hs).rnd
    have hn : Err 5 (-Fp.rnd (d * s)) (-(d * e)) (|d| * k) := by
      refine ⟨?_, ?_⟩
      · rw [← abs_neg]
        have := h1.1
        rw [show -(-Fp.rnd (d * s) - -(d * e)) = Fp.rnd (d * s) - d * e by ring]
        simpa using this
      · rw [abs_neg]; exact h1.2
    have h2 := (((Err.refl a).mono (by norm_num : 0 ≤ 5) le_rfl).add hn).rnd
    have h3 := h2.1
    rw [show Fp.mul d s = Fp.rnd (d * s) from rfl, mul_neg_one_rnd, show a - e * d = a + -(d * e) by ring,
      show k * |d| = |d| * k by ring]
    exact h3
  have h := len_sub_le_of (a := Fp.planeProjection pl p) (b := p - e • pl.normal) (m := absV p + k • absV pl.normal) c0
    (hc p.x pl.normal.x) (hc p.y pl.normal.y) (hc p.z pl.normal.z)
  refine h.trans (mul_le_mul_of_nonneg_left ?_ c0)
  refine (V3.len_add_le _ _).trans ?_
  have k0 : 0 ≤ k := mul_nonneg (V3.len_nonneg _) (V3.len_nonneg _)
  rw [V3.len_smul, absV_len, absV_len, abs_of_nonneg k0]
  apply le_of_eq
  ring

/-- **Projection on a plane.**  For a plane whose normal has length one up to 2⁻⁵⁰, as computed directions have
(`C87_direction`), the computed projection of a point is the point of the plane next to it, up to an error of 2⁻⁴⁸ times
the sum of the length of the point and its distance from the supporting point. -/
theorem C129_plane_projection (pl : Plane) (p : V3) (hn : |norm pl.normal - 1| ≤ 1 / 2 ^ 50) :
    ∃ q, OnPlane pl.supp pl.normal q ∧ (∀ q', OnPlane pl.supp pl.normal q' → Spec.dist p q ≤ Spec.dist p q') ∧
      Spec.dist (Fp.planeProjection pl p) q ≤ 1 / 2 ^ 48 * (norm p + Spec.dist pl.supp p) := by
  rw [norm_eq_len] at hn
  set n := pl.normal with hnd
  set v := p - pl.supp with hv
  set e := n.dot v with he
  set N := n.len with hN
  obtain ⟨n1, n2⟩ := abs_le.1 hn
  have Npos : 0 < N := by norm_num at n1; linarith
  have N2 : |N * N - 1| ≤ 17 / 2 ^ 53 := by
    rw [abs_le]
    norm_num at n1 n2 ⊢
    constructor <;> nlinarith
  have nn : n.sqLen = N * N := (V3.len_mul_self n).symm
  have nnpos : 0 < N * N := by positivity
  let q0 : V3 := p - (e / (N * N)) • n
  have hq0 : OnPlane pl.supp n q0 := by
    rw [onPlane_iff, show q0 - pl.supp = v - (e / (N * N)) • n by ext <;> simp [q0, hv] <;> ring, V3.dot_sub, V3.dot_smul,
      ← V3.sqLen_eq_dot, nn, ← he]
    field_simp
    ring
  refine ⟨q0, hq0, ?_, ?_⟩
  · intro q' hq'
    rw [onPlane_iff] at hq'
    rw [dist_eq_len, dist_eq_len]
    have e1 : p - q0 = (e / (N * N)) • n := by ext <;> simp [q0]
    have e2 : n.dot (p - q') = e := by
      rw [show p - q' = v - (q' - pl.supp) by ext <;> simp [hv], V3.dot_sub, hq', he, sub_zero]
    have e3 := V3.abs_dot_le n (p - q')
    rw [e2] at e3
    rw [e1, V3.len_smul, abs_div, abs_of_pos nnpos, ← hN]
    calc |e| / (N * N) * N = |e| / N := by field_simp
      _ ≤ _ := by rw [div_le_iff₀ Npos, mul_comm]; exact e3
  · have v0 := V3.len_nonneg v
    have p0 := V3.len_nonneg p
    have hP := planeProjection_error pl p
    rw [← hnd] at hP
    set P := Fp.planeProjection pl p
    have r6 : rho ^ 6 - 1 ≤ 6.01 / 2 ^ 53 := (rho_pow_sub_one_le (by norm_num)).trans (by norm_num)
    have Nle : N * N ≤ 1.001 := by
      have := (abs_le.1 N2).2
      norm_num at this ⊢
      linarith
    have a1 : (P - (p - e • n)).len ≤ 6.01 / 2 ^ 53 * (p.len + 1.001 * v.len) := by
      refine hP.trans (mul_le_mul r6 ?_ (by positivity) (by positivity))
      have : N * N * v.len ≤ 1.001 * v.len := mul_le_mul_of_nonneg_right Nle v0
      linarith
    have a2 : ((p - e • n) - q0).len ≤ 17 / 2 ^ 53 * v.len := by
      have e1 : (p - e • n) - q0 = (e * ((1 - N * N) / (N * N))) • n := by
        ext <;> simp [q0] <;> field_simp
      rw [e1, V3.len_smul, abs_mul, abs_div, abs_of_pos nnpos, abs_sub_comm]
      have he : |e| ≤ N * v.len := V3.abs_dot_le n v
      calc |e| * (|N * N - 1| / (N * N)) * n.len ≤ (N * v.len) * (17 / 2 ^ 53 / (N * N)) * n.len := by
            refine mul_le_mul_of_nonneg_right (mul_le_mul he (div_le_div_of_nonneg_right N2 nnpos.le) (by positivity)
              (by positivity)) (V3.len_nonneg _)
        _ = 17 / 2 ^ 53 * v.len := by
            rw [← hN]
            field_simp
    have a3 : (P - q0).len ≤ 6.01 / 2 ^ 53 * (p.len + 1.001 * v.len) + 17 / 2 ^ 53 * v.len := by
      have e1 : P - q0 = (P - (p - e • n)) + ((p - e • n) - q0) := by ext <;> simp
      rw [e1]
      exact (V3.len_add_le _ _).trans (add_le_add a1 a2)
    rw [dist_eq_len, dist_eq_len pl.supp, V3.len_sub_comm pl.supp, norm_eq_len]
    change _ ≤ 1 / 2 ^ 48 * (p.len + v.len)
    norm_num at a3 ⊢
    linarith

theorem err_between_dot (p q n : V3) :
    Err 4 (Fp.scalarProduct (Fp.vectorBetween p q) n) ((q - p).dot n) (n.len * (q - p).len) := by
  have h := err_dot_between n p q
  have e1 : Fp.scalarProduct (Fp.vectorBetween p q) n = Fp.scalarProduct n (Fp.vectorBetween p q) := by
    unfold Fp.scalarProduct Fp.mul
    simp only [mul_comm]
  rw [e1, V3.dot_comm]
  exact h

theorem confusion_bounds : 0.999 / 10 ^ 7 ≤ Fp.confusion ∧ Fp.confusion ≤ 1.001 / 10 ^ 7 := by
  have hc := close_confusion.abs_sub_le
  have hc1 := rho_pow_sub_one_le (show 1 ≤ 15 by norm_num)
  have hc2 : (rho ^ 1 - 1) * (1 / 10 ^ 7) ≤ 1 / 1000 * (1 / 10 ^ 7) :=
    mul_le_mul_of_nonneg_right (hc1.trans (by norm_num)) (by positivity)
  obtain ⟨c1, c2⟩ := abs_le.1 (hc.trans hc2)
  norm_num at c1 c2 ⊢
  constructor <;> linarith

/-- **Points on a plane.**  A point that is less than 0.99e-7 away from the plane is contained with the default
tolerance, a contained point is less than 1.01e-7 away, up to 2⁻⁵⁰ times the distance from the supporting point. -/
theorem C129_plane_contains (pl : Plane) (p : V3) (hn : |norm pl.normal - 1| ≤ 1 / 2 ^ 50) :
    (∀ q, OnPlane pl.supp pl.normal q → Spec.dist p q + 1 / 2 ^ 50 * Spec.dist pl.supp p ≤ 0.99 / 10 ^ 7 →
      Fp.planeContainsDefault pl p) ∧
    (Fp.planeContainsDefault pl p → ∃ q, OnPlane pl.supp pl.normal q ∧
      Spec.dist p q < 1.01 / 10 ^ 7 + 1 / 2 ^ 50 * Spec.dist pl.supp p) := by
  rw [norm_eq_len] at hn
  set n := pl.normal with hnd
  set v := p - pl.supp with hv
  set e := v.dot n with he
  set N := n.len with hN
  obtain ⟨n1, n2⟩ := abs_le.1 hn
  have Npos : 0 < N := by norm_num at n1; linarith
  have nnpos : 0 < N * N := by positivity
  have nn : n.sqLen = N * N := (V3.len_mul_self n).symm
  have v0 := V3.len_nonneg v
  have hd : Spec.dist pl.supp p = v.len := by rw [dist_eq_len, V3.len_sub_comm]
  have h4 := (err_between_dot pl.supp p n).1
  change |Fp.scalarProduct (Fp.vectorBetween pl.supp p) n - e| ≤ (rho ^ 4 - 1) * (N * v.len) at h4
  have r4 : (rho ^ 4 - 1) * (N * v.len) ≤ 5 / 2 ^ 53 * v.len := by
    have r4 : rho ^ 4 - 1 ≤ 4.01 / 2 ^ 53 := (rho_pow_sub_one_le (by norm_num)).trans (by norm_num)
    have : N * v.len ≤ 1.001 * v.len := mul_le_mul_of_nonneg_right (by norm_num at n2 ⊢; linarith) v0
    calc _ ≤ 4.01 / 2 ^ 53 * (1.001 * v.len) := mul_le_mul r4 this (by positivity) (by positivity)
      _ ≤ _ := by
        rw [← mul_assoc]
        exact mul_le_mul_of_nonneg_right (by norm_num) v0
  have h4 := h4.trans r4
  obtain ⟨c1, c2⟩ := confusion_bounds
  rw [hd]
  set S := Fp.scalarProduct (Fp.vectorBetween pl.supp p) n with hS
  constructor
  · intro q hq hle
    rw [onPlane_iff] at hq
    have e2 : n.dot (p - q) = e := by
      rw [show p - q = v - (q - pl.supp) by ext <;> simp [hv], V3.dot_sub, hq, he, sub_zero, V3.dot_comm]
    have e3 := V3.abs_dot_le n (p - q)
    rw [e2, ← dist_eq_len, ← hN] at e3
    have d0 : 0 ≤ Spec.dist p q := Real.sqrt_nonneg _
    have e4 : N * Spec.dist p q ≤ 1.001 * Spec.dist p q := mul_le_mul_of_nonneg_right (by norm_num at n2 ⊢; linarith) d0
    change |S| < Fp.confusion
    have e5 : |S| ≤ |S - e| + |e| := by
      have := abs_add_le (S - e) e
      rwa [sub_add_cancel] at this
    norm_num at *
    linarith
  · intro h
    change |S| < Fp.confusion at h
    let q0 : V3 := p - (e / (N * N)) • n
    refine ⟨q0, ?_, ?_⟩
    · rw [onPlane_iff, show q0 - pl.supp = v - (e / (N * N)) • n by ext <;> simp [q0, hv] <;> ring, V3.dot_sub,
        V3.dot_smul, ← V3.sqLen_eq_dot, nn, V3.dot_comm, ← he]
      field_simp
      ring
    · have e1 : p - q0 = (e / (N * N)) • n := by ext <;> simp [q0]
      rw [dist_eq_len, e1, V3.len_smul, abs_div, abs_of_pos nnpos, ← hN]
      have e2 : |e| / (N * N) * N = |e| / N := by field_simp
      rw [e2, div_lt_iff₀ Npos]
      have e5 : |e| ≤ |S - e| + |S| := by
        have := abs_add_le (e - S) S
        rwa [sub_add_cancel, abs_sub_comm] at this
      have e6 : 0.999 ≤ N := by norm_num at n1 ⊢; linarith
      have e7 : 0.999 * (1.01 / 10 ^ 7 + 1 / 2 ^ 50 * v.len) ≤ N * (1.01 / 10 ^ 7 + 1 / 2 ^ 50 * v.len) :=
        mul_le_mul_of_nonneg_right e6 (by positivity)
      rw [mul_comm]
      norm_num at *
      linarith

/-- **Projected points are on the plane.**  The computed projection of a point is contained in the plane with the default
tolerance if the length of the point and its distance from the supporting point are at most 10⁷. -/
theorem C129_plane_partial (pl : Plane) (p : V3) (hn : |norm pl.normal - 1| ≤ 1 / 2 ^ 50) (hp : norm p ≤ 10 ^ 7)
    (hs : Spec.dist pl.supp p ≤ 10 ^ 7) : Fp.planeContainsDefault pl (Fp.planeProjection pl p) := by
  obtain ⟨q, hq, hmin, hd⟩ := C129_plane_projection pl p hn
  have h1 : Spec.dist p q ≤ Spec.dist pl.supp p := by
    rw [Spec.dist_comm pl.supp]
    exact hmin _ (by unfold OnPlane; simp)
  apply (C129_plane_contains pl _ hn).1 q hq
  have t : ∀ a b c : V3, Spec.dist a c ≤ Spec.dist a b + Spec.dist b c := by
    intro a b c
    rw [dist_eq_len, dist_eq_len, dist_eq_len, show a - c = (a - b) + (b - c) by ext <;> simp]
    exact V3.len_add_le _ _
  have h2 := t pl.supp p (Fp.planeProjection pl p)
  have h3 := t p q (Fp.planeProjection pl p)
  rw [Spec.dist_comm q] at h3
  norm_num at *
  linarith

/-- The full property: all computed projections of points with double coordinates on planes with computed normals are
contained in the plane with the default tolerance. -/
def C129_full : Prop := ∀ (pl : Plane) (v p : V3), DoubleCoordinates pl.supp → DoubleCoordinates v → DoubleCoordinates p →
  Fp.mkDirection v = .val pl.normal → Fp.planeContainsDefault pl (Fp.planeProjection pl p)

/-- The full property fails: the tolerance is a fixed number, the roundings grow with the coordinates. -/
theorem C129_disproof : ¬ C129_full := by
  intro h
  let n : V3 := ⟨1, 1 / 2 ^ 51, 0⟩
  let p : V3 := ⟨2 ^ 52, 2 ^ 49, 0⟩
  have d0 : IsDouble 0 := ⟨0, 0, by norm_num, by norm_num⟩
  have d1 : IsDouble 1 := ⟨1, 0, by norm_num, by norm_num⟩
  have dn : IsDouble (1 / 2 ^ 51 : ℝ) := ⟨1, -51, by norm_num, by norm_num⟩
  have dx : IsDouble (2 ^ 52 : ℝ) := ⟨1, 52, by norm_num, by norm_num⟩
  have dy : IsDouble (2 ^ 49 : ℝ) := ⟨1, 49, by norm_num, by norm_num⟩
  have r1 := rnd_of_isDouble d1
  have rn := rnd_of_isDouble dn
  have rx := rnd_of_isDouble dx
  have ry := rnd_of_isDouble dy
  have rq : Fp.rnd (1 / 4) = 1 / 4 := rnd_of_isDouble ⟨1, -2, by norm_num, by norm_num⟩
  have r2 : Fp.rnd 2 = 2 := rnd_of_isDouble ⟨1, 1, by norm_num, by norm_num⟩
  have rs : Fp.rnd (1 + 1 / 2 ^ 102) = 1 := by
    apply rnd_eval (2 ^ 52) 52
    · norm_num
    · rw [abs_of_pos (by norm_num)]; norm_num
    · rw [abs_of_pos (by norm_num)]; norm_num
    · rw [abs_lt]; constructor <;> norm_num
  have rn2 : Fp.rnd (1 / 2 ^ 102) = 1 / 2 ^ 102 := rnd_of_isDouble ⟨1, -102, by norm_num, by norm_num⟩
  have re : Fp.rnd (2 ^ 52 + 1 / 4) = 2 ^ 52 := by
    apply rnd_eval (2 ^ 52) 0
    · norm_num
    · rw [abs_of_pos (by norm_num)]; norm_num
    · rw [abs_of_pos (by norm_num)]; norm_num
    · rw [abs_lt]; constructor <;> norm_num
  have ry2 : Fp.rnd (2 ^ 49 - 2) = 2 ^ 49 - 2 := rnd_of_isDouble ⟨2 ^ 49 - 2, 0, by norm_num, by norm_num⟩
  have rl : Fp.rnd (1 / 4 - 1 / 2 ^ 50) = 1 / 4 - 1 / 2 ^ 50 :=
    rnd_of_isDouble ⟨2 ^ 48 - 1, -50, by norm_num, by norm_num⟩
  have hl : Fp.length n = 1 := by
    unfold Fp.length Fp.squaredLength Fp.sqrt Fp.add Fp.mul
    simp only [n, mul_one, mul_zero, rnd_zero, zero_add, add_zero, r1]
    rw [show (1 / 2 ^ 51 * (1 / 2 ^ 51) : ℝ) = 1 / 2 ^ 102 by norm_num, rn2, rs, r1, Real.sqrt_one, r1]
  have hdir : Fp.mkDirection n = .val n := by
    unfold Fp.mkDirection
    rw [if_neg (by rw [hl]; norm_num), hl]
    unfold Fp.div
    simp only [n, div_one, r1, rn, rnd_zero]
  have hP : Fp.planeProjection ⟨0, 0, 0, n⟩ p = ⟨0, 2 ^ 49 - 2, 0⟩ := by
    unfold Fp.planeProjection Fp.move Fp.scale Fp.scalarProduct Fp.vectorBetween Fp.add Fp.sub Fp.mul
    simp only [n, p, V3.zero_x, V3.zero_y, V3.zero_z, sub_zero, one_mul, zero_mul, mul_zero, rnd_zero, zero_add, add_zero,
      rx, ry]
    rw [show (1 / 2 ^ 51 * 2 ^ 49 : ℝ) = 1 / 4 by norm_num, rq, re]
    simp only [rx, mul_neg_one, rnd_neg, add_neg_cancel, rnd_zero]
    rw [show (1 / 2 ^ 51 * 2 ^ 52 : ℝ) = 2 by norm_num, r2, r2, ← sub_eq_add_neg, ry2]
  have hh := h ⟨0, 0, 0, n⟩ n p ⟨d0, d0, d0⟩ ⟨d1, dn, d0⟩ ⟨dx, dy, d0⟩ hdir
  rw [hP] at hh
  have hc := confusion_bounds.2
  unfold Fp.planeContainsDefault Fp.planeContains Fp.scalarProduct Fp.vectorBetween Fp.add Fp.sub Fp.mul at hh
  simp only [n, V3.zero_x, V3.zero_y, V3.zero_z, sub_zero, zero_mul, mul_zero, rnd_zero, zero_add, add_zero, ry2] at hh
  rw [show ((2 ^ 49 - 2) * (1 / 2 ^ 51) : ℝ) = 1 / 4 - 1 / 2 ^ 50 by norm_num, rl, rl, rl, abs_of_pos (by norm_num)] at hh
  norm_num at hh hc
  linarith

/-- The plane through the origin with normal (1, 0, 0) and the point (3, 4, 12). -/
example : Fp.planeContainsDefault ⟨0, ⟨0, 1, 0⟩, ⟨0, 0, 1⟩, ⟨1, 0, 0⟩⟩
    (Fp.planeProjection ⟨0, ⟨0, 1, 0⟩, ⟨0, 0, 1⟩, ⟨1, 0, 0⟩⟩ ⟨3, 4, 12⟩) := by
  apply C129_plane_partial
  · unfold Spec.norm; norm_num
  · have : Spec.norm (⟨3, 4, 12⟩ : V3) = 13 := by
      unfold Spec.norm
      rw [Real.sqrt_eq_iff_mul_self_eq_of_pos (by norm_num)]
      norm_num
    rw [this]; norm_num
  · have : Spec.dist (0 : V3) ⟨3, 4, 12⟩ = 13 := by
      unfold Spec.dist
      rw [Real.sqrt_eq_iff_mul_self_eq_of_pos (by norm_num)]
      norm_num
    rw [this]; norm_num

/-! ### Lines -/

theorem dist_triangle (a b c : V3) : Spec.dist a c ≤ Spec.dist a b + Spec.dist b c := by
  rw [dist_eq_len, dist_eq_len, dist_eq_len, show a - c = (a - b) + (b - c) by ext <;> simp]
  exact V3.len_add_le _ _

/-- **Projected points are on the line.**  The computed projection of a point is contained in the line with the default
tolerance if the length of the supporting point and its distance from the point are at most 3·10⁶. -/
theorem C129_line_partial (l : Line) (p : V3) (hn : |norm l.dir - 1| ≤ 1 / 2 ^ 50) (hs : norm l.supp ≤ 3 * 10 ^ 6)
    (hp : Spec.dist l.supp p ≤ 3 * 10 ^ 6) : Fp.lineContainsDefault l (Fp.lineProjection l p) := by
  set P := Fp.lineProjection l p with hPd
  obtain ⟨D, hD, ⟨q, hq, -⟩, hd⟩ := C116_line l P hn
  have hP := lineProjection_error l p
  rw [← hPd] at hP
  rw [norm_eq_len] at hn
  set n := l.dir with hnd
  set v := p - l.supp with hv
  set e := n.dot v
  set N := n.len with hN
  obtain ⟨n1, n2⟩ := abs_le.1 hn
  have N0 : 0 ≤ N := V3.len_nonneg n
  have Nle : N ≤ 1.0001 := by norm_num at n2 ⊢; linarith
  have v0 := V3.len_nonneg v
  have s0 := V3.len_nonneg l.supp
  have hdv : Spec.dist l.supp p = v.len := by rw [dist_eq_len, V3.len_sub_comm]
  rw [hdv] at hp
  rw [norm_eq_len] at hs hd
  have r6 : rho ^ 6 - 1 ≤ 6.01 / 2 ^ 53 := (rho_pow_sub_one_le (by norm_num)).trans (by norm_num)
  have NN : N * N ≤ 1.001 := by nlinarith
  have a1 : Spec.dist P (l.supp + e • n) ≤ 6.01 / 2 ^ 53 * (l.supp.len + 1.001 * v.len) := by
    rw [dist_eq_len]
    refine hP.trans (mul_le_mul r6 ?_ (by positivity) (by positivity))
    have : N * N * v.len ≤ 1.001 * v.len := mul_le_mul_of_nonneg_right NN v0
    linarith
  have hD1 := hD (l.supp + e • n) ((onLine_iff _ _ _).2 ⟨e, rfl⟩)
  have a2 : Spec.dist l.supp (l.supp + e • n) ≤ 1.001 * v.len := by
    rw [dist_eq_len, show l.supp - (l.supp + e • n) = (-e) • n by ext <;> simp, V3.len_smul, abs_neg]
    have he : |e| ≤ N * v.len := V3.abs_dot_le n v
    calc |e| * N ≤ N * v.len * N := mul_le_mul_of_nonneg_right he N0
      _ = N * N * v.len := by ring
      _ ≤ _ := mul_le_mul_of_nonneg_right NN v0
  have a3 := dist_triangle l.supp (l.supp + e • n) P
  rw [Spec.dist_comm (l.supp + e • n) P] at a3
  have a4 : Fp.distPointLine P l ≤ 0.98 / 10 ^ 7 := by
    have := (abs_le.1 hd).2
    norm_num at *
    linarith
  have a5 := (close_distPointPoint P (Fp.lineProjection l P)).2.2.1
  change Spec.dist P (Fp.lineProjection l P) ≤ rho ^ 4 * Fp.distPointLine P l at a5
  have a6 : rho ^ 4 * Fp.distPointLine P l ≤ 1.0001 * (0.98 / 10 ^ 7) :=
    mul_le_mul ((rho_pow_le (show 4 ≤ 15 by norm_num)).trans (by norm_num)) a4
      (close_distPointPoint P (Fp.lineProjection l P)).1 (by norm_num)
  obtain ⟨c1, c2⟩ := confusion_bounds
  refine (C116_equal P (Fp.lineProjection l P) Fp.confusion (lt_of_lt_of_le (by norm_num) c1)).1 ?_
  have a7 := a5.trans a6
  norm_num at a7 c1 ⊢
  linarith

/-- The full property for lines. -/
def C129_line_full : Prop := ∀ (l : Line) (v p : V3), DoubleCoordinates l.supp → DoubleCoordinates v →
  DoubleCoordinates p → Fp.mkDirection v = .val l.dir → Fp.lineContainsDefault l (Fp.lineProjection l p)

/-- The full property fails for lines as well: the projection of the point (2³¹, 2³¹, 0) on the line through the origin
with direction (1, 1, 0) is not the point itself, and its projection is yet another point. -/
theorem C129_line_disproof : ¬ C129_line_full := by
  intro h
  have d0 : IsDouble 0 := ⟨0, 0, by norm_num, by norm_num⟩
  have d1 : IsDouble 1 := ⟨1, 0, by norm_num, by norm_num⟩
  have d31 : IsDouble (2 ^ 31 : ℝ) := ⟨1, 31, by norm_num, by norm_num⟩
  have r1 := rnd_of_isDouble d1
  have r2 : Fp.rnd 2 = 2 := rnd_of_isDouble ⟨1, 1, by norm_num, by norm_num⟩
  have r31 := rnd_of_isDouble d31
  have hsq : Fp.rnd √2 = 6369051672525773 / 2 ^ 52 := by
    have b1 : (6369051672525773 - 1 / 2 : ℝ) / 2 ^ 52 < √2 := by
      apply Real.lt_sqrt_of_sq_lt
      norm_num
    have b2 : √2 < (6369051672525773 + 1 / 2 : ℝ) / 2 ^ 52 := by
      rw [Real.sqrt_lt' (by norm_num)]
      norm_num
    apply rnd_eval 6369051672525773 52
    · norm_num
    · rw [abs_of_pos (by positivity)]
      norm_num at b1 b2 ⊢
    · rw [abs_of_pos (by positivity)]
      norm_num at b1 b2 ⊢
      linarith
    · rw [abs_lt]
      norm_num at b1 b2 ⊢
      constructor <;> linarith
  have hl : Fp.length ⟨1, 1, 0⟩ = 6369051672525773 / 2 ^ 52 := by
    unfold Fp.length Fp.squaredLength Fp.sqrt Fp.add Fp.mul
    simp only [mul_one, mul_zero, rnd_zero, zero_add, add_zero, r1]
    rw [show (1 + 1 : ℝ) = 2 by norm_num, r2, r2, hsq]
  set c : ℝ := 6369051672525772 / 2 ^ 53 with hc
  have hq : Fp.rnd (1 / (6369051672525773 / 2 ^ 52)) = c := by
    apply rnd_eval 6369051672525772 53
    · rw [hc]; norm_num
    · rw [abs_of_pos (by norm_num)]; norm_num
    · rw [abs_of_pos (by norm_num)]; norm_num
    · rw [abs_lt]; constructor <;> norm_num
  have hdir : Fp.mkDirection ⟨1, 1, 0⟩ = .val ⟨c, c, 0⟩ := by
    unfold Fp.mkDirection
    rw [if_neg (by rw [hl]; norm_num), hl]
    unfold Fp.div
    simp only [hq, zero_div, rnd_zero]
  have hproj : ∀ x a b y : ℝ, Fp.rnd x = x → Fp.rnd (c * x) = a → Fp.rnd (a + a) = b → Fp.rnd (c * b) = y →
      Fp.lineProjection ⟨0, ⟨c, c, 0⟩⟩ ⟨x, x, 0⟩ = ⟨y, y, 0⟩ := by
    intro x a b y h1 h2 h3 h4
    have ha : Fp.rnd a = a := by rw [← h2, rnd_rnd]
    have hb : Fp.rnd b = b := by rw [← h3, rnd_rnd]
    have hy : Fp.rnd y = y := by rw [← h4, rnd_rnd]
    unfold Fp.lineProjection Fp.move Fp.scale Fp.scalarProduct Fp.vectorBetween Fp.add Fp.sub Fp.mul
    simp only [V3.zero_x, V3.zero_y, V3.zero_z, sub_zero, zero_mul, rnd_zero, zero_add, add_zero, h1, h2, ha, h3, hb, h4, hy]
  have p1 := hproj (2 ^ 31) (6369051672525772 / 2 ^ 22) (6369051672525772 / 2 ^ 21) ((2 ^ 53 - 2) / 2 ^ 22) r31
    (rnd_of_isDouble ⟨6369051672525772, -22, by norm_num, by rw [hc]; norm_num⟩ |>.trans (by rw [hc]; norm_num))
    (rnd_of_isDouble ⟨6369051672525772, -21, by norm_num, by norm_num⟩ |>.trans (by norm_num))
    (by
      apply rnd_eval (2 ^ 53 - 2) 22
      · norm_num
      · rw [hc, abs_of_pos (by norm_num)]; norm_num
      · rw [hc, abs_of_pos (by norm_num)]; norm_num
      · rw [hc, abs_lt]; constructor <;> norm_num)
  have p2 := hproj ((2 ^ 53 - 2) / 2 ^ 22) (6369051672525771 / 2 ^ 22) (6369051672525771 / 2 ^ 21) ((2 ^ 53 - 3) / 2 ^ 22)
    (rnd_of_isDouble ⟨2 ^ 53 - 2, -22, by norm_num, by norm_num⟩)
    (by
      apply rnd_eval 6369051672525771 22
      · norm_num
      · rw [hc, abs_of_pos (by norm_num)]; norm_num
      · rw [hc, abs_of_pos (by norm_num)]; norm_num
      · rw [hc, abs_lt]; constructor <;> norm_num)
    (rnd_of_isDouble ⟨6369051672525771, -21, by norm_num, by norm_num⟩ |>.trans (by norm_num))
    (by
      apply rnd_eval (2 ^ 53 - 3) 22
      · norm_num
      · rw [hc, abs_of_pos (by norm_num)]; norm_num
      · rw [hc, abs_of_pos (by norm_num)]; norm_num
      · rw [hc, abs_lt]; constructor <;> norm_num)
  have hh := h ⟨0, ⟨c, c, 0⟩⟩ ⟨1, 1, 0⟩ ⟨2 ^ 31, 2 ^ 31, 0⟩ ⟨d0, d0, d0⟩ ⟨d1, d1, d0⟩ ⟨d31, d31, d0⟩ hdir
  rw [p1] at hh
  unfold Fp.lineContainsDefault Fp.lineContains at hh
  rw [p2] at hh
  have hd := (C116_equal_default _ _).2 hh
  unfold Spec.dist at hd
  rw [Real.sqrt_lt' (by norm_num)] at hd
  norm_num at hd

/-! ### Planes through three points -/

theorem Err.sub' {k : ℕ} {a b m c d n : ℝ} (h : Err k a b m) (h' : Err k c d n) : Err k (a - c) (b - d) (m + n) := by
  have hn : Err k (-c) (-d) n := by
    refine ⟨?_, ?_⟩
    · rw [← abs_neg, show -(-c - -d) = c - d by ring]
      exact h'.1
    · rw [abs_neg]; exact h'.2
  have := h.add hn
  rwa [← sub_eq_add_neg, ← sub_eq_add_neg] at this

/-- The sums of the absolute values of the products in a cross product. -/
noncomputable def absCross (u b : V3) : V3 :=
  ⟨|u.y| * |b.z| + |u.z| * |b.y|, |u.z| * |b.x| + |u.x| * |b.z|, |u.x| * |b.y| + |u.y| * |b.x|⟩

theorem absCross_len (u b : V3) : (absCross u b).len ≤ 2 * (u.len * b.len) := by
  have h0 : 0 ≤ 2 * (u.len * b.len) := by have := V3.len_nonneg u; have := V3.len_nonneg b; positivity
  unfold V3.len at h0 ⊢
  refine Real.sqrt_le_iff.2 ⟨h0, ?_⟩
  rw [mul_pow, mul_pow, Real.sq_sqrt (V3.sqLen_nonneg u), Real.sq_sqrt (V3.sqLen_nonneg b)]
  unfold V3.sqLen absCross
  have ux := abs_mul_abs_self u.x
  have uy := abs_mul_abs_self u.y
  have uz := abs_mul_abs_self u.z
  have bx := abs_mul_abs_self b.x
  have by' := abs_mul_abs_self b.y
  have bz := abs_mul_abs_self b.z
  rw [← ux, ← uy, ← uz, ← bx, ← by', ← bz]
  generalize |u.x| = x, |u.y| = y, |u.z| = z, |b.x| = X, |b.y| = Y, |b.z| = Z
  nlinarith [sq_nonneg (x * X), sq_nonneg (y * Y), sq_nonneg (z * Z), sq_nonneg (y * Z - z * Y), sq_nonneg (z * X - x * Z),
    sq_nonneg (x * Y - y * X), sq_nonneg (x * Y), sq_nonneg (x * Z), sq_nonneg (y * X), sq_nonneg (y * Z),
    sq_nonneg (z * X), sq_nonneg (z * Y)]

/-- The computed cross product of vectors whose coordinates have errors. -/
theorem crossProduct_error {j k : ℕ} {u' u b' b : V3} (ux : Err j u'.x u.x |u.x|) (uy : Err j u'.y u.y |u.y|)
    (uz : Err j u'.z u.z |u.z|) (bx : Err k b'.x b.x |b.x|) (by' : Err k b'.y b.y |b.y|) (bz : Err k b'.z b.z |b.z|) :
    (Fp.crossProduct u' b' - u.cross b).len ≤ (rho ^ (j + k + 2) - 1) * (2 * (u.len * b.len)) := by
  have c0 : 0 ≤ rho ^ (j + k + 2) - 1 := by linarith [one_le_rho_pow (j + k + 2)]
  have m : ∀ {p' p q' q r' r s' s : ℝ}, Err j p' p |p| → Err k q' q |q| → Err j r' r |r| → Err k s' s |s| →
      |Fp.sub (Fp.mul p' q') (Fp.mul r' s') - (p * q - r * s)| ≤ (rho ^ (j + k + 2) - 1) * (|p| * |q| + |r| * |s|) := by
    intro p' p q' q r' r s' s h1 h2 h3 h4
    exact (Err.sub' ((h1.mul h2).rnd) ((h3.mul h4).rnd)).rnd.1
  have h := len_sub_le_of (a := Fp.crossProduct u' b') (b := u.cross b) (m := absCross u b) c0
    (m uy bz uz by') (m uz bx ux bz) (m ux by' uy bx)
  exact h.trans (mul_le_mul_of_nonneg_left (absCross_len u b) c0)

/-- The computed direction of the vector between two points. -/
theorem direction_between (p q : V3) (h : p ≠ q) : ∃ u', Fp.mkDirection (Fp.vectorBetween p q) = .val u' ∧
    ∀ u : V3, u = (q - p).len⁻¹ • (q - p) → Err 6 u'.x u.x |u.x| ∧ Err 6 u'.y u.y |u.y| ∧ Err 6 u'.z u.z |u.z| := by
  have hl := (close_length (Fp.vectorBetween p q)).trans (close_between p q)
  rw [Spec.dist_comm, dist_eq_len] at hl
  have hpos : 0 < (q - p).len := V3.len_pos.2 fun h0 => h (by
    have hx := congrArg V3.x h0
    have hy := congrArg V3.y h0
    have hz := congrArg V3.z h0
    simp only [V3.sub_x, V3.sub_y, V3.sub_z, V3.zero_x, V3.zero_y, V3.zero_z] at hx hy hz
    ext <;> linarith)
  have hl0 : Fp.length (Fp.vectorBetween p q) ≠ 0 := by
    intro h0
    have := hl.2.2.1
    rw [h0, mul_zero] at this
    linarith
  have hi := hl.inv.err
  refine ⟨_, if_neg hl0, ?_⟩
  rintro u rfl
  have m : ∀ {w v : ℝ}, Err 1 w v |v| → Err 6 (Fp.div w (Fp.length (Fp.vectorBetween p q))) ((q - p).len⁻¹ * v)
      |(q - p).len⁻¹ * v| := by
    intro w v hw
    have := (hw.mul hi).rnd
    rw [abs_mul, abs_of_pos (inv_pos.2 hpos), mul_comm (q - p).len⁻¹, mul_comm (q - p).len⁻¹]
    exact this
  exact ⟨m (err_between_x p q), m (err_between_y p q), m (err_between_z p q)⟩

theorem len_direction {v n : V3} (h : Fp.mkDirection v = .val n) (hv : v ≠ 0) :
    (n - v.len⁻¹ • v).len ≤ 1 / 2 ^ 50 ∧ |n.len - 1| ≤ 1 / 2 ^ 50 := by
  obtain ⟨n', hn, hx, hy, hz, hl⟩ := C87_direction v hv
  rw [h] at hn
  obtain rfl := Outcome.val.inj hn
  rw [norm_eq_len] at *
  refine ⟨?_, hl⟩
  have hpos := V3.len_pos.2 hv
  have := len_sub_le_of (a := n) (b := v.len⁻¹ • v) (m := absV (v.len⁻¹ • v)) (c := 1 / 2 ^ 50) (by positivity)
    (by
      simp only [V3.smul_x, absV, abs_mul, abs_of_pos (inv_pos.2 hpos)]
      rw [inv_mul_eq_div, inv_mul_eq_div]; exact hx)
    (by
      simp only [V3.smul_y, absV, abs_mul, abs_of_pos (inv_pos.2 hpos)]
      rw [inv_mul_eq_div, inv_mul_eq_div]; exact hy)
    (by
      simp only [V3.smul_z, absV, abs_mul, abs_of_pos (inv_pos.2 hpos)]
      rw [inv_mul_eq_div, inv_mul_eq_div]; exact hz)
  rw [absV_len, V3.len_smul, abs_of_pos (inv_pos.2 hpos), inv_mul_cancel₀ hpos.ne', mul_one] at this
  exact this

theorem contains_of_dot (pl : Plane) (p : V3) (hn : |norm pl.normal - 1| ≤ 1 / 2 ^ 50)
    (h : |pl.normal.dot (p - pl.supp)| ≤ 0.9 / 10 ^ 7) (hv : Spec.dist pl.supp p ≤ 10 ^ 7) :
    Fp.planeContainsDefault pl p := by
  have hn' := hn
  rw [norm_eq_len] at hn'
  obtain ⟨n1, n2⟩ := abs_le.1 hn'
  have npos : 0.999 ≤ pl.normal.len := by norm_num at n1 ⊢; linarith
  have n0 : 0 < pl.normal.len := by linarith
  have nn : pl.normal.dot pl.normal = pl.normal.len * pl.normal.len := (V3.len_mul_self _).symm
  set e := pl.normal.dot (p - pl.supp) with he
  set q := p - (e / (pl.normal.len * pl.normal.len)) • pl.normal with hq
  apply (C129_plane_contains pl p hn).1 q
  · change pl.normal.dot (q - pl.supp) = 0
    have : pl.normal.dot (q - pl.supp) = e - e / (pl.normal.len * pl.normal.len) * pl.normal.dot pl.normal := by
      rw [hq, he]
      simp only [V3.dot, V3.sub_x, V3.sub_y, V3.sub_z, V3.smul_x, V3.smul_y, V3.smul_z]
      ring
    rw [this, nn]
    field_simp
    ring
  · have h1 : Spec.dist p q = |e| / pl.normal.len := by
      rw [dist_eq_len, show p - q = (e / (pl.normal.len * pl.normal.len)) • pl.normal by rw [hq]; ext <;> simp,
        V3.len_smul, abs_div, abs_of_pos (mul_pos n0 n0)]
      field_simp
    have h2 : |e| / pl.normal.len ≤ 0.901 / 10 ^ 7 := by
      rw [div_le_iff₀ n0]
      norm_num at *
      linarith
    rw [h1]
    norm_num at *
    linarith

theorem normal_dot {c c' n a : V3} {δ L : ℝ} (hc : (c' - c).len ≤ δ) (hL : 0 < L) (hL' : L ≤ c'.len) (h0 : c.dot a = 0)
    (h : Fp.mkDirection c' = .val n) : |n.dot a| ≤ (1 / 2 ^ 50 + δ / L) * a.len := by
  have c0 : c' ≠ 0 := V3.len_pos.1 (hL.trans_le hL')
  have hp := hL.trans_le hL'
  obtain ⟨h1, -⟩ := len_direction h c0
  have e : n.dot a = (n - c'.len⁻¹ • c').dot a + c'.len⁻¹ * (c' - c).dot a + c'.len⁻¹ * c.dot a := by
    simp only [V3.dot, V3.sub_x, V3.sub_y, V3.sub_z, V3.smul_x, V3.smul_y, V3.smul_z]
    ring
  rw [e, h0, mul_zero, add_zero]
  refine (abs_add_le _ _).trans ?_
  rw [add_mul]
  have a0 := V3.len_nonneg a
  have d0 := (V3.len_nonneg _).trans hc
  refine add_le_add ((V3.abs_dot_le _ _).trans (mul_le_mul_of_nonneg_right h1 a0)) ?_
  rw [abs_mul, abs_of_pos (inv_pos.2 hp)]
  calc c'.len⁻¹ * |(c' - c).dot a| ≤ L⁻¹ * (δ * a.len) := by
        refine mul_le_mul (inv_anti₀ hL hL') ?_ (abs_nonneg _) (by positivity)
        exact (V3.abs_dot_le _ _).trans (mul_le_mul_of_nonneg_right hc a0)
    _ = δ / L * a.len := by rw [div_eq_inv_mul]; ring

theorem cross_dot_left (u b : V3) : (u.cross b).dot u = 0 := by
  simp only [V3.dot, V3.cross]; ring

theorem cross_dot_right (u b : V3) : (u.cross b).dot b = 0 := by
  simp only [V3.dot, V3.cross]; ring

theorem smul_cross_len (t : ℝ) (u b : V3) : ((t • u).cross b).len = |t| * (u.cross b).len := by
  rw [← V3.len_smul]
  congr 1
  ext <;> simp [V3.cross] <;> ring

theorem sq_cross (u b : V3) : (u.cross b).len * (u.cross b).len = u.len * u.len * (b.len * b.len) - u.dot b * u.dot b := by
  rw [V3.len_mul_self, V3.len_mul_self, V3.len_mul_self]
  simp only [V3.dot, V3.cross, V3.sqLen]
  ring

/-- **Planes through three points.**  Let K bound the product of the lengths of the two edges from the first point divided
by twice the area of the triangle (the inverse of the sine of the angle).  If K and K times the lengths of these edges are
at most 10⁷, then the plane constructed from the three points has a normal of length one up to 2⁻⁵⁰ and contains the three
points with the default tolerance. -/
theorem C129_three_points (p1 p2 p3 : V3) (K : ℝ) (hpos : 0 < norm ((p2 - p1).cross (p3 - p1)))
    (hK : Spec.dist p1 p2 * Spec.dist p1 p3 ≤ K * norm ((p2 - p1).cross (p3 - p1))) (K1 : K ≤ 10 ^ 7)
    (h2 : K * Spec.dist p1 p2 ≤ 10 ^ 7) (h3 : K * Spec.dist p1 p3 ≤ 10 ^ 7) :
    ∃ pl, Fp.planeOfPoints p1 p2 p3 = .val pl ∧ pl.supp = p1 ∧ |norm pl.normal - 1| ≤ 1 / 2 ^ 50 ∧
      Fp.planeContainsDefault pl p1 ∧ Fp.planeContainsDefault pl p2 ∧ Fp.planeContainsDefault pl p3 := by
  rw [norm_eq_len] at hpos hK
  rw [Spec.dist_comm, dist_eq_len, Spec.dist_comm, dist_eq_len] at hK
  rw [Spec.dist_comm, dist_eq_len] at h2 h3
  set a := p2 - p1 with ha
  set b := p3 - p1 with hb
  have hsq := sq_cross a b
  have apos : 0 < a.len := by
    rcases (V3.len_nonneg a).eq_or_lt with h | h
    · rw [← h] at hsq; nlinarith [mul_self_nonneg (a.dot b)]
    · exact h
  have bpos : 0 < b.len := by
    rcases (V3.len_nonneg b).eq_or_lt with h | h
    · rw [← h] at hsq; nlinarith [mul_self_nonneg (a.dot b)]
    · exact h
  have hcle : (a.cross b).len ≤ a.len * b.len := by
    apply le_of_sq_le_sq _ (by positivity)
    nlinarith [mul_self_nonneg (a.dot b)]
  have K0 : 1 ≤ K := by
    by_contra hlt
    push Not at hlt
    nlinarith
  have al : a.len ≤ 10 ^ 7 := (le_mul_of_one_le_left apos.le K0).trans h2
  have bl : b.len ≤ 10 ^ 7 := (le_mul_of_one_le_left bpos.le K0).trans h3
  have hne : p1 ≠ p2 := by
    rintro rfl
    rw [ha] at apos
    simp [V3.len, V3.sqLen] at apos
  obtain ⟨u', hu', hue⟩ := direction_between p1 p2 hne
  set u := a.len⁻¹ • a with hu
  obtain ⟨ux, uy, uz⟩ := hue u hu
  have ulen : u.len = 1 := by
    rw [hu, V3.len_smul, abs_of_pos (inv_pos.2 apos), inv_mul_cancel₀ apos.ne']
  -- the normal
  have hc := crossProduct_error (b' := Fp.vectorBetween p1 p3) (b := b) ux uy uz (err_between_x p1 p3) (err_between_y p1 p3) (err_between_z p1 p3)
  rw [ulen, one_mul] at hc
  set c' := Fp.crossProduct u' (Fp.vectorBetween p1 p3) with hc'
  set c := u.cross b with hcd
  have clen : c.len = a.len⁻¹ * (a.cross b).len := by rw [hcd, hu, smul_cross_len, abs_of_pos (inv_pos.2 apos)]
  have cpos : 0 < c.len := by rw [clen]; positivity
  have hbc : b.len ≤ K * c.len := by
    rw [clen]
    have : b.len = a.len⁻¹ * (a.len * b.len) := by field_simp
    rw [this]
    calc a.len⁻¹ * (a.len * b.len) ≤ a.len⁻¹ * (K * (a.cross b).len) := mul_le_mul_of_nonneg_left hK (by positivity)
      _ = _ := by ring
  have r9 : rho ^ (6 + 1 + 2) - 1 ≤ 9.01 / 2 ^ 53 := (rho_pow_sub_one_le (by norm_num)).trans (by norm_num)
  have hδ : (c' - c).len ≤ 18.02 / 2 ^ 53 * K * c.len := by
    refine hc.trans ?_
    calc (rho ^ (6 + 1 + 2) - 1) * (2 * b.len) ≤ 9.01 / 2 ^ 53 * (2 * (K * c.len)) :=
          mul_le_mul r9 (by linarith) (by positivity) (by positivity)
      _ = _ := by ring
  have hδ2 : (c' - c).len ≤ 1 / 2 * c.len := by
    refine hδ.trans (mul_le_mul_of_nonneg_right ?_ cpos.le)
    norm_num at K1 ⊢
    linarith
  have hc2 : 1 / 2 * c.len ≤ c'.len := by
    have := abs_le.1 (abs_len_sub_le c' c)
    linarith [this.1]
  have hL : 0 < 1 / 2 * c.len := by positivity
  have c'0 : c' ≠ 0 := V3.len_pos.1 (hL.trans_le hc2)
  obtain ⟨n, hn, -, -, -, hn1⟩ := C87_direction c' c'0
  have hquot : 18.02 / 2 ^ 53 * K * c.len / (1 / 2 * c.len) = 36.04 / 2 ^ 53 * K := by
    field_simp
    norm_num
  have dot_u : |n.dot u| ≤ 1 / 2 ^ 50 + 36.04 / 2 ^ 53 * K := by
    have := normal_dot hδ hL hc2 (cross_dot_left u b) hn
    rwa [hquot, ulen, mul_one] at this
  have dot_a : |n.dot a| ≤ (1 / 2 ^ 50 + 36.04 / 2 ^ 53 * K) * a.len := by
    have e : n.dot a = a.len * n.dot u := by
      rw [hu]
      simp only [V3.dot, V3.smul_x, V3.smul_y, V3.smul_z]
      field_simp
    rw [e, abs_mul, abs_of_pos apos, mul_comm]
    exact mul_le_mul_of_nonneg_right dot_u apos.le
  have dot_b : |n.dot b| ≤ (1 / 2 ^ 50 + 36.04 / 2 ^ 53 * K) * b.len := by
    have := normal_dot hδ hL hc2 (cross_dot_right u b) hn
    rwa [hquot] at this
  -- the second base vector
  have hb2 : Fp.crossProduct n u' ≠ 0 := by
    have he := crossProduct_error (Err.refl n.x) (Err.refl n.y) (Err.refl n.z) ux uy uz
    rw [ulen, mul_one] at he
    rw [norm_eq_len] at hn1
    obtain ⟨n1, n2⟩ := abs_le.1 hn1
    intro h0
    rw [h0, V3.len_sub_comm, show n.cross u - 0 = n.cross u by ext <;> simp] at he
    have hs := sq_cross n u
    rw [ulen, one_mul, mul_one] at hs
    have r8 : rho ^ (0 + 6 + 2) - 1 ≤ 8.01 / 2 ^ 53 := (rho_pow_sub_one_le (by norm_num)).trans (by norm_num)
    have h4 : (n.cross u).len ≤ 1 / 4 := by
      refine he.trans ?_
      calc (rho ^ (0 + 6 + 2) - 1) * (2 * n.len) ≤ 8.01 / 2 ^ 53 * (2 * 2) :=
            mul_le_mul r8 (by norm_num at n2; linarith)
              (mul_nonneg (by norm_num) (V3.len_nonneg n)) (by positivity)
        _ ≤ _ := by norm_num
    have h5 : |n.dot u| ≤ 1 / 4 := by
      refine dot_u.trans ?_
      norm_num at K1 ⊢
      linarith
    have h6 : 0.9 ≤ n.len := by norm_num at n1 ⊢; linarith
    have h7 := abs_le.1 h5
    have h8 := V3.len_nonneg (n.cross u)
    nlinarith [h7.1, h7.2]
  obtain ⟨m, hm, -⟩ := C87_direction _ hb2
  refine ⟨⟨p1, u', m, n⟩, ?_, rfl, hn1, ?_, ?_, ?_⟩
  · unfold Fp.planeOfPoints
    rw [hu', Outcome.val_bind, ← hc', hn, Outcome.val_bind, hm, Outcome.val_bind]
    rfl
  · refine contains_of_dot _ p1 hn1 ?_ ?_
    · change |n.dot (p1 - p1)| ≤ _
      simp [V3.dot]
      norm_num
    · change Spec.dist p1 p1 ≤ _
      rw [dist_eq_len]
      simp [V3.len, V3.sqLen]
  · refine contains_of_dot _ p2 hn1 ?_ ?_
    · change |n.dot a| ≤ _
      refine dot_a.trans ?_
      rw [add_mul, mul_assoc]
      norm_num at al h2 ⊢
      linarith
    · change Spec.dist p1 p2 ≤ _
      rw [Spec.dist_comm, dist_eq_len]
      exact al
  · refine contains_of_dot _ p3 hn1 ?_ ?_
    · change |n.dot b| ≤ _
      refine dot_b.trans ?_
      rw [add_mul, mul_assoc]
      norm_num at bl h3 ⊢
      linarith
    · change Spec.dist p1 p3 ≤ _
      rw [Spec.dist_comm, dist_eq_len]
      exact bl

/-- The hypotheses hold for a triangle that is not aligned with the axes. -/
example : ∃ pl, Fp.planeOfPoints ⟨1, 2, 3⟩ ⟨4, 2, 7⟩ ⟨1, 7, 3⟩ = .val pl ∧ Fp.planeContainsDefault pl ⟨1, 7, 3⟩ := by
  have e1 : ((⟨4, 2, 7⟩ : V3) - ⟨1, 2, 3⟩) = ⟨3, 0, 4⟩ := by ext <;> norm_num
  have e2 : ((⟨1, 7, 3⟩ : V3) - ⟨1, 2, 3⟩) = ⟨0, 5, 0⟩ := by ext <;> norm_num
  have l1 : (⟨3, 0, 4⟩ : V3).len = 5 := by
    unfold V3.len V3.sqLen; rw [show (3 * 3 + 0 * 0 + 4 * 4 : ℝ) = 5 ^ 2 by norm_num]; exact Real.sqrt_sq (by norm_num)
  have l2 : (⟨0, 5, 0⟩ : V3).len = 5 := by
    unfold V3.len V3.sqLen; rw [show (0 * 0 + 5 * 5 + 0 * 0 : ℝ) = 5 ^ 2 by norm_num]; exact Real.sqrt_sq (by norm_num)
  have e3 : (⟨3, 0, 4⟩ : V3).cross ⟨0, 5, 0⟩ = ⟨-20, 0, 15⟩ := by ext <;> norm_num [V3.cross]
  have l3 : (⟨-20, 0, 15⟩ : V3).len = 25 := by
    unfold V3.len V3.sqLen; rw [show (-20 * -20 + 0 * 0 + 15 * 15 : ℝ) = 25 ^ 2 by norm_num]; exact Real.sqrt_sq (by norm_num)
  have d1 : Spec.dist (⟨1, 2, 3⟩ : V3) ⟨4, 2, 7⟩ = 5 := by rw [Spec.dist_comm, dist_eq_len, e1, l1]
  have d2 : Spec.dist (⟨1, 2, 3⟩ : V3) ⟨1, 7, 3⟩ = 5 := by rw [Spec.dist_comm, dist_eq_len, e2, l2]
  obtain ⟨pl, h1, -, -, -, -, h2⟩ := C129_three_points ⟨1, 2, 3⟩ ⟨4, 2, 7⟩ ⟨1, 7, 3⟩ 1
    (by rw [e1, e2, e3, norm_eq_len, l3]; norm_num) (by rw [e1, e2, e3, norm_eq_len, l3, d1, d2]; norm_num) (by norm_num)
    (by rw [d1]; norm_num) (by rw [d2]; norm_num)
  exact ⟨pl, h1, h2⟩

end Props
