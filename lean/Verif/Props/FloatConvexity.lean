import Verif.Props.FloatArea
import Verif.Model.Float.Convexity

/-!
# C164 Convexity in double precision
-/

namespace Props
open Verif Frackit Spec

/-- The error of a scalar product of two computed vectors. -/
theorem dot_of_close {n' n t' t : V3} {c N M : ℝ} (c0 : 0 ≤ c) (c1 : c ≤ 1 / 2 ^ 40) (hn : (n' - n).len ≤ c * N)
    (ht : (t' - t).len ≤ c * M) (hN : n.len ≤ N) (hM : t.len ≤ M) :
    |Fp.scalarProduct n' t' - n.dot t| ≤ (2.01 * c + 3.02 / 2 ^ 53) * (N * M) := by
  have N0 : 0 ≤ N := (V3.len_nonneg _).trans hN
  have M0 : 0 ≤ M := (V3.len_nonneg _).trans hM
  have ln : n'.len ≤ (1 + c) * N := by
    have := abs_len_sub_le n' n
    have := (abs_le.1 this).2
    linarith
  have lt : t'.len ≤ (1 + c) * M := by
    have := abs_len_sub_le t' t
    have := (abs_le.1 this).2
    linarith
  have h1 := (err_scalarProduct_len n' t').1
  have r3 : rho ^ 3 - 1 ≤ 3.01 / 2 ^ 53 := (rho_pow_sub_one_le (by norm_num)).trans (by norm_num)
  have hNM : n'.len * t'.len ≤ (1 + c) * N * ((1 + c) * M) := mul_le_mul ln lt (V3.len_nonneg _) (by positivity)
  have h2 : |Fp.scalarProduct n' t' - n'.dot t'| ≤ 3.01 / 2 ^ 53 * ((1 + c) * N * ((1 + c) * M)) :=
    h1.trans (mul_le_mul r3 hNM (mul_nonneg (V3.len_nonneg _) (V3.len_nonneg _)) (by norm_num))
  have e : n'.dot t' - n.dot t = (n' - n).dot t' + n.dot (t' - t) := by
    simp only [V3.dot, V3.sub_x, V3.sub_y, V3.sub_z]
    ring
  have h3 : |n'.dot t' - n.dot t| ≤ c * N * ((1 + c) * M) + N * (c * M) := by
    rw [e]
    refine (abs_add_le _ _).trans (add_le_add ?_ ?_)
    · exact (V3.abs_dot_le _ _).trans (mul_le_mul hn lt (V3.len_nonneg _) (mul_nonneg c0 N0))
    · exact (V3.abs_dot_le _ _).trans (mul_le_mul hN ht (V3.len_nonneg _) N0)
  calc |Fp.scalarProduct n' t' - n.dot t| = |(Fp.scalarProduct n' t' - n'.dot t') + (n'.dot t' - n.dot t)| := by ring_nf
    _ ≤ _ := abs_add_le _ _
    _ ≤ 3.01 / 2 ^ 53 * ((1 + c) * N * ((1 + c) * M)) + (c * N * ((1 + c) * M) + N * (c * M)) := add_le_add h2 h3
    _ = (3.01 / 2 ^ 53 * ((1 + c) * (1 + c)) + c * (2 + c)) * (N * M) := by ring
    _ ≤ (2.01 * c + 3.02 / 2 ^ 53) * (N * M) := by
      refine mul_le_mul_of_nonneg_right ?_ (mul_nonneg N0 M0)
      norm_num at c1 ⊢
      nlinarith

/-- The unit vector along an edge. -/
noncomputable def edgeUnit (cs : List V3) (i : ℕ) : V3 :=
  let e := cs.getD ((i + 1) % cs.length) 0 - cs.getD i 0
  e.len⁻¹ • e

/-- The product of the turns between the edges `i` and `i + 1` and between the last and the first edge: for a polygon in a
plane, the product of the sines of the two angles, which is not negative if both turns are in the same direction. -/
noncomputable def turnProduct (cs : List V3) (i : ℕ) : ℝ :=
  ((edgeUnit cs i).cross (edgeUnit cs (i + 1))).dot ((edgeUnit cs (cs.length - 1)).cross (edgeUnit cs 0))

theorem edgeUnit_len {cs : List V3} {i : ℕ} (h : cs.getD i 0 ≠ cs.getD ((i + 1) % cs.length) 0) : (edgeUnit cs i).len = 1 := by
  have hpos : 0 < (cs.getD ((i + 1) % cs.length) 0 - cs.getD i 0).len := V3.len_pos.2 fun h0 => h (sub_eq_zero.1 h0).symm
  unfold edgeUnit
  rw [V3.len_smul, abs_of_pos (inv_pos.2 hpos), inv_mul_cancel₀ hpos.ne']

/-- **Polygons.**  Let consecutive corners of a polygon differ.  If each turn has the direction of the first one by more
than the rounding errors, the polygon is found to be convex; if one turn has the opposite direction by more than the
rounding errors, it is not. -/
theorem C164_polygon (cs : List V3) (h3 : 3 ≤ cs.length)
    (hne : ∀ i < cs.length, cs.getD i 0 ≠ cs.getD ((i + 1) % cs.length) 0) :
    ∃ b, Fp.polygonConvexity cs = .val b ∧
      ((∀ i, 1 ≤ i → i < cs.length - 1 → 1 / 2 ^ 47 ≤ turnProduct cs i) → b) ∧
      ((∃ i, 1 ≤ i ∧ i < cs.length - 1 ∧ turnProduct cs i < -(1 / 2 ^ 47)) → ¬ b) := by
  have hdir : ∀ i < cs.length, ∃ d, Fp.edgeDirection cs i = .val d ∧ Err 6 d.x (edgeUnit cs i).x |(edgeUnit cs i).x| ∧
      Err 6 d.y (edgeUnit cs i).y |(edgeUnit cs i).y| ∧ Err 6 d.z (edgeUnit cs i).z |(edgeUnit cs i).z| := by
    intro i hi
    obtain ⟨d, h1, h2⟩ := direction_between _ _ (hne i hi)
    exact ⟨d, h1, h2 (edgeUnit cs i) rfl⟩
  have key : ∀ i j k l d e t0 t1, i < cs.length → j < cs.length → k < cs.length → l < cs.length →
      Fp.edgeDirection cs i = .val d → Fp.edgeDirection cs j = .val e → Fp.edgeDirection cs k = .val t0 →
      Fp.edgeDirection cs l = .val t1 →
      |Fp.scalarProduct (Fp.crossProduct d e) (Fp.crossProduct t0 t1) -
        ((edgeUnit cs i).cross (edgeUnit cs j)).dot ((edgeUnit cs k).cross (edgeUnit cs l))| < 1 / 2 ^ 47 := by
    intro i j k l d e t0 t1 hi hj hk hl hd he h0 h1
    have r14 : (rho ^ (6 + 6 + 2) - 1) * 2 ≤ 28.1 / 2 ^ 53 := by
      have := rho_pow_sub_one_le (show 14 ≤ 15 by norm_num)
      norm_num at this ⊢
      linarith
    have cross : ∀ i j d e, i < cs.length → j < cs.length → Fp.edgeDirection cs i = .val d → Fp.edgeDirection cs j = .val e →
        (Fp.crossProduct d e - (edgeUnit cs i).cross (edgeUnit cs j)).len ≤ 28.1 / 2 ^ 53 * 1 ∧
        ((edgeUnit cs i).cross (edgeUnit cs j)).len ≤ 1 := by
      intro i j d e hi hj hd he
      obtain ⟨d', hd', dx, dy, dz⟩ := hdir i hi
      obtain ⟨e', he', ex, ey, ez⟩ := hdir j hj
      rw [hd] at hd'
      rw [he] at he'
      obtain rfl := Outcome.val.inj hd'
      obtain rfl := Outcome.val.inj he'
      have := crossProduct_error dx dy dz ex ey ez
      have hc := cross_len_le (edgeUnit cs i) (edgeUnit cs j)
      rw [edgeUnit_len (hne i hi), edgeUnit_len (hne j hj), mul_one] at this hc
      rw [mul_one] at this
      exact ⟨by rw [mul_one]; exact this.trans r14, hc⟩
    have a := cross i j d e hi hj hd he
    have b := cross k l t0 t1 hk hl h0 h1
    have := dot_of_close (by norm_num) (by norm_num) a.1 b.1 a.2 b.2
    refine lt_of_le_of_lt this ?_
    norm_num
  have hnan : ¬ ∃ i < cs.length, Fp.edgeDirection cs i = .nan := by
    rintro ⟨i, hi, h⟩
    obtain ⟨d, hd, -⟩ := hdir i hi
    rw [hd] at h
    cases h
  refine ⟨_, by rw [Fp.polygonConvexity, if_neg hnan], ?_, ?_⟩
  · intro h t0 t1 h0 h1 i d e hi1 hi2 hd he
    have k := key i (i + 1) (cs.length - 1) 0 d e t0 t1 (by omega) (by omega) (by omega) (by omega) hd he h0 h1
    have ht := h i hi1 hi2
    unfold turnProduct at ht
    have := (abs_lt.1 k).1
    linarith
  · rintro ⟨i, hi1, hi2, ht⟩ hb
    obtain ⟨d, hd, -⟩ := hdir i (by omega)
    obtain ⟨e, he, -⟩ := hdir (i + 1) (by omega)
    obtain ⟨t0, h0, -⟩ := hdir (cs.length - 1) (by omega)
    obtain ⟨t1, h1, -⟩ := hdir 0 (by omega)
    have k := key i (i + 1) (cs.length - 1) 0 d e t0 t1 (by omega) (by omega) (by omega) (by omega) hd he h0 h1
    unfold turnProduct at ht
    have := (abs_lt.1 k).2
    exact hb t0 t1 h0 h1 i d e hi1 hi2 hd he (by linarith)

/-- **Quadrilaterals.**  The same for the turns along the edges of a quadrilateral, whose corners are in the order `p0`, `p1`,
`p3`, `p2`; the margin is 2^-48 times the product of the lengths of the edges involved. -/
theorem C164_quadrilateral (p0 p1 p2 p3 : V3) (v1 v2 v3 v4 : V3) (h1 : v1 = p1 - p0) (h2 : v2 = p3 - p1) (h3 : v3 = p2 - p3)
    (h4 : v4 = p0 - p2) :
    ((1 / 2 ^ 48 * (v4.len * v1.len * (v1.len * v2.len)) ≤ (v4.cross v1).dot (v1.cross v2) ∧
      1 / 2 ^ 48 * (v4.len * v1.len * (v2.len * v3.len)) ≤ (v4.cross v1).dot (v2.cross v3) ∧
      1 / 2 ^ 48 * (v4.len * v1.len * (v3.len * v4.len)) ≤ (v4.cross v1).dot (v3.cross v4)) →
      Fp.quadConvexity p0 p1 p2 p3) ∧
    (((v4.cross v1).dot (v1.cross v2) < -(1 / 2 ^ 48 * (v4.len * v1.len * (v1.len * v2.len))) ∨
      (v4.cross v1).dot (v2.cross v3) < -(1 / 2 ^ 48 * (v4.len * v1.len * (v2.len * v3.len))) ∨
      (v4.cross v1).dot (v3.cross v4) < -(1 / 2 ^ 48 * (v4.len * v1.len * (v3.len * v4.len)))) →
      ¬ Fp.quadConvexity p0 p1 p2 p3) := by
  have r4 : (rho ^ (1 + 1 + 2) - 1) * 2 ≤ 8.02 / 2 ^ 53 := by
    have := rho_pow_sub_one_le (show 4 ≤ 15 by norm_num)
    norm_num at this ⊢
    linarith
  have cross : ∀ a b c d : V3, (Fp.crossProduct (Fp.vectorBetween a b) (Fp.vectorBetween c d) -
      (b - a).cross (d - c)).len ≤ 8.02 / 2 ^ 53 * ((b - a).len * (d - c).len) := by
    intro a b c d
    have := crossProduct_error (u := b - a) (b := d - c) (err_between_x a b) (err_between_y a b) (err_between_z a b)
      (err_between_x c d) (err_between_y c d) (err_between_z c d)
    rw [← mul_assoc] at this
    exact this.trans (mul_le_mul_of_nonneg_right r4 (mul_nonneg (V3.len_nonneg _) (V3.len_nonneg _)))
  have key : ∀ a b c d a' b' c' d' : V3,
      |Fp.scalarProduct (Fp.crossProduct (Fp.vectorBetween a b) (Fp.vectorBetween c d))
        (Fp.crossProduct (Fp.vectorBetween a' b') (Fp.vectorBetween c' d')) -
        ((b - a).cross (d - c)).dot ((b' - a').cross (d' - c'))| ≤
      1 / 2 ^ 48 * ((b - a).len * (d - c).len * ((b' - a').len * (d' - c').len)) := by
    intro a b c d a' b' c' d'
    refine (dot_of_close (by norm_num) (by norm_num) (cross a b c d) (cross a' b' c' d') (cross_len_le _ _)
      (cross_len_le _ _)).trans ?_
    refine mul_le_mul_of_nonneg_right (by norm_num) ?_
    exact mul_nonneg (mul_nonneg (V3.len_nonneg _) (V3.len_nonneg _)) (mul_nonneg (V3.len_nonneg _) (V3.len_nonneg _))
  have k1 := abs_le.1 (key p2 p0 p0 p1 p0 p1 p1 p3)
  have k2 := abs_le.1 (key p2 p0 p0 p1 p1 p3 p3 p2)
  have k3 := abs_le.1 (key p2 p0 p0 p1 p3 p2 p2 p0)
  rw [← h1, ← h2, ← h4] at k1
  rw [← h1, ← h2, ← h3, ← h4] at k2
  rw [← h1, ← h3, ← h4] at k3
  constructor
  · rintro ⟨a1, a2, a3⟩
    refine ⟨?_, ?_, ?_⟩ <;> rw [not_lt] <;> linarith
  · rintro h ⟨b1, b2, b3⟩
    rcases h with h | h | h
    · exact b1 (by linarith)
    · exact b2 (by linarith)
    · exact b3 (by linarith)

/-- The unit square. -/
noncomputable def unitCorners : List V3 := [⟨0, 0, 0⟩, ⟨1, 0, 0⟩, ⟨1, 1, 0⟩, ⟨0, 1, 0⟩]

theorem edgeUnit_of_len {cs : List V3} {i : ℕ} {e : V3} (h : cs.getD ((i + 1) % cs.length) 0 - cs.getD i 0 = e)
    (hl : e.sqLen = 1) : edgeUnit cs i = e := by
  have : e.len = 1 := by rw [V3.len, hl, Real.sqrt_one]
  have h' : edgeUnit cs i = e.len⁻¹ • e := by rw [← h]; rfl
  rw [h', this]
  apply V3.ext <;> simp

/-- The hypotheses of `C164_polygon` hold for the unit square. -/
example : (∀ i < unitCorners.length, unitCorners.getD i 0 ≠ unitCorners.getD ((i + 1) % unitCorners.length) 0) ∧
    ∀ i, 1 ≤ i → i < unitCorners.length - 1 → 1 / 2 ^ 47 ≤ turnProduct unitCorners i := by
  constructor
  · intro i hi
    have hi : i < 4 := hi
    interval_cases i <;> simp [unitCorners]
  · have e0 : edgeUnit unitCorners 0 = ⟨1, 0, 0⟩ :=
      edgeUnit_of_len (by apply V3.ext <;> simp [unitCorners]) (by norm_num [V3.sqLen])
    have e1 : edgeUnit unitCorners 1 = ⟨0, 1, 0⟩ :=
      edgeUnit_of_len (by apply V3.ext <;> simp [unitCorners]) (by norm_num [V3.sqLen])
    have e2 : edgeUnit unitCorners 2 = ⟨-1, 0, 0⟩ :=
      edgeUnit_of_len (by apply V3.ext <;> simp [unitCorners]) (by norm_num [V3.sqLen])
    have e3 : edgeUnit unitCorners 3 = ⟨0, -1, 0⟩ :=
      edgeUnit_of_len (by apply V3.ext <;> simp [unitCorners]) (by norm_num [V3.sqLen])
    intro i h1 h2
    have h2 : i < 3 := h2
    have hl : unitCorners.length - 1 = 3 := rfl
    interval_cases i <;> simp only [turnProduct, hl, e0, e1, e2, e3, Nat.reduceAdd] <;> norm_num [V3.cross, V3.dot]

/-- The second hypothesis of `C164_quadrilateral` holds for a dart whose last corner is pulled to the inside. -/
example : ∃ p0 p1 p2 p3 : V3, ((p0 - p2).cross (p1 - p0)).dot ((p3 - p1).cross (p2 - p3)) <
    -(1 / 2 ^ 48 * ((p0 - p2).len * (p1 - p0).len * ((p3 - p1).len * (p2 - p3).len))) := by
  refine ⟨⟨0, 0, 0⟩, ⟨4, 0, 0⟩, ⟨0, 4, 0⟩, ⟨1, 1, 0⟩, ?_⟩
  have b : ∀ v : V3, v.sqLen ≤ 100 → v.len ≤ 10 := by
    intro v hv
    rw [V3.len, Real.sqrt_le_iff]
    exact ⟨by norm_num, by linarith⟩
  have b1 := b (⟨0, 0, 0⟩ - ⟨0, 4, 0⟩) (by norm_num [V3.sqLen])
  have b2 := b (⟨4, 0, 0⟩ - ⟨0, 0, 0⟩) (by norm_num [V3.sqLen])
  have b3 := b (⟨1, 1, 0⟩ - ⟨4, 0, 0⟩) (by norm_num [V3.sqLen])
  have b4 := b (⟨0, 4, 0⟩ - ⟨1, 1, 0⟩) (by norm_num [V3.sqLen])
  have c1 := mul_le_mul b1 b2 (V3.len_nonneg _) (by norm_num)
  have c2 := mul_le_mul b3 b4 (V3.len_nonneg _) (by norm_num)
  have c3 := mul_le_mul c1 c2 (mul_nonneg (V3.len_nonneg _) (V3.len_nonneg _)) (by norm_num)
  have d : ((⟨0, 0, 0⟩ - ⟨0, 4, 0⟩ : V3).cross (⟨4, 0, 0⟩ - ⟨0, 0, 0⟩)).dot
      ((⟨1, 1, 0⟩ - ⟨4, 0, 0⟩ : V3).cross (⟨0, 4, 0⟩ - ⟨1, 1, 0⟩)) = -128 := by
    norm_num [V3.cross, V3.dot]
  rw [d]
  refine lt_of_lt_of_le (show (-128 : ℝ) < -(1 / 2 ^ 48 * (10 * 10 * (10 * 10))) by norm_num) ?_
  exact neg_le_neg (mul_le_mul_of_nonneg_left c3 (by norm_num))

end Props
