import Verif.Props.FloatDistance

/-!
# C117 Segments in double precision
-/

namespace Props
open Verif Frackit Spec

/-- The computed direction of a segment. -/
theorem segment_direction (s : Segment) (hL : 0 < Spec.dist s.source s.target) :
    ∃ n : V3, Fp.segmentLine s = .val ⟨s.source, n⟩ ∧
      (n - (Spec.dist s.source s.target)⁻¹ • (s.target - s.source)).len ≤ 6.01 / 2 ^ 53 := by
  set L := Spec.dist s.source s.target with hLd
  have hc := close_distPointPoint s.source s.target
  change Close 4 (Fp.length (Fp.vectorBetween s.source s.target)) L at hc
  have hl : Fp.length (Fp.vectorBetween s.source s.target) ≠ 0 := by
    intro h0
    have := hc.2.2.1
    rw [h0, mul_zero] at this
    linarith
  have r6 : rho ^ 6 - 1 ≤ 6.01 / 2 ^ 53 := (rho_pow_sub_one_le (by norm_num)).trans (by norm_num)
  set w := Fp.vectorBetween s.source s.target
  refine ⟨⟨Fp.div w.x (Fp.length w), Fp.div w.y (Fp.length w), Fp.div w.z (Fp.length w)⟩, ?_, ?_⟩
  · unfold Fp.segmentLine Fp.mkDirection
    rw [if_neg hl]
    rfl
  · have hi := err_inv hc
    have key : ∀ a b : ℝ, Err 1 a b |b| → |Fp.div a (Fp.length w) - L⁻¹ * b| ≤ 6.01 / 2 ^ 53 * (L⁻¹ * |b|) := by
      intro a b h
      have h1 := ((h.mul hi).rnd).1
      unfold Fp.div
      rw [div_eq_mul_inv, mul_comm L⁻¹ b, mul_comm L⁻¹ |b|]
      refine h1.trans (mul_le_mul_of_nonneg_right r6 (mul_nonneg (abs_nonneg _) (inv_nonneg.2 hL.le)))
    have h := len_sub_le_of (a := ⟨Fp.div w.x (Fp.length w), Fp.div w.y (Fp.length w), Fp.div w.z (Fp.length w)⟩)
      (b := L⁻¹ • (s.target - s.source)) (m := L⁻¹ • absV (s.target - s.source)) (by norm_num)
      (key _ _ (err_between_x s.source s.target)) (key _ _ (err_between_y s.source s.target))
      (key _ _ (err_between_z s.source s.target))
    refine h.trans ?_
    rw [V3.len_smul, absV_len, V3.len_sub_comm, ← dist_eq_len, abs_of_pos (inv_pos.2 hL), inv_mul_cancel₀ hL.ne', mul_one]

/-- The tolerance of a segment. -/
theorem segment_eps (s : Segment) (hL : 0 < Spec.dist s.source s.target) :
    0.99 / 10 ^ 7 * Spec.dist s.source s.target ≤ Fp.mul Fp.confusion (Fp.segmentLength s) ∧
    Fp.mul Fp.confusion (Fp.segmentLength s) ≤ 1.001 / 10 ^ 7 * Spec.dist s.source s.target := by
  have h : Close 6 (Fp.mul Fp.confusion (Fp.segmentLength s)) (1 / 10 ^ 7 * Spec.dist s.source s.target) :=
    (close_confusion.mul (close_distPointPoint s.source s.target)).rnd
  have h1 := h.abs_sub_le
  have h2 : (rho ^ 6 - 1) * (1 / 10 ^ 7 * Spec.dist s.source s.target) ≤
      1 / 10 ^ 4 * (1 / 10 ^ 7 * Spec.dist s.source s.target) :=
    mul_le_mul_of_nonneg_right ((rho_pow_sub_one_le (by norm_num)).trans (by norm_num)) (by positivity)
  obtain ⟨h3, h4⟩ := abs_le.1 (h1.trans h2)
  norm_num at h3 h4 ⊢
  constructor <;> linarith

/-- The computed point of a segment. -/
theorem segment_point (s : Segment) (t : ℝ) (h0 : 0 ≤ t) (h1 : t ≤ 1) :
    (Fp.segmentGetPoint s t - (s.source + t • (s.target - s.source))).len ≤
      3.01 / 2 ^ 53 * (s.source.len + Spec.dist s.source s.target) := by
  have r3 : rho ^ 3 - 1 ≤ 3.01 / 2 ^ 53 := (rho_pow_sub_one_le (by norm_num)).trans (by norm_num)
  have key : ∀ a w b : ℝ, Err 1 w b |b| → |Fp.add a (Fp.mul w t) - (a + t * b)| ≤ 3.01 / 2 ^ 53 * (|a| + t * |b|) := by
    intro a w b h
    have h2 := (h.mul (Err.refl t)).rnd
    rw [abs_of_nonneg h0] at h2
    have h3 := (((Err.refl a).mono (by norm_num : 0 ≤ 2) le_rfl).add h2).rnd
    rw [mul_comm t b, mul_comm t |b|]
    refine h3.1.trans (mul_le_mul_of_nonneg_right r3 ?_)
    positivity
  have h := len_sub_le_of (a := Fp.segmentGetPoint s t) (b := s.source + t • (s.target - s.source))
    (m := absV s.source + t • absV (s.target - s.source)) (by norm_num)
    (key _ _ _ (err_between_x s.source s.target)) (key _ _ _ (err_between_y s.source s.target))
    (key _ _ _ (err_between_z s.source s.target))
  refine h.trans (mul_le_mul_of_nonneg_left ?_ (by norm_num))
  refine (V3.len_add_le _ _).trans ?_
  rw [V3.len_smul, absV_len, absV_len, abs_of_nonneg h0, V3.len_sub_comm s.target, ← dist_eq_len]
  have := Real.sqrt_nonneg ((s.source.x - s.target.x) ^ 2 + (s.source.y - s.target.y) ^ 2 + (s.source.z - s.target.z) ^ 2)
  have hd : 0 ≤ Spec.dist s.source s.target := this
  nlinarith

/-- The full property: a segment contains the points it computes. -/
def C117_full : Prop := ∀ (s : Segment) (t : ℝ), DoubleCoordinates s.source → DoubleCoordinates s.target →
  s.source ≠ s.target → IsDouble t → 0 ≤ t → t ≤ 1 → Fp.segmentContainsDefault s (Fp.segmentGetPoint s t)

/-- Points close to a segment are contained, for tolerances of at least 4.9e-8 of the length. -/
theorem segment_contains_near_eps (s : Segment) (p : V3) (t eps : ℝ) (hL : 0 < Spec.dist s.source s.target)
    (hr : Spec.norm s.source ≤ 10 ^ 7 * Spec.dist s.source s.target) (h0 : 0 ≤ t) (h1 : t ≤ 1)
    (hδ' : (p - (s.source + t • (s.target - s.source))).len ≤ 1 / 10 ^ 8 * Spec.dist s.source s.target)
    (he1 : 4.9 / 10 ^ 8 * Spec.dist s.source s.target ≤ eps) :
    Fp.segmentContains s p eps := by
  rw [norm_eq_len] at hr
  obtain ⟨n, hn, hnn⟩ := segment_direction s hL
  set L := Spec.dist s.source s.target with hLd
  set W := s.target - s.source with hW
  have hWL : W.len = L := by rw [hW, V3.len_sub_comm, ← dist_eq_len]
  set n0 := L⁻¹ • W with hn0
  have hn0L : L • n0 = W := by
    ext <;> simp [hn0] <;> field_simp
  have hn01 : n0.len = 1 := by
    rw [hn0, V3.len_smul, hWL, abs_of_pos (inv_pos.2 hL), inv_mul_cancel₀ hL.ne']
  set δ := p - (s.source + t • W) with hδ
  have epos : 0 < eps := lt_of_lt_of_le (by positivity) he1
  have hv : p - s.source = δ + (t * L) • n0 := by
    rw [← smul_smul, hn0L, hδ]
    ext <;> simp <;> ring
  have hv2 : p - s.target = δ + ((t - 1) * L) • n0 := by
    rw [← smul_smul, hn0L, hδ]
    ext <;> simp [hW] <;> ring
  have tL0 : 0 ≤ t * L := mul_nonneg h0 hL.le
  have tL1 : t * L ≤ L := by nlinarith
  have hvl : (p - s.source).len ≤ t * L + 1 / 10 ^ 8 * L := by
    rw [hv]
    refine (V3.len_add_le _ _).trans ?_
    rw [V3.len_smul, hn01, abs_of_nonneg tL0]
    linarith
  have hvl2 : (p - s.target).len ≤ (1 - t) * L + 1 / 10 ^ 8 * L := by
    rw [hv2]
    refine (V3.len_add_le _ _).trans ?_
    rw [V3.len_smul, hn01, abs_of_nonpos (by nlinarith)]
    linarith
  have hN : n.len ≤ 1 + 6.01 / 2 ^ 53 := by
    have := abs_len_sub_le n n0
    rw [hn01] at this
    have := (abs_le.1 (this.trans hnn)).2
    linarith
  have hN' : n.len ≤ 1.001 := hN.trans (by norm_num)
  have hN0 := V3.len_nonneg n
  -- scalar products
  have hdot : ∀ (c : ℝ) (v : V3), v = δ + c • n0 → |c| ≤ L → |n.dot v - c| ≤ 1.1 / 10 ^ 8 * L := by
    intro c v hv hc
    have e1 : n.dot v - c = n.dot δ + c * ((n - n0).dot n0) := by
      have : n0.dot n0 = 1 := by rw [← V3.sqLen_eq_dot, ← V3.len_sq, hn01]; norm_num
      rw [hv, V3.dot_add, V3.dot_smul, V3.sub_dot, this]
      ring
    rw [e1]
    refine (abs_add_le _ _).trans ?_
    rw [abs_mul]
    have b1 : |n.dot δ| ≤ 1.001 * (1 / 10 ^ 8 * L) :=
      (V3.abs_dot_le n δ).trans (mul_le_mul hN' hδ' (V3.len_nonneg _) (by norm_num))
    have b2 : |(n - n0).dot n0| ≤ 6.01 / 2 ^ 53 := by
      have := V3.abs_dot_le (n - n0) n0
      rw [hn01, mul_one] at this
      exact this.trans hnn
    have b3 : |c| * |(n - n0).dot n0| ≤ L * (6.01 / 2 ^ 53) := mul_le_mul hc b2 (abs_nonneg _) hL.le
    norm_num at b1 b3 ⊢
    linarith
  have r4 : rho ^ 4 - 1 ≤ 4.01 / 2 ^ 53 := (rho_pow_sub_one_le (by norm_num)).trans (by norm_num)
  have r6 : rho ^ 6 - 1 ≤ 6.01 / 2 ^ 53 := (rho_pow_sub_one_le (by norm_num)).trans (by norm_num)
  have hsp : ∀ (a : V3) (c : ℝ), p - a = δ + c • n0 → |c| ≤ L → (p - a).len ≤ 2 * L →
      |Fp.scalarProduct n (Fp.vectorBetween a p) - c| ≤ 1.2 / 10 ^ 8 * L := by
    intro a c hv hc hl
    have b1 := (err_dot_between n a p).1
    have b2 : (rho ^ 4 - 1) * (n.len * (p - a).len) ≤ 4.01 / 2 ^ 53 * (1.001 * (2 * L)) :=
      mul_le_mul r4 (mul_le_mul hN' hl (V3.len_nonneg _) (by norm_num))
        (mul_nonneg hN0 (V3.len_nonneg _)) (by norm_num)
    have b3 := hdot c _ hv hc
    have b4 := abs_sub_le (Fp.scalarProduct n (Fp.vectorBetween a p)) (n.dot (p - a)) c
    norm_num at b1 b2 b3 b4 ⊢
    linarith
  have sp1 := hsp s.source (t * L) hv (by rw [abs_of_nonneg tL0]; exact tL1) (by norm_num at hvl ⊢; linarith)
  have sp2 := hsp s.target ((t - 1) * L) hv2 (by rw [abs_of_nonpos (by nlinarith)]; nlinarith)
    (by norm_num at hvl2 ⊢; linarith)
  -- the line
  have hline : Fp.lineContains ⟨s.source, n⟩ p eps := by
    apply (C116_equal p _ eps epos).1
    have c1 := lineProjection_error ⟨s.source, n⟩ p
    simp only at c1
    have c2 : (rho ^ 6 - 1) * (s.source.len + n.len * n.len * (p - s.source).len) ≤
        6.01 / 2 ^ 53 * (10 ^ 7 * L + 1.001 * 1.001 * (2 * L)) := by
      refine mul_le_mul r6 (add_le_add hr (mul_le_mul (mul_le_mul hN' hN' hN0 (by norm_num)) ?_ (V3.len_nonneg _)
        (by norm_num))) (add_nonneg (V3.len_nonneg _) (mul_nonneg (mul_nonneg hN0 hN0) (V3.len_nonneg _))) (by norm_num)
      norm_num at hvl ⊢
      linarith
    set P := Fp.lineProjection ⟨s.source, n⟩ p
    set e := n.dot (p - s.source)
    -- exact projection
    have c3 : ((s.source + e • n) - p).len ≤ 2.2 / 10 ^ 8 * L := by
      have d1 : (s.source + e • n) - p = (e - t * L) • n + ((t * L) • (n - n0) - δ) := by
        have : p = s.source + (δ + (t * L) • n0) := by
          rw [← hv]
          ext <;> simp
        rw [this]
        ext <;> simp <;> ring
      rw [d1]
      have d2 := hdot (t * L) _ hv (by rw [abs_of_nonneg tL0]; exact tL1)
      have d3 : ((e - t * L) • n).len ≤ 1.1 / 10 ^ 8 * L * 1.001 := by
        rw [V3.len_smul]
        exact mul_le_mul d2 hN' hN0 (by positivity)
      have d4 : ((t * L) • (n - n0)).len ≤ L * (6.01 / 2 ^ 53) := by
        rw [V3.len_smul, abs_of_nonneg tL0]
        exact mul_le_mul tL1 hnn (V3.len_nonneg _) hL.le
      have d5 := V3.len_add_le ((e - t * L) • n) ((t * L) • (n - n0) - δ)
      have d6 := V3.len_add_le ((t * L) • (n - n0)) (-δ)
      rw [V3.len_neg, ← sub_eq_add_neg] at d6
      norm_num at d2 d3 d4 d5 d6 hδ' ⊢
      linarith
    have c4 : Spec.dist p P ≤ (P - (s.source + e • n)).len + ((s.source + e • n) - p).len := by
      rw [Spec.dist_comm, dist_eq_len]
      have : P - p = (P - (s.source + e • n)) + ((s.source + e • n) - p) := by ext <;> simp
      rw [this]
      exact V3.len_add_le _ _
    have c5 : Spec.dist p P ≤ 3 / 10 ^ 8 * L := by
      have c1' := c1.trans c2
      norm_num at c1' c3 c4 ⊢
      linarith
    refine c5.trans ?_
    norm_num at he1 ⊢
    linarith
  unfold Fp.segmentContains
  simp only [hn]
  refine ⟨fun _ => hline, ?_⟩
  obtain ⟨sp1a, sp1b⟩ := abs_le.1 sp1
  obtain ⟨sp2a, sp2b⟩ := abs_le.1 sp2
  have near : ∀ a : V3, (p - a).len ≤ 4.1 / 10 ^ 8 * L →
      Fp.squaredLength (Fp.vectorBetween a p) < Fp.mul eps eps := by
    intro a ha
    apply (C116_equal a p eps epos).1
    rw [dist_eq_len, V3.len_sub_comm]
    refine ha.trans ?_
    norm_num at he1 ⊢
    linarith
  by_cases c1 : t * L ≤ 3 / 10 ^ 8 * L
  · right; left
    apply near
    norm_num at hvl c1 ⊢
    linarith
  · by_cases c2 : (1 - t) * L ≤ 3 / 10 ^ 8 * L
    · right; right
      apply near
      norm_num at hvl2 c2 ⊢
      linarith
    · left
      push Not at c1 c2
      have q1 : ¬ Fp.scalarProduct n (Fp.vectorBetween s.source p) < 0 := by
        norm_num at sp1a c1 ⊢
        linarith
      have q2 : Fp.scalarProduct n (Fp.vectorBetween s.target p) < 0 := by
        norm_num at sp2b c2 ⊢
        linarith
      exact iff_of_false q1 (not_not.2 q2)

/-- Points close to a segment are contained. -/
theorem segment_contains_near (s : Segment) (p : V3) (t : ℝ) (hL : 0 < Spec.dist s.source s.target)
    (hr : Spec.norm s.source ≤ 10 ^ 7 * Spec.dist s.source s.target) (h0 : 0 ≤ t) (h1 : t ≤ 1)
    (hδ' : (p - (s.source + t • (s.target - s.source))).len ≤ 1 / 10 ^ 8 * Spec.dist s.source s.target) :
    Fp.segmentContainsDefault s p := by
  refine segment_contains_near_eps s p t _ hL hr h0 h1 hδ' (le_trans ?_ (segment_eps s hL).1)
  norm_num
  linarith

/-- **Points of a segment.**  If the source of the segment is at most 1e7 times as far from the origin as the segment
is long, the segment contains, with the default tolerance, all the points that it computes for parameters between zero
and one. -/
theorem C117_points_partial (s : Segment) (t : ℝ) (hL : 0 < Spec.dist s.source s.target)
    (hr : Spec.norm s.source ≤ 10 ^ 7 * Spec.dist s.source s.target) (h0 : 0 ≤ t) (h1 : t ≤ 1) :
    Fp.segmentContainsDefault s (Fp.segmentGetPoint s t) := by
  apply segment_contains_near s _ t hL hr h0 h1
  rw [norm_eq_len] at hr
  refine (segment_point s t h0 h1).trans ?_
  set L := Spec.dist s.source s.target
  have : 3.01 / 2 ^ 53 * (s.source.len + L) ≤ 3.01 / 2 ^ 53 * (10 ^ 7 * L + L) := by
    apply mul_le_mul_of_nonneg_left _ (by norm_num)
    linarith
  refine this.trans ?_
  norm_num
  linarith

/-- The full property fails for a segment far from the origin in relation to its length: the coordinates of its points
are rounded by more than the tolerance. -/
theorem C117_disproof : ¬ C117_full := by
  intro h
  let s : Segment := ⟨⟨2 ^ 52, 0, 0⟩, ⟨2 ^ 52 + 1, 1, 0⟩⟩
  have d0 : IsDouble 0 := ⟨0, 0, by norm_num, by norm_num⟩
  have d1 : IsDouble 1 := ⟨1, 0, by norm_num, by norm_num⟩
  have h1 := h s (1 / 2) ⟨⟨2 ^ 52, 0, by norm_num, by norm_num [s]⟩, d0, d0⟩
    ⟨⟨2 ^ 52 + 1, 0, by norm_num, by norm_num [s]⟩, d1, d0⟩ (by simp [s]) ⟨1, -1, by norm_num, by norm_num⟩
    (by norm_num) (by norm_num)
  have r1 : Fp.rnd 1 = 1 := rnd_of_isDouble d1
  have rh : Fp.rnd (1 / 2) = 1 / 2 := rnd_of_isDouble ⟨1, -1, by norm_num, by norm_num⟩
  have rt : Fp.rnd (2 ^ 52 + 1 / 2) = 2 ^ 52 := by
    have : Fp.ulpExponent (2 ^ 52 + 1 / 2) = 0 := by
      apply ulpExponent_eq <;> rw [abs_of_pos (by norm_num)] <;> norm_num
    unfold Fp.rnd
    rw [this, zpow_zero, div_one, mul_one]
    have : Fp.nearestEven (2 ^ 52 + 1 / 2) = 2 ^ 52 := by
      apply nearestEven_unique
      · push_cast
        rw [abs_le]
        constructor <;> norm_num
      · intro _
        exact ⟨2 ^ 51, by norm_num⟩
    rw [this]
    norm_num
  have hw : Fp.vectorBetween s.source s.target = ⟨1, 1, 0⟩ := by
    unfold Fp.vectorBetween Fp.sub
    norm_num [s, r1, rnd_zero]
  have hp : Fp.segmentGetPoint s (1 / 2) = ⟨2 ^ 52, 1 / 2, 0⟩ := by
    unfold Fp.segmentGetPoint
    rw [hw]
    unfold Fp.move Fp.scale Fp.add Fp.mul
    simp only [s, one_mul, zero_mul, rnd_zero, rh, zero_add, rt]
  have hL : Spec.dist s.source s.target = √2 := by
    unfold Spec.dist
    norm_num [s]
  have s2 : √2 ≤ 1.5 := Real.sqrt_le_iff.2 ⟨by norm_num, by norm_num⟩
  have s2' : (1.41 : ℝ) ≤ √2 := Real.le_sqrt_of_sq_le (by norm_num)
  obtain ⟨n, hn, hnn⟩ := segment_direction s (by rw [hL]; positivity)
  obtain ⟨he1, he2⟩ := segment_eps s (by rw [hL]; positivity)
  rw [hp] at h1
  unfold Fp.segmentContainsDefault Fp.segmentContains at h1
  simp only [hn] at h1
  have h2 := h1.1 trivial
  set eps := Fp.mul Fp.confusion (Fp.segmentLength s)
  rw [hL] at he1 he2 hnn
  have epos : 0 < eps := lt_of_lt_of_le (by positivity) he1
  have h3 := (C116_equal _ _ eps epos).2.1 h2
  -- the second coordinate of the projection
  have hv : Fp.vectorBetween s.source ⟨2 ^ 52, 1 / 2, 0⟩ = ⟨0, 1 / 2, 0⟩ := by
    unfold Fp.vectorBetween Fp.sub
    simp only [s, sub_self, sub_zero, rnd_zero, rh]
  have hny : |n.y - (√2)⁻¹| ≤ 1 / 10 ^ 10 := by
    have a : |n.y - (√2)⁻¹| ≤ (n - (√2)⁻¹ • (s.target - s.source)).len := by
      unfold V3.len
      apply Real.abs_le_sqrt
      unfold V3.sqLen
      simp only [V3.sub_x, V3.sub_y, V3.sub_z, V3.smul_x, V3.smul_y, V3.smul_z]
      have e : s.target.y - s.source.y = 1 := by norm_num [s]
      rw [e, mul_one]
      nlinarith [mul_self_nonneg (n.x - (√2)⁻¹ * (s.target.x - s.source.x)),
        mul_self_nonneg (n.z - (√2)⁻¹ * (s.target.z - s.source.z))]
    refine (a.trans hnn).trans (by norm_num)
  have inv1 : (√2)⁻¹ ≤ 0.71 := by
    rw [inv_le_comm₀ (by positivity) (by norm_num)]
    refine le_trans ?_ s2'
    norm_num
  have inv2 : 0.6 ≤ (√2)⁻¹ := by
    rw [le_inv_comm₀ (by norm_num) (by positivity)]
    exact s2.trans (by norm_num)
  obtain ⟨ny1, ny2⟩ := abs_le.1 hny
  have ny3 : n.y ≤ 0.72 := by norm_num at ny2 inv1 ⊢; linarith
  have ny4 : 0 ≤ n.y := by norm_num at ny1 inv2 ⊢; linarith
  have mono : ∀ {x c : ℝ}, 0 ≤ x → x ≤ c → Fp.rnd x ≤ 1.01 * c := by
    intro x c h0 hc
    have a := (close_rnd h0).2.2.2
    have b := rho_pow_le (show 1 ≤ 15 by norm_num)
    have b' : rho ^ 1 ≤ 1.01 := b.trans (by norm_num)
    exact a.trans (mul_le_mul b' hc h0 (by norm_num))
  have hs : Fp.scalarProduct n ⟨0, 1 / 2, 0⟩ = Fp.rnd (n.y * (1 / 2)) := by
    unfold Fp.scalarProduct Fp.add Fp.mul
    simp only [mul_zero, rnd_zero, zero_add, add_zero, rnd_rnd]
  have hP : (Fp.lineProjection ⟨s.source, n⟩ ⟨2 ^ 52, 1 / 2, 0⟩).y = Fp.rnd (n.y * Fp.rnd (n.y * (1 / 2))) := by
    unfold Fp.lineProjection
    simp only [hv, hs]
    unfold Fp.move Fp.scale Fp.add Fp.mul
    simp only [s, zero_add, rnd_rnd]
  have b1 := mono (x := n.y * (1 / 2)) (c := 0.36) (by positivity) (by norm_num at ny3 ⊢; linarith)
  have b0 : 0 ≤ Fp.rnd (n.y * (1 / 2)) := rnd_nonneg (by positivity)
  have b2 := mono (x := n.y * Fp.rnd (n.y * (1 / 2))) (c := 0.72 * (1.01 * 0.36)) (by positivity)
    (mul_le_mul ny3 b1 b0 (by norm_num))
  have b3 : 0.2 ≤ Spec.dist ⟨2 ^ 52, 1 / 2, 0⟩ (Fp.lineProjection ⟨s.source, n⟩ ⟨2 ^ 52, 1 / 2, 0⟩) := by
    unfold Spec.dist
    apply Real.le_sqrt_of_sq_le
    have c1 : 0.2 ≤ 1 / 2 - (Fp.lineProjection ⟨s.source, n⟩ ⟨2 ^ 52, 1 / 2, 0⟩).y := by
      rw [hP]
      norm_num at b2 ⊢
      linarith
    have c2 : (0.2 : ℝ) ^ 2 ≤ (1 / 2 - (Fp.lineProjection ⟨s.source, n⟩ ⟨2 ^ 52, 1 / 2, 0⟩).y) ^ 2 :=
      pow_le_pow_left₀ (by norm_num) c1 2
    nlinarith [sq_nonneg (2 ^ 52 - (Fp.lineProjection ⟨s.source, n⟩ ⟨2 ^ 52, 1 / 2, 0⟩).x),
      sq_nonneg (0 - (Fp.lineProjection ⟨s.source, n⟩ ⟨2 ^ 52, 1 / 2, 0⟩).z)]
  norm_num at h3 b3 he2
  linarith

/-- Points contained in a segment with some tolerance are not much further away than the tolerance. -/
theorem segment_outside_eps (s : Segment) (p : V3) (eps : ℝ) (hL : 0 < Spec.dist s.source s.target)
    (hr : Spec.norm s.source ≤ 10 ^ 7 * Spec.dist s.source s.target) (epos : 0 < eps)
    (he2 : eps ≤ 1 / 10 ^ 4 * Spec.dist s.source s.target) (h : Fp.segmentContains s p eps) :
    ∃ q, OnSegment s.source s.target q ∧ Spec.dist p q < 1.01 * eps + 1 / 10 ^ 8 * Spec.dist s.source s.target := by
  rw [norm_eq_len] at hr
  obtain ⟨n, hn, hnn⟩ := segment_direction s hL
  unfold Fp.segmentContains at h
  simp only [hn] at h
  set L := Spec.dist s.source s.target with hLd
  set W := s.target - s.source with hW
  have near : ∀ a : V3, Fp.squaredLength (Fp.vectorBetween a p) < Fp.mul eps eps →
      Spec.dist p a < 1.01 * eps + 1 / 10 ^ 8 * L := by
    intro a ha
    have := (C116_equal a p eps epos).2.1 ha
    rw [Spec.dist_comm]
    norm_num at this he2 ⊢
    linarith
  obtain ⟨h1, h2 | h2 | h2⟩ := h
  swap
  · exact ⟨s.source, ⟨0, by simp⟩, near _ h2⟩
  swap
  · exact ⟨s.target, ⟨1, by simp⟩, near _ h2⟩
  have h3 := (C116_equal _ _ eps epos).2.1 (h1 trivial)
  have hWL : W.len = L := by rw [hW, V3.len_sub_comm, ← dist_eq_len]
  set n0 := L⁻¹ • W with hn0
  have hn0L : L • n0 = W := by
    ext <;> simp [hn0] <;> field_simp
  have hn01 : n0.len = 1 := by
    rw [hn0, V3.len_smul, hWL, abs_of_pos (inv_pos.2 hL), inv_mul_cancel₀ hL.ne']
  have hN : n.len ≤ 1 + 6.01 / 2 ^ 53 := by
    have := abs_len_sub_le n n0
    rw [hn01] at this
    have := (abs_le.1 (this.trans hnn)).2
    linarith
  have hN' : n.len ≤ 1.001 := hN.trans (by norm_num)
  have hN0 := V3.len_nonneg n
  have r4 : rho ^ 4 - 1 ≤ 4.01 / 2 ^ 53 := (rho_pow_sub_one_le (by norm_num)).trans (by norm_num)
  have r6 : rho ^ 6 - 1 ≤ 6.01 / 2 ^ 53 := (rho_pow_sub_one_le (by norm_num)).trans (by norm_num)
  set v := p - s.source with hv
  set x := n.dot v with hx
  have v0 := V3.len_nonneg v
  have x0 := abs_nonneg x
  have c1 := lineProjection_error ⟨s.source, n⟩ p
  simp only at c1
  set P := Fp.lineProjection ⟨s.source, n⟩ p
  have c2 : (rho ^ 6 - 1) * (s.source.len + n.len * n.len * v.len) ≤
      6.01 / 2 ^ 53 * (10 ^ 7 * L + 1.001 * 1.001 * v.len) :=
    mul_le_mul r6 (add_le_add hr (mul_le_mul (mul_le_mul hN' hN' hN0 (by norm_num)) le_rfl v0
      (by norm_num))) (add_nonneg (V3.len_nonneg _) (mul_nonneg (mul_nonneg hN0 hN0) v0)) (by norm_num)
  -- distance from the exact line
  have c3 : (v - x • n).len ≤ 1.001 * eps + 0.8 / 10 ^ 8 * L + 1 / 10 ^ 14 * v.len := by
    have e : v - x • n = (p - P) + (P - (s.source + x • n)) := by ext <;> simp [hv] <;> ring
    rw [e]
    have d1 := V3.len_add_le (p - P) (P - (s.source + x • n))
    rw [← dist_eq_len] at d1
    have d2 := c1.trans c2
    norm_num at d1 d2 h3 he2 ⊢
    linarith
  have c4 : v.len ≤ 1.002 * |x| + 1.1 / 10 ^ 4 * L := by
    have e : v = x • n + (v - x • n) := by ext <;> simp
    have d1 := V3.len_add_le (x • n) (v - x • n)
    rw [← e, V3.len_smul] at d1
    have d2 : |x| * n.len ≤ |x| * 1.001 := mul_le_mul_of_nonneg_left hN' x0
    norm_num at d1 d2 c3 ⊢
    linarith
  -- signs
  have sp1 : |Fp.scalarProduct n (Fp.vectorBetween s.source p) - x| ≤ 1 / 10 ^ 14 * (|x| + L) := by
    have b1 := (err_dot_between n s.source p).1
    have b2 : (rho ^ 4 - 1) * (n.len * v.len) ≤ 4.01 / 2 ^ 53 * (1.001 * v.len) :=
      mul_le_mul r4 (mul_le_mul_of_nonneg_right hN' v0) (mul_nonneg hN0 v0) (by norm_num)
    have b3 := b1.trans b2
    refine b3.trans ?_
    norm_num at c4 ⊢
    linarith
  have hnW : |n.dot W - L| ≤ 1 / 10 ^ 14 * L := by
    have e1 : n.dot W - L = L * ((n - n0).dot n0) := by
      have : n0.dot n0 = 1 := by rw [← V3.sqLen_eq_dot, ← V3.len_sq, hn01]; norm_num
      rw [← hn0L, V3.dot_smul, V3.sub_dot, this]
      ring
    have b2 : |(n - n0).dot n0| ≤ 6.01 / 2 ^ 53 := by
      have := V3.abs_dot_le (n - n0) n0
      rw [hn01, mul_one] at this
      exact this.trans hnn
    rw [e1, abs_mul, abs_of_pos hL]
    have := mul_le_mul_of_nonneg_left b2 hL.le
    refine this.trans ?_
    norm_num
    linarith
  have sp2 : |Fp.scalarProduct n (Fp.vectorBetween s.target p) - (x - L)| ≤ 2 / 10 ^ 14 * (|x| + L) := by
    have b1 := (err_dot_between n s.target p).1
    have e1 : p - s.target = v - W := by ext <;> simp [hv, hW]
    rw [e1] at b1
    have l1 : (v - W).len ≤ v.len + L := by
      have := V3.len_add_le v (-W)
      rw [V3.len_neg, hWL, ← sub_eq_add_neg] at this
      exact this
    have b2 : (rho ^ 4 - 1) * (n.len * (v - W).len) ≤ 4.01 / 2 ^ 53 * (1.001 * (v.len + L)) :=
      mul_le_mul r4 (mul_le_mul hN' l1 (V3.len_nonneg _) (by norm_num)) (mul_nonneg hN0 (V3.len_nonneg _)) (by norm_num)
    have b3 := b1.trans b2
    have b4 : n.dot (v - W) - (x - L) = -(n.dot W - L) := by rw [V3.dot_sub]; ring
    have b5 := abs_sub_le (Fp.scalarProduct n (Fp.vectorBetween s.target p)) (n.dot (v - W)) (x - L)
    rw [b4, abs_neg] at b5
    refine b5.trans ((add_le_add b3 hnW).trans ?_)
    norm_num at c4 ⊢
    linarith
  obtain ⟨sp1a, sp1b⟩ := abs_le.1 sp1
  obtain ⟨sp2a, sp2b⟩ := abs_le.1 sp2
  -- the parameter is nearly between zero and one
  have range : -(1 / 10 ^ 10) * L ≤ x ∧ x ≤ L + 1 / 10 ^ 10 * L := by
    by_cases q1 : Fp.scalarProduct n (Fp.vectorBetween s.source p) < 0
    · have q2 := h2.1 q1
      push Not at q2
      exfalso
      norm_num at sp1a sp2b
      rcases le_total 0 x with hx0 | hx0
      · rw [abs_of_nonneg hx0] at sp1a sp2b
        linarith
      · rw [abs_of_nonpos hx0] at sp1a sp2b
        linarith
    · have q2 : Fp.scalarProduct n (Fp.vectorBetween s.target p) < 0 := by
        by_contra q2
        exact q1 (h2.2 q2)
      push Not at q1
      norm_num at sp1b sp2a ⊢
      rcases le_total 0 x with hx0 | hx0
      · rw [abs_of_nonneg hx0] at sp1b sp2a
        constructor <;> linarith
      · rw [abs_of_nonpos hx0] at sp1b sp2a
        constructor <;> linarith
  obtain ⟨ra, rb⟩ := range
  obtain ⟨t, t0, t1, ht⟩ : ∃ t : ℝ, 0 ≤ t ∧ t ≤ 1 ∧ |x - t * L| ≤ 1 / 10 ^ 10 * L := by
    rcases le_total x 0 with hx0 | hx0
    · exact ⟨0, le_rfl, zero_le_one, by rw [zero_mul, sub_zero, abs_of_nonpos hx0]; linarith⟩
    · rcases le_total x L with hx1 | hx1
      · refine ⟨x / L, div_nonneg hx0 hL.le, (div_le_one hL).2 hx1, ?_⟩
        rw [div_mul_cancel₀ _ hL.ne', sub_self, abs_zero]
        positivity
      · exact ⟨1, zero_le_one, le_rfl, by rw [one_mul, abs_of_nonneg (by linarith)]; linarith⟩
  refine ⟨s.source + t • W, (onSegment_iff _ _ _).2 ⟨t, t0, t1, rfl⟩, ?_⟩
  have xL : |x| ≤ 1.001 * L := by
    rw [abs_le]
    norm_num at ra rb ⊢
    constructor <;> linarith
  have e : p - (s.source + t • W) = (v - x • n) + (x • (n - n0) + (x - t * L) • n0) := by
    rw [← hn0L]
    ext <;> simp [hv] <;> ring
  rw [dist_eq_len, e]
  have d1 := V3.len_add_le (v - x • n) (x • (n - n0) + (x - t * L) • n0)
  have d2 := V3.len_add_le (x • (n - n0)) ((x - t * L) • n0)
  rw [V3.len_smul, V3.len_smul, hn01, mul_one] at d2
  have d3 : |x| * (n - n0).len ≤ 1.001 * L * (6.01 / 2 ^ 53) := mul_le_mul xL hnn (V3.len_nonneg _) (by positivity)
  norm_num at c3 c4 d1 d2 d3 ht xL ⊢
  linarith

/-- **Points off a segment.**  Under the condition of `C117_points_partial`, the points contained with the default
tolerance are closer to the segment than 2e-7 times its length. -/
theorem C117_outside (s : Segment) (p : V3) (hL : 0 < Spec.dist s.source s.target)
    (hr : Spec.norm s.source ≤ 10 ^ 7 * Spec.dist s.source s.target) (h : Fp.segmentContainsDefault s p) :
    ∃ q, OnSegment s.source s.target q ∧ Spec.dist p q < 2 / 10 ^ 7 * Spec.dist s.source s.target := by
  obtain ⟨he1, he2⟩ := segment_eps s hL
  obtain ⟨q, hq, hd⟩ := segment_outside_eps s p _ hL hr (lt_of_lt_of_le (by positivity) he1)
    (he2.trans (by norm_num; linarith)) h
  refine ⟨q, hq, hd.trans_le ?_⟩
  norm_num at he2 ⊢
  linarith

/-- A segment of length five: its midpoint is contained, points outside of it are not. -/
example : Fp.segmentContainsDefault ⟨⟨1, 2, 3⟩, ⟨4, 6, 3⟩⟩ (Fp.segmentGetPoint ⟨⟨1, 2, 3⟩, ⟨4, 6, 3⟩⟩ (1 / 2)) ∧
    ¬ Fp.segmentContainsDefault ⟨⟨1, 2, 3⟩, ⟨4, 6, 3⟩⟩ ⟨7, 10, 3⟩ := by
  have e : Spec.dist ⟨1, 2, 3⟩ ⟨4, 6, 3⟩ = 5 := by
    unfold Spec.dist
    rw [Real.sqrt_eq_iff_mul_self_eq_of_pos (by norm_num)]
    norm_num
  have hr : Spec.norm ⟨1, 2, 3⟩ ≤ 10 ^ 7 * Spec.dist ⟨1, 2, 3⟩ ⟨4, 6, 3⟩ := by
    rw [e]
    unfold Spec.norm
    exact Real.sqrt_le_iff.2 ⟨by norm_num, by norm_num⟩
  have h0 : 0 < Spec.dist ⟨1, 2, 3⟩ ⟨4, 6, 3⟩ := by rw [e]; norm_num
  refine ⟨C117_points_partial _ _ h0 hr (by norm_num) (by norm_num), fun h => ?_⟩
  obtain ⟨q, ⟨t, t0, t1, hx, hy, hz⟩, hq⟩ := C117_outside _ _ h0 hr h
  simp only [e] at hx hq
  have : 3 ≤ Spec.dist ⟨7, 10, 3⟩ q := by
    unfold Spec.dist
    apply Real.le_sqrt_of_sq_le
    have : (3 : ℝ) ^ 2 ≤ (7 - q.x) ^ 2 := pow_le_pow_left₀ (by norm_num) (by linarith) 2
    nlinarith [sq_nonneg (10 - q.y), sq_nonneg (3 - q.z)]
  norm_num at hq
  linarith

end Props
