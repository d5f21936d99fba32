import Verif.Props.FloatSegment

/-!
# C150 Distance of a point from a segment in double precision
-/

namespace Props
open Verif Frackit Spec

/-- The full property: the computed distance is the distance, up to a twentieth of the length of the segment and the
relative error of a distance. -/
def C150_full : Prop := ∀ (p : V3) (s : Segment), DoubleCoordinates p → DoubleCoordinates s.source →
  DoubleCoordinates s.target → s.source ≠ s.target →
  ∃ D : ℝ, (∀ q, OnSegment s.source s.target q → D ≤ Spec.dist p q) ∧
    (∃ q, OnSegment s.source s.target q ∧ Spec.dist p q = D) ∧
    |Fp.distPointSegment p s - D| ≤ 1 / 20 * Spec.dist s.source s.target + 1 / 2 ^ 47 * Spec.dist s.source p

/-- The exact distance from a segment. -/
theorem segment_least (s : Segment) (p : V3) (hL : 0 < Spec.dist s.source s.target) :
    ∃ a h D t : ℝ, a = ((Spec.dist s.source s.target)⁻¹ • (s.target - s.source)).dot (p - s.source) ∧
      |a| ≤ (p - s.source).len ∧ 0 ≤ h ∧
      (p - s.source).len ^ 2 = h ^ 2 + a ^ 2 ∧
      (p - (s.source + a • (Spec.dist s.source s.target)⁻¹ • (s.target - s.source))).len = h ∧
      (∀ q, OnSegment s.source s.target q → D ≤ Spec.dist p q) ∧
      0 ≤ t ∧ t ≤ 1 ∧ Spec.dist p (s.source + t • (s.target - s.source)) = D ∧ h ≤ D ∧
      (a ≤ 0 → D = Spec.dist p s.source) ∧ (Spec.dist s.source s.target ≤ a → D = Spec.dist p s.target) ∧
      (0 ≤ a → a ≤ Spec.dist s.source s.target → D = h ∧ t * Spec.dist s.source s.target = a) := by
  set L := Spec.dist s.source s.target with hLd
  set W := s.target - s.source with hW
  have hWL : W.len = L := by rw [hW, V3.len_sub_comm, ← dist_eq_len]
  set n0 := L⁻¹ • W with hn0
  have hn0L : L • n0 = W := by
    ext <;> simp [hn0] <;> field_simp
  have hn01 : n0.len = 1 := by
    rw [hn0, V3.len_smul, hWL, abs_of_pos (inv_pos.2 hL), inv_mul_cancel₀ hL.ne']
  have hnn : n0.dot n0 = 1 := by rw [← V3.sqLen_eq_dot, ← V3.len_sq, hn01]; norm_num
  set v := p - s.source with hv
  set a := n0.dot v with ha
  have hav : |a| ≤ v.len := by
    have := V3.abs_dot_le n0 v
    rwa [hn01, one_mul] at this
  -- Pythagoras
  have py : ∀ c : ℝ, (p - (s.source + c • n0)).len ^ 2 = (v.len ^ 2 - a ^ 2) + (a - c) ^ 2 := by
    intro c
    have e : p - (s.source + c • n0) = v - c • n0 := by ext <;> simp [hv] <;> ring
    rw [e, V3.len_sq, V3.len_sq, V3.sqLen_eq_dot, V3.sqLen_eq_dot]
    have hx : a = n0.x * v.x + n0.y * v.y + n0.z * v.z := rfl
    have hy : n0.x * n0.x + n0.y * n0.y + n0.z * n0.z = 1 := hnn
    simp only [V3.dot, V3.sub_x, V3.sub_y, V3.sub_z, V3.smul_x, V3.smul_y, V3.smul_z]
    linear_combination c ^ 2 * hy + (2 * c) * hx
  have hh : 0 ≤ v.len ^ 2 - a ^ 2 := by
    have := sq_le_sq' (by linarith [neg_le_of_abs_le hav]) (le_of_abs_le hav)
    linarith
  have dP : ∀ t : ℝ, Spec.dist p (s.source + t • W) ^ 2 = (v.len ^ 2 - a ^ 2) + (a - t * L) ^ 2 := by
    intro t
    rw [dist_eq_len, ← py, ← hn0L, smul_smul]
  have d0 : ∀ q, 0 ≤ Spec.dist p q := fun q => Real.sqrt_nonneg _
  have least : ∀ t : ℝ, (∀ u : ℝ, 0 ≤ u → u ≤ 1 → (a - t * L) ^ 2 ≤ (a - u * L) ^ 2) →
      ∀ q, OnSegment s.source s.target q → Spec.dist p (s.source + t • W) ≤ Spec.dist p q := by
    intro t ht q hq
    obtain ⟨u, u0, u1, rfl⟩ := (onSegment_iff _ _ _).1 hq
    apply le_of_sq_le_sq _ (d0 _)
    rw [dP, dP]
    have := ht u u0 u1
    linarith
  have hle : ∀ t : ℝ, √(v.len ^ 2 - a ^ 2) ≤ Spec.dist p (s.source + t • W) := by
    intro t
    apply Real.sqrt_le_iff.2 ⟨d0 _, ?_⟩
    rw [dP]
    nlinarith [sq_nonneg (a - t * L)]
  have hs : √(v.len ^ 2 - a ^ 2) ^ 2 = v.len ^ 2 - a ^ 2 := Real.sq_sqrt hh
  have common : (p - (s.source + a • n0)).len = √(v.len ^ 2 - a ^ 2) := by
    rw [← Real.sqrt_sq (V3.len_nonneg _), py a, sub_self]
    norm_num
  have e0 : s.source + (0 : ℝ) • W = s.source := by ext <;> simp
  have e1 : s.source + (1 : ℝ) • W = s.target := by ext <;> simp [hW]
  rcases le_total a 0 with h1 | h1
  · refine ⟨a, _, Spec.dist p (s.source + (0 : ℝ) • W), 0, rfl, hav, Real.sqrt_nonneg _, by rw [hs]; ring, common,
      least 0 ?_, le_rfl, zero_le_one, rfl, hle _, fun _ => by rw [e0], fun h => by linarith, fun h h' => ?_⟩
    · intro u u0 _
      have := mul_nonneg u0 hL.le
      nlinarith
    · have h0 : a = 0 := le_antisymm h1 h
      refine ⟨?_, by rw [h0, zero_mul]⟩
      rw [← common, dist_eq_len, h0]
      congr 2
      ext <;> simp
  · rcases le_total a L with h2 | h2
    · have hta : a / L * L = a := div_mul_cancel₀ _ hL.ne'
      have eD : Spec.dist p (s.source + (a / L) • W) = √(v.len ^ 2 - a ^ 2) := by
        rw [← common, dist_eq_len, ← hn0L, smul_smul, hta]
      refine ⟨a, _, Spec.dist p (s.source + (a / L) • W), a / L, rfl, hav, Real.sqrt_nonneg _, by rw [hs]; ring, common,
        least _ ?_, div_nonneg h1 hL.le, (div_le_one hL).2 h2, rfl, hle _, fun h => ?_, fun h => ?_, fun _ _ => ⟨eD, hta⟩⟩
      · intro u _ _
        rw [hta, sub_self]
        nlinarith [sq_nonneg (a - u * L)]
      · rw [le_antisymm h h1, zero_div, e0]
      · rw [le_antisymm h2 h, div_self hL.ne', e1]
    · refine ⟨a, _, Spec.dist p (s.source + (1 : ℝ) • W), 1, rfl, hav, Real.sqrt_nonneg _, by rw [hs]; ring, common,
        least 1 ?_, zero_le_one, le_rfl, rfl, hle _, fun h => by linarith, fun _ => by rw [e1], fun h h' => ?_⟩
      · intro u _ u1
        have : u * L ≤ L := by nlinarith
        nlinarith
      · have h0 : a = L := le_antisymm h' h2
        refine ⟨?_, by rw [h0, one_mul]⟩
        rw [← common, dist_eq_len, h0, hn0L, one_smul]

/-- **Distance of a point from a segment.**  If the source of the segment is at most 1e7 times as far from the origin
as the segment is long, the computed distance of any point from it differs from the distance by at most 2e-6 times the
length of the segment and by the rounding of the distance. -/
theorem C150_distance_partial (p : V3) (s : Segment) (hL : 0 < Spec.dist s.source s.target)
    (hr : Spec.norm s.source ≤ 10 ^ 7 * Spec.dist s.source s.target) :
    ∃ D : ℝ, (∀ q, OnSegment s.source s.target q → D ≤ Spec.dist p q) ∧
      (∃ q, OnSegment s.source s.target q ∧ Spec.dist p q = D) ∧
      |Fp.distPointSegment p s - D| ≤ 2 / 10 ^ 6 * Spec.dist s.source s.target + 1 / 2 ^ 47 * Spec.dist s.source p := by
  obtain ⟨a, h, D, t, ha, hav, h0, hvh, hf, hleast, t0, t1, hD, hhD, ca, cb, cc⟩ := segment_least s p hL
  refine ⟨D, hleast, ⟨_, (onSegment_iff _ _ _).2 ⟨t, t0, t1, rfl⟩, hD⟩, ?_⟩
  obtain ⟨n, hn, hnn⟩ := segment_direction s hL
  have hr' := hr
  rw [norm_eq_len] at hr'
  set L := Spec.dist s.source s.target with hLd
  set W := s.target - s.source with hW
  have hWL : W.len = L := by rw [hW, V3.len_sub_comm, ← dist_eq_len]
  set n0 := L⁻¹ • W with hn0
  have hn0L : L • n0 = W := by
    ext <;> simp [hn0] <;> field_simp
  have hn01 : n0.len = 1 := by
    rw [hn0, V3.len_smul, hWL, abs_of_pos (inv_pos.2 hL), inv_mul_cancel₀ hL.ne']
  have hvd : Spec.dist s.source p = (p - s.source).len := by rw [dist_eq_len, V3.len_sub_comm]
  have hvd' : Spec.dist p s.source = (p - s.source).len := by rw [dist_eq_len]
  rw [hvd]
  set v := p - s.source with hv
  have v0 := V3.len_nonneg v
  have hN' : n.len ≤ 1.001 := by
    have := abs_len_sub_le n n0
    rw [hn01] at this
    have := (abs_le.1 (this.trans hnn)).2
    norm_num at this ⊢
    linarith
  have hN0 := V3.len_nonneg n
  have r6 : rho ^ 6 - 1 ≤ 6.01 / 2 ^ 53 := (rho_pow_sub_one_le (by norm_num)).trans (by norm_num)
  -- the computed projection
  have c1 := lineProjection_error ⟨s.source, n⟩ p
  simp only at c1
  have c2 : (rho ^ 6 - 1) * (s.source.len + n.len * n.len * v.len) ≤
      6.01 / 2 ^ 53 * (10 ^ 7 * L + 1.001 * 1.001 * v.len) :=
    mul_le_mul r6 (add_le_add hr' (mul_le_mul (mul_le_mul hN' hN' hN0 (by norm_num)) le_rfl v0
      (by norm_num))) (add_nonneg (V3.len_nonneg _) (mul_nonneg (mul_nonneg hN0 hN0) v0)) (by norm_num)
  have hdef : Fp.distPointSegment p s = (open Classical in
      if Fp.segmentContainsDefault s (Fp.lineProjection ⟨s.source, n⟩ p)
      then Fp.distPointPoint p (Fp.lineProjection ⟨s.source, n⟩ p)
      else min (Fp.distPointPoint p s.source) (Fp.distPointPoint p s.target)) := by
    unfold Fp.distPointSegment
    simp only [hn]
    rfl
  set P := Fp.lineProjection ⟨s.source, n⟩ p
  have c3 : (P - (s.source + a • n0)).len ≤ 7 / 10 ^ 9 * L + 1 / 2 ^ 48 * v.len := by
    have e : P - (s.source + a • n0) = (P - (s.source + (n.dot v) • n)) + ((n - n0).dot v • n + a • (n - n0)) := by
      have : n.dot v = (n - n0).dot v + a := by rw [ha, V3.sub_dot]; ring
      rw [this]
      ext <;> simp <;> ring
    rw [e]
    have d1 := V3.len_add_le (P - (s.source + (n.dot v) • n)) ((n - n0).dot v • n + a • (n - n0))
    have d2 := V3.len_add_le ((n - n0).dot v • n) (a • (n - n0))
    rw [V3.len_smul, V3.len_smul] at d2
    have d3 : |(n - n0).dot v| ≤ 6.01 / 2 ^ 53 * v.len :=
      (V3.abs_dot_le _ _).trans (mul_le_mul_of_nonneg_right hnn v0)
    have d4 : |(n - n0).dot v| * n.len ≤ 6.01 / 2 ^ 53 * v.len * 1.001 := mul_le_mul d3 hN' hN0 (by positivity)
    have d5 : |a| * (n - n0).len ≤ v.len * (6.01 / 2 ^ 53) := mul_le_mul hav hnn (V3.len_nonneg _) v0
    have d6 := c1.trans c2
    norm_num at d1 d2 d4 d5 d6 ⊢
    linarith
  have D0 : 0 ≤ D := h0.trans hhD
  have Dv : D ≤ v.len := by
    rw [← hvd']
    exact hleast _ ((onSegment_iff _ _ _).2 ⟨0, le_rfl, zero_le_one, by ext <;> simp⟩)
  have D2 : D ≤ Spec.dist p s.target :=
    hleast _ ((onSegment_iff _ _ _).2 ⟨1, zero_le_one, le_rfl, by ext <;> simp⟩)
  have tri : ∀ x y z : V3, Spec.dist x z ≤ Spec.dist x y + Spec.dist y z := by
    intro x y z
    rw [dist_eq_len, dist_eq_len, dist_eq_len]
    have : x - z = (x - y) + (y - z) := by ext <;> simp
    rw [this]
    exact V3.len_add_le _ _
  rw [hdef]
  by_cases hc : Fp.segmentContainsDefault s P
  · rw [if_pos hc]
    obtain ⟨q, hq, hPq⟩ := C117_outside s P hL hr hc
    have b1 := (C116_distance p P).1
    obtain ⟨b2, b3⟩ := abs_le.1 b1
    have b4 : Spec.dist p P ≤ h + (7 / 10 ^ 9 * L + 1 / 2 ^ 48 * v.len) := by
      refine (tri p (s.source + a • n0) P).trans (add_le_add ?_ ?_)
      · rw [dist_eq_len, hf]
      · rw [dist_eq_len, V3.len_sub_comm]
        exact c3
    have b5 := (hleast q hq).trans (tri p P q)
    rw [abs_le]
    norm_num at b2 b3 b4 b5 hPq ⊢
    constructor <;> linarith
  · rw [if_neg hc]
    have b1 := abs_le.1 (C116_distance p s.source).1
    have b2 := abs_le.1 (C116_distance p s.target).1
    have b3 : Spec.dist p s.target ≤ v.len + L := by rw [← hvd']; exact tri _ _ _
    rw [hvd'] at b1
    have lower : D - 1 / 2 ^ 49 * (v.len + L) ≤ min (Fp.distPointPoint p s.source) (Fp.distPointPoint p s.target) := by
      obtain ⟨b11, b12⟩ := b1
      obtain ⟨b21, b22⟩ := b2
      norm_num at b11 b21 ⊢
      constructor <;> linarith
    have up1 := min_le_left (Fp.distPointPoint p s.source) (Fp.distPointPoint p s.target)
    have up2 := min_le_right (Fp.distPointPoint p s.source) (Fp.distPointPoint p s.target)
    set m := min (Fp.distPointPoint p s.source) (Fp.distPointPoint p s.target)
    have upper : m ≤ D + 1 / 2 ^ 49 * (v.len + L) + 1 / (8 * 10 ^ 5) * L := by
      obtain ⟨b11, b12⟩ := b1
      obtain ⟨b21, b22⟩ := b2
      rcases le_total a 0 with h1 | h1
      · have e := ca h1
        rw [hvd'] at e
        norm_num at b12 ⊢
        linarith
      · rcases le_total L a with h2 | h2
        · have e := cb h2
          rw [← e] at b22 b3
          norm_num at b22 b3 ⊢
          linarith
        · obtain ⟨e1, e2⟩ := cc h1 h2
          by_cases far : v.len ≤ 8 * 10 ^ 5 * L
          · exfalso
            apply hc
            apply segment_contains_near s P t hL hr t0 t1
            have e3 : t • W = a • n0 := by rw [← hn0L, smul_smul, e2]
            rw [e3]
            norm_num at c3 far ⊢
            linarith
          · push Not at far
            have k1 : (v.len - D) * (v.len + D) = a ^ 2 := by rw [e1]; linear_combination hvh
            have k2 : a ^ 2 ≤ L ^ 2 := pow_le_pow_left₀ h1 h2 2
            have k3 : (v.len - D) * (8 * 10 ^ 5 * L) ≤ L ^ 2 := by
              refine le_trans ?_ (k1.le.trans k2)
              apply mul_le_mul_of_nonneg_left _ (by linarith)
              linarith
            have k4 : v.len - D ≤ 1 / (8 * 10 ^ 5) * L := by
              have : (v.len - D) * (8 * 10 ^ 5) ≤ L := by
                by_contra hcon
                push Not at hcon
                nlinarith
              norm_num at this ⊢
              linarith
            norm_num at b12 k4 ⊢
            linarith
    rw [abs_le]
    norm_num at lower upper ⊢
    constructor <;> linarith

/-- **Degenerate segments.**  The computed distance from a segment of length zero is the computed distance from its
source, which is right up to the rounding of a distance. -/
theorem C150_degenerate (p : V3) (s : Segment) (hs : s.source = s.target) :
    Fp.distPointSegment p s = Fp.distPointPoint p s.source ∧
    |Fp.distPointSegment p s - Spec.dist p s.source| ≤ 1 / 2 ^ 50 * Spec.dist p s.source := by
  have h : Fp.distPointSegment p s = Fp.distPointPoint p s.source := by
    have h0 : Fp.length (Fp.vectorBetween s.source s.target) = 0 := (C116_distance s.source s.target).2.1.2 hs
    unfold Fp.distPointSegment Fp.segmentLine Fp.mkDirection
    rw [if_pos h0]
    simp only [← hs, min_self]
    rfl
  exact ⟨h, h ▸ (C116_distance p s.source).1⟩

/-- The full property fails for a segment far from the origin: the computed projection is not found on the segment, and
the distance from one of its ends is returned. -/
theorem C150_disproof : ¬ C150_full := by
  intro hfull
  let s : Segment := ⟨⟨2 ^ 52, 0, 0⟩, ⟨2 ^ 52 + 1, 1, 0⟩⟩
  let p : V3 := ⟨2 ^ 52, 1 / 2, 0⟩
  have d0 : IsDouble 0 := ⟨0, 0, by norm_num, by norm_num⟩
  have d1 : IsDouble 1 := ⟨1, 0, by norm_num, by norm_num⟩
  have dh : IsDouble (1 / 2) := ⟨1, -1, by norm_num, by norm_num⟩
  obtain ⟨D, hD1, -, hD⟩ := hfull p s ⟨⟨2 ^ 52, 0, by norm_num, by norm_num [p]⟩, dh, d0⟩
    ⟨⟨2 ^ 52, 0, by norm_num, by norm_num [s]⟩, d0, d0⟩
    ⟨⟨2 ^ 52 + 1, 0, by norm_num, by norm_num [s]⟩, d1, d0⟩ (by simp [s])
  have r1 : Fp.rnd 1 = 1 := rnd_of_isDouble d1
  have rh : Fp.rnd (1 / 2) = 1 / 2 := rnd_of_isDouble dh
  have hL : Spec.dist s.source s.target = √2 := by
    unfold Spec.dist
    norm_num [s]
  have s2 : √2 ≤ 1.42 := Real.sqrt_le_iff.2 ⟨by norm_num, by norm_num⟩
  have s2' : (1.41 : ℝ) ≤ √2 := Real.le_sqrt_of_sq_le (by norm_num)
  obtain ⟨n, hn, hnn⟩ := segment_direction s (by rw [hL]; positivity)
  obtain ⟨he1, he2⟩ := segment_eps s (by rw [hL]; positivity)
  rw [hL] at he1 he2 hnn
  have comp : ∀ f : V3 → ℝ, (f = V3.x ∨ f = V3.y) → |f n - (√2)⁻¹| ≤ 1 / 10 ^ 10 := by
    intro f hf
    have a : |f n - (√2)⁻¹| ≤ (n - (√2)⁻¹ • (s.target - s.source)).len := by
      unfold V3.len
      apply Real.abs_le_sqrt
      unfold V3.sqLen
      simp only [V3.sub_x, V3.sub_y, V3.sub_z, V3.smul_x, V3.smul_y, V3.smul_z]
      have ex : s.target.x - s.source.x = 1 := by norm_num [s]
      have ey : s.target.y - s.source.y = 1 := by norm_num [s]
      rw [ex, ey, mul_one]
      rcases hf with rfl | rfl <;>
        nlinarith [mul_self_nonneg (n.x - (√2)⁻¹), mul_self_nonneg (n.y - (√2)⁻¹),
          mul_self_nonneg (n.z - (√2)⁻¹ * (s.target.z - s.source.z))]
    exact (a.trans hnn).trans (by norm_num)
  have inv1 : (√2)⁻¹ ≤ 0.71 := by
    rw [inv_le_comm₀ (by positivity) (by norm_num)]
    refine le_trans ?_ s2'
    norm_num
  have inv2 : 0.7 ≤ (√2)⁻¹ := by
    rw [le_inv_comm₀ (by norm_num) (by positivity)]
    exact s2.trans (by norm_num)
  have rng : ∀ f : V3 → ℝ, (f = V3.x ∨ f = V3.y) → 0.69 ≤ f n ∧ f n ≤ 0.72 := by
    intro f hf
    obtain ⟨h1, h2⟩ := abs_le.1 (comp f hf)
    norm_num at h1 h2 inv1 inv2 ⊢
    constructor <;> linarith
  obtain ⟨nx1, nx2⟩ := rng V3.x (Or.inl rfl)
  obtain ⟨ny1, ny2⟩ := rng V3.y (Or.inr rfl)
  -- rounding of positive numbers
  have rb : ∀ {x lo hi : ℝ}, 0 < lo → lo ≤ x → x ≤ hi → 0.99 * lo ≤ Fp.rnd x ∧ Fp.rnd x ≤ 1.01 * hi := by
    intro x lo hi h0 h1 h2
    have x0 : 0 ≤ x := h0.le.trans h1
    have a := close_rnd x0
    have b : rho ^ 1 ≤ 1.01 := (rho_pow_le (show 1 ≤ 15 by norm_num)).trans (by norm_num)
    have r0 : 0 ≤ Fp.rnd x := rnd_nonneg x0
    refine ⟨?_, a.2.2.2.trans (mul_le_mul b h2 x0 (by norm_num))⟩
    have c := a.2.2.1
    have d : Fp.rnd x * rho ^ 1 ≤ Fp.rnd x * 1.01 := mul_le_mul_of_nonneg_left b r0
    norm_num at c d ⊢
    linarith
  have r52 : ∀ y : ℝ, 0 ≤ y → y < 1 / 2 → Fp.rnd (2 ^ 52 + y) = 2 ^ 52 := by
    intro y y0 y1
    have hu : Fp.ulpExponent (2 ^ 52 + y) = 0 := by
      apply ulpExponent_eq <;> rw [abs_of_pos (by positivity)]
      · norm_num; linarith
      · norm_num; linarith
    unfold Fp.rnd
    rw [hu, zpow_zero, div_one, mul_one]
    have : Fp.nearestEven (2 ^ 52 + y) = 2 ^ 52 := by
      apply nearestEven_unique
      · push_cast
        rw [abs_le]
        norm_num
        constructor <;> linarith
      · intro _
        exact ⟨2 ^ 51, by norm_num⟩
    rw [this]
    norm_num
  have nz : n.z = 0 := by
    have hl : Fp.length (Fp.vectorBetween s.source s.target) ≠ 0 := by
      intro h0
      have := (C116_distance s.source s.target).2.1.1 h0
      simp [s] at this
    have hn' := hn
    unfold Fp.segmentLine Fp.mkDirection at hn'
    rw [if_neg hl] at hn'
    have : (⟨s.source, ⟨Fp.div (Fp.vectorBetween s.source s.target).x (Fp.length (Fp.vectorBetween s.source s.target)),
        Fp.div (Fp.vectorBetween s.source s.target).y (Fp.length (Fp.vectorBetween s.source s.target)),
        Fp.div (Fp.vectorBetween s.source s.target).z (Fp.length (Fp.vectorBetween s.source s.target))⟩⟩ : Line) =
        ⟨s.source, n⟩ := Outcome.val.inj hn'
    have := congrArg (fun l : Line => l.dir.z) this
    simp only at this
    rw [← this]
    unfold Fp.vectorBetween Fp.sub Fp.div
    simp only [s, sub_self, rnd_zero, zero_div]
  -- projections of points above the source
  have proj : ∀ y lo hi : ℝ, Fp.rnd y = y → 0 < lo → lo ≤ y → y ≤ hi → hi ≤ 1 / 2 →
      ∃ y', Fp.lineProjection ⟨s.source, n⟩ ⟨2 ^ 52, y, 0⟩ = ⟨2 ^ 52, y', 0⟩ ∧ Fp.rnd y' = y' ∧
        0.45 * lo ≤ y' ∧ y' ≤ 0.54 * hi := by
    intro y lo hi ry l0 hlo hhi hh
    have hv : Fp.vectorBetween s.source ⟨2 ^ 52, y, 0⟩ = ⟨0, y, 0⟩ := by
      unfold Fp.vectorBetween Fp.sub
      simp only [s, sub_self, sub_zero, rnd_zero, ry]
    have hs : Fp.scalarProduct n ⟨0, y, 0⟩ = Fp.rnd (n.y * y) := by
      unfold Fp.scalarProduct Fp.add Fp.mul
      simp only [mul_zero, rnd_zero, zero_add, add_zero, rnd_rnd]
    have k := rb (x := n.y * y) (lo := 0.69 * lo) (hi := 0.72 * hi) (by positivity)
      (mul_le_mul ny1 hlo l0.le (by linarith)) (mul_le_mul ny2 hhi (by linarith) (by norm_num))
    have k0 : 0 ≤ Fp.rnd (n.y * y) := by
      refine le_trans ?_ k.1
      positivity
    have kk := fun (c : ℝ) (h1 : 0.69 ≤ c) (h2 : c ≤ 0.72) => rb (x := c * Fp.rnd (n.y * y))
      (lo := 0.69 * (0.99 * (0.69 * lo))) (hi := 0.72 * (1.01 * (0.72 * hi))) (by positivity)
      (mul_le_mul h1 k.1 (by positivity) (by linarith)) (mul_le_mul h2 k.2 k0 (by norm_num))
    have kx := kk n.x nx1 nx2
    have ky := kk n.y ny1 ny2
    refine ⟨Fp.rnd (n.y * Fp.rnd (n.y * y)), ?_, rnd_rnd _, ?_, ?_⟩
    · unfold Fp.lineProjection
      simp only [hv, hs]
      unfold Fp.move Fp.scale Fp.add Fp.mul
      simp only [s, zero_add, rnd_rnd, nz, zero_mul, rnd_zero, add_zero]
      rw [r52]
      · refine le_trans ?_ kx.1
        positivity
      · refine lt_of_le_of_lt kx.2 ?_
        norm_num
        linarith
    · refine le_trans ?_ ky.1
      norm_num
      linarith
    · refine ky.2.trans ?_
      norm_num
      linarith
  obtain ⟨y1, hP1, ry1, l1, u1⟩ := proj (1 / 2) (1 / 2) (1 / 2) rh (by norm_num) le_rfl le_rfl le_rfl
  obtain ⟨y2, hP2, ry2, l2, u2⟩ := proj y1 0.22 0.28 ry1 (by norm_num) (by norm_num at l1 ⊢; linarith)
    (by norm_num at u1 ⊢; linarith) (by norm_num)
  set eps := Fp.mul Fp.confusion (Fp.segmentLength s)
  have epos : 0 < eps := lt_of_lt_of_le (by positivity) he1
  have hno : ¬ Fp.segmentContainsDefault s ⟨2 ^ 52, y1, 0⟩ := by
    intro hc
    unfold Fp.segmentContainsDefault Fp.segmentContains at hc
    simp only [hn] at hc
    have h2 := hc.1 trivial
    have h3 := (C116_equal _ _ eps epos).2.1 h2
    rw [hP2] at h3
    have b3 : 0.05 ≤ Spec.dist ⟨2 ^ 52, y1, 0⟩ ⟨2 ^ 52, y2, 0⟩ := by
      unfold Spec.dist
      apply Real.le_sqrt_of_sq_le
      have c1 : 0.05 ≤ y1 - y2 := by
        norm_num at l1 u2 ⊢
        linarith
      have c2 : (0.05 : ℝ) ^ 2 ≤ (y1 - y2) ^ 2 := pow_le_pow_left₀ (by norm_num) c1 2
      simp only [sub_self]
      nlinarith
    norm_num at h3 b3 he2 s2
    linarith
  have hdef : Fp.distPointSegment p s = min (Fp.distPointPoint p s.source) (Fp.distPointPoint p s.target) := by
    unfold Fp.distPointSegment
    simp only [hn]
    have : Fp.lineProjection ⟨s.source, n⟩ p = ⟨2 ^ 52, y1, 0⟩ := hP1
    rw [this, if_neg hno]
    rfl
  have ds : Spec.dist p s.source = 1 / 2 := by
    unfold Spec.dist
    rw [Real.sqrt_eq_iff_mul_self_eq_of_pos (by norm_num)]
    norm_num [s, p]
  have dt : 1 / 2 ≤ Spec.dist p s.target := by
    unfold Spec.dist
    apply Real.le_sqrt_of_sq_le
    norm_num [s, p]
  have b1 := (abs_le.1 (C116_distance p s.source).1).1
  have b2 := (abs_le.1 (C116_distance p s.target).1).1
  have low : 0.49 ≤ Fp.distPointSegment p s := by
    rw [hdef, le_min_iff]
    rw [ds] at b1
    norm_num at b1 b2 dt ⊢
    constructor <;> linarith
  have hq := hD1 ⟨2 ^ 52 + 1 / 4, 1 / 4, 0⟩ ((onSegment_iff _ _ _).2 ⟨1 / 4, by norm_num, by norm_num, by
    ext <;> norm_num [s]⟩)
  have hq' : Spec.dist p ⟨2 ^ 52 + 1 / 4, 1 / 4, 0⟩ ≤ 0.36 := by
    unfold Spec.dist
    apply Real.sqrt_le_iff.2
    norm_num [p]
  have hD' := (abs_le.1 hD).2
  rw [hL, Spec.dist_comm s.source p, ds] at hD'
  norm_num at low hq' hD' s2
  linarith

/-- The point above the middle of a segment: the distance is three. -/
example : |Fp.distPointSegment ⟨5, 3, 0⟩ ⟨⟨0, 0, 0⟩, ⟨10, 0, 0⟩⟩ - 3| ≤ 1 / 10 ^ 4 := by
  have e : Spec.dist ⟨0, 0, 0⟩ ⟨10, 0, 0⟩ = 10 := by
    unfold Spec.dist
    rw [Real.sqrt_eq_iff_mul_self_eq_of_pos (by norm_num)]
    norm_num
  obtain ⟨D, h1, ⟨q, hq, h2⟩, h3⟩ := C150_distance_partial ⟨5, 3, 0⟩ ⟨⟨0, 0, 0⟩, ⟨10, 0, 0⟩⟩ (by simp only [e]; norm_num)
    (by simp only [e]; unfold Spec.norm; norm_num)
  simp only [e] at h3
  have hv : Spec.dist ⟨0, 0, 0⟩ ⟨5, 3, 0⟩ ≤ 6 := by
    unfold Spec.dist
    apply Real.sqrt_le_iff.2
    norm_num
  have hD : D = 3 := by
    apply le_antisymm
    · refine (h1 ⟨5, 0, 0⟩ ((onSegment_iff _ _ _).2 ⟨1 / 2, by norm_num, by norm_num, by ext <;> norm_num⟩)).trans ?_
      unfold Spec.dist
      apply Real.sqrt_le_iff.2
      norm_num
    · obtain ⟨t, -, -, rfl⟩ := (onSegment_iff _ _ _).1 hq
      rw [← h2]
      unfold Spec.dist
      apply Real.le_sqrt_of_sq_le
      simp only [V3.add_x, V3.add_y, V3.add_z, V3.smul_x, V3.smul_y, V3.smul_z, V3.sub_x, V3.sub_y, V3.sub_z]
      nlinarith [sq_nonneg (5 - (0 + t * (10 - 0)))]
  rw [hD] at h3
  refine h3.trans ?_
  norm_num at hv ⊢
  linarith

end Props
