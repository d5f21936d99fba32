import Verif.Lemmas.DoubleRange
import Verif.Spec.DoubleRange
import Verif.Props.FloatDistance
import Verif.Props.FloatArea

/-!
# C155 Overflow and underflow
-/

namespace Props
open Verif Frackit Spec

theorem onGrid_of_moderate {x : ℝ} (h : Moderate x) : OnGrid (-200) 200 x := ⟨h.2.1, h.2.2⟩

/-- The numbers of type `double` that are of moderate magnitude. -/
theorem C155_moderate (x : ℝ) (h : IsDouble x) (hx : x = 0 ∨ 2 ^ (-147 : ℤ) ≤ |x| ∧ |x| ≤ 2 ^ (200 : ℤ)) : Moderate x := by
  rcases hx with rfl | ⟨h1, h2⟩
  · exact ⟨h, Grid.zero _, by rw [abs_zero]; positivity⟩
  · exact ⟨h, Grid.of_isDouble h h1, h2⟩

/-- The vectors that occur in computations. -/
def VecOnGrid (k n : ℤ) (v : V3) : Prop := OnGrid k n v.x ∧ OnGrid k n v.y ∧ OnGrid k n v.z

theorem vecOnGrid_of_moderate {v : V3} (h : ModerateCoordinates v) : VecOnGrid (-200) 200 v :=
  ⟨onGrid_of_moderate h.1, onGrid_of_moderate h.2.1, onGrid_of_moderate h.2.2⟩

theorem vectorBetween_range {k n : ℤ} {a b : V3} (ha : VecOnGrid k n a) (hb : VecOnGrid k n b) (hk : -1074 ≤ k)
    (hn : n ≤ 1022) :
    Fp.V3D.vectorBetween (.ofV3 a) (.ofV3 b) = .ofV3 (Fp.vectorBetween a b) ∧
      VecOnGrid k (n + 1) (Fp.vectorBetween a b) := by
  obtain ⟨x1, x2⟩ := hb.1.sub ha.1 hk hn
  obtain ⟨y1, y2⟩ := hb.2.1.sub ha.2.1 hk hn
  obtain ⟨z1, z2⟩ := hb.2.2.sub ha.2.2 hk hn
  refine ⟨?_, x2, y2, z2⟩
  simp only [Fp.V3D.vectorBetween, Fp.V3D.ofV3, Fp.vectorBetween, x1, y1, z1]

theorem scalarProduct_range {k n : ℤ} {v w : V3} (hv : VecOnGrid k n v) (hw : VecOnGrid k n w) (hk : -1074 ≤ 2 * k)
    (hn : 2 * n + 2 ≤ 1022) :
    Fp.V3D.scalarProduct (.ofV3 v) (.ofV3 w) = .fin (Fp.scalarProduct v w) ∧
      OnGrid (2 * k) (2 * n + 3) (Fp.scalarProduct v w) := by
  obtain ⟨x1, x2⟩ := hv.1.mul hw.1 (by omega) (by omega)
  obtain ⟨y1, y2⟩ := hv.2.1.mul hw.2.1 (by omega) (by omega)
  obtain ⟨z1, z2⟩ := hv.2.2.mul hw.2.2 (by omega) (by omega)
  obtain ⟨a1, a2⟩ := (OnGrid.zero _ _).add x2 (by omega) (by omega)
  obtain ⟨b1, b2⟩ := a2.add (y2.mono le_rfl (by omega)) (by omega) (by omega)
  obtain ⟨c1, c2⟩ := b2.add (z2.mono le_rfl (by omega)) (by omega) (by omega)
  refine ⟨?_, c2.mono (by omega) (by omega)⟩
  simp only [Fp.V3D.scalarProduct, Fp.V3D.ofV3, x1, y1, z1, a1, b1, c1]
  rfl

theorem crossProduct_range {k n : ℤ} {v w : V3} (hv : VecOnGrid k n v) (hw : VecOnGrid k n w) (hk : -1074 ≤ 2 * k)
    (hn : 2 * n + 2 ≤ 1022) :
    Fp.V3D.crossProduct (.ofV3 v) (.ofV3 w) = .ofV3 (Fp.crossProduct v w) ∧
      VecOnGrid (2 * k) (2 * n + 1) (Fp.crossProduct v w) := by
  have key : ∀ {a b c d : ℝ}, OnGrid k n a → OnGrid k n b → OnGrid k n c → OnGrid k n d →
      ((Fp.Dbl.fin a).mul (.fin b)).sub ((Fp.Dbl.fin c).mul (.fin d)) = .fin (Fp.sub (Fp.mul a b) (Fp.mul c d)) ∧
      OnGrid (2 * k) (2 * n + 1) (Fp.sub (Fp.mul a b) (Fp.mul c d)) := by
    intro a b c d ha hb hc hd
    obtain ⟨x1, x2⟩ := ha.mul hb (by omega) (by omega)
    obtain ⟨y1, y2⟩ := hc.mul hd (by omega) (by omega)
    obtain ⟨z1, z2⟩ := x2.sub y2 (by omega) (by omega)
    exact ⟨by rw [x1, y1, z1], z2.mono (by omega) (by omega)⟩
  obtain ⟨x1, x2⟩ := key hv.2.1 hw.2.2 hv.2.2 hw.2.1
  obtain ⟨y1, y2⟩ := key hv.2.2 hw.1 hv.1 hw.2.2
  obtain ⟨z1, z2⟩ := key hv.1 hw.2.1 hv.2.1 hw.1
  refine ⟨?_, x2, y2, z2⟩
  simp only [Fp.V3D.crossProduct, Fp.V3D.ofV3, Fp.crossProduct, x1, y1, z1]

theorem squaredLength_range {k n : ℤ} {v : V3} (hv : VecOnGrid k n v) (hk : -1074 ≤ 2 * k) (hn : 2 * n + 2 ≤ 1022) :
    Fp.V3D.squaredLength (.ofV3 v) = .fin (Fp.squaredLength v) ∧ OnGrid (2 * k) (2 * n + 3) (Fp.squaredLength v) :=
  scalarProduct_range hv hv hk hn

theorem length_range {k n : ℤ} {v : V3} (hv : VecOnGrid k n v) (hk : -500 ≤ k) (hn : 2 * n + 2 ≤ 1022) :
    Fp.V3D.length (.ofV3 v) = .fin (Fp.length v) ∧ OnGrid (k - 53) (n + 2) (Fp.length v) ∧
      (v ≠ 0 → 2 ^ k ≤ Fp.length v) := by
  obtain ⟨h1, h2⟩ := squaredLength_range hv (by omega) hn
  have h0 : 0 ≤ Fp.squaredLength v := (close_squaredLength v).1
  obtain ⟨l1, l2, l3⟩ := (h2.mono le_rfl (show 2 * n + 3 ≤ 2 * (n + 2) by omega)).sqrt h0 (by omega) (by omega)
  refine ⟨by rw [Fp.V3D.length, h1, l1]; rfl, l2, fun hv0 => l3 ?_⟩
  intro hz
  have := length_pos hv0
  rw [Fp.length, hz, Fp.sqrt, Real.sqrt_zero, rnd_zero] at this
  exact lt_irrefl _ this

/-- **Products and lengths.**  For vectors of moderate magnitude nothing overflows or underflows: the results are
finite and agree with the arithmetic of unbounded exponent. -/
theorem C155_vectors (v w : V3) (hv : ModerateCoordinates v) (hw : ModerateCoordinates w) :
    Fp.V3D.scalarProduct (.ofV3 v) (.ofV3 w) = .fin (Fp.scalarProduct v w) ∧
    Fp.V3D.crossProduct (.ofV3 v) (.ofV3 w) = .ofV3 (Fp.crossProduct v w) ∧
    ∃ l, Fp.V3D.length (.ofV3 v) = .fin l ∧ |l - Spec.norm v| ≤ 1 / 2 ^ 51 * Spec.norm v := by
  have gv := vecOnGrid_of_moderate hv
  have gw := vecOnGrid_of_moderate hw
  refine ⟨(scalarProduct_range gv gw (by norm_num) (by norm_num)).1,
    (crossProduct_range gv gw (by norm_num) (by norm_num)).1, _, (length_range gv (by norm_num) (by norm_num)).1, ?_⟩
  rw [norm_eq_len]
  refine (close_length v).abs_sub_le.trans (mul_le_mul_of_nonneg_right ?_ (V3.len_nonneg v))
  exact (rho_pow_sub_one_le (by norm_num)).trans (by norm_num)

/-- **Directions.**  The direction of a vector of moderate magnitude other than zero is a unit vector up to 2⁻⁵⁰, with
the coordinates computed without bounds of the exponent. -/
theorem C155_direction_partial (v : V3) (hv : ModerateCoordinates v) (h0 : v ≠ 0) :
    ∃ d, Fp.V3D.direction (.ofV3 v) = .ofV3 d ∧ Fp.mkDirection v = .val d ∧ |Spec.norm d - 1| ≤ 1 / 2 ^ 50 := by
  have gv := vecOnGrid_of_moderate hv
  obtain ⟨l1, l2, l3⟩ := length_range gv (by norm_num) (by norm_num)
  have l4 : Fp.length v ≤ 2 ^ (202 : ℤ) := (le_abs_self _).trans l2.2
  obtain ⟨d, d1, -, -, -, d2⟩ := C87_direction v h0
  refine ⟨d, ?_, d1, d2⟩
  rw [Fp.mkDirection, if_neg (length_pos h0).ne'] at d1
  rw [← Outcome.val.inj d1]
  have l5 := l3 h0
  have hx := OnGrid.div gv.1 l5 l4 (by norm_num) (by norm_num)
  have hy := OnGrid.div gv.2.1 l5 l4 (by norm_num) (by norm_num)
  have hz := OnGrid.div gv.2.2 l5 l4 (by norm_num) (by norm_num)
  rw [Fp.V3D.direction, l1]
  simp only [Fp.V3D.ofV3, hx, hy, hz]

/-- **Distances.**  Distances of points of moderate coordinates are finite and correct up to a relative error of
2⁻⁵⁰; the distance is zero for equal points only. -/
theorem C155_distance_partial (p q : V3) (hp : ModerateCoordinates p) (hq : ModerateCoordinates q) :
    ∃ δ, Fp.V3D.distPointPoint (.ofV3 p) (.ofV3 q) = .fin δ ∧ |δ - Spec.dist p q| ≤ 1 / 2 ^ 50 * Spec.dist p q ∧
      (δ = 0 ↔ p = q) := by
  obtain ⟨h1, h2⟩ := vectorBetween_range (vecOnGrid_of_moderate hp) (vecOnGrid_of_moderate hq) (by norm_num) (by norm_num)
  refine ⟨Fp.distPointPoint p q, ?_, (C116_distance p q).1, (C116_distance p q).2.1⟩
  rw [Fp.V3D.distPointPoint, h1, (length_range h2 (by norm_num) (by norm_num)).1]
  rfl

/-- **Equality of points and containment in spheres.**  The decisions agree with those of unbounded exponent, for
points, radii and tolerances of moderate magnitude. -/
theorem C155_decisions (p q : V3) (r eps : ℝ) (hp : ModerateCoordinates p) (hq : ModerateCoordinates q)
    (hr : Moderate r) (he : Moderate eps) :
    (Fp.V3D.pointIsEqual (.ofV3 p) (.ofV3 q) (.fin eps) ↔ Fp.pointIsEqual p q eps) ∧
    (Fp.V3D.sphereContains (.ofV3 p) (.fin r) (.ofV3 q) (.fin eps) ↔ Fp.sphereContains ⟨p, r⟩ q eps) := by
  obtain ⟨h1, h2⟩ := vectorBetween_range (vecOnGrid_of_moderate hp) (vecOnGrid_of_moderate hq) (by norm_num) (by norm_num)
  obtain ⟨s1, s2⟩ := squaredLength_range h2 (by norm_num) (by norm_num)
  obtain ⟨e1, -⟩ := (onGrid_of_moderate he).mul (onGrid_of_moderate he) (by norm_num) (by norm_num)
  obtain ⟨r1, r2⟩ := (onGrid_of_moderate hr).mul (onGrid_of_moderate hr) (by norm_num) (by norm_num)
  obtain ⟨d1, -⟩ := s2.sub (r2.mono (by norm_num) (by norm_num)) (by norm_num) (by norm_num)
  constructor
  · rw [Fp.V3D.pointIsEqual, h1, s1, e1]
    rfl
  · rw [Fp.V3D.sphereContains, h1, s1, e1, r1, d1]
    rfl

theorem triangleArea_range {p q r : V3} (hp : ModerateCoordinates p) (hq : ModerateCoordinates q)
    (hr : ModerateCoordinates r) :
    Fp.V3D.triangleArea (.ofV3 p) (.ofV3 q) (.ofV3 r) = .fin (Fp.triangleArea p q r) ∧
      OnGrid (-454) 405 (Fp.triangleArea p q r) := by
  obtain ⟨h1, h2⟩ := vectorBetween_range (vecOnGrid_of_moderate hp) (vecOnGrid_of_moderate hq) (by norm_num) (by norm_num)
  obtain ⟨k1, k2⟩ := vectorBetween_range (vecOnGrid_of_moderate hp) (vecOnGrid_of_moderate hr) (by norm_num) (by norm_num)
  obtain ⟨c1, c2⟩ := crossProduct_range h2 k2 (by norm_num) (by norm_num)
  obtain ⟨l1, l2, -⟩ := length_range c2 (by norm_num) (by norm_num)
  have hh : OnGrid (-1) 0 (1 / 2) := ⟨⟨1, by norm_num⟩, by rw [abs_of_pos] <;> norm_num⟩
  obtain ⟨m1, m2⟩ := hh.mul l2 (by norm_num) (by norm_num)
  refine ⟨?_, m2.mono (by norm_num) (by norm_num)⟩
  rw [Fp.V3D.triangleArea, h1, k1, c1, l1, m1]
  rfl

/-- **Areas and volumes.**  Areas of triangles and quadrilaterals and volumes of boxes with corners of moderate
coordinates are finite and agree with the arithmetic of unbounded exponent. -/
theorem C155_measures (p q r s : V3) (hp : ModerateCoordinates p) (hq : ModerateCoordinates q)
    (hr : ModerateCoordinates r) (hs : ModerateCoordinates s) :
    Fp.V3D.triangleArea (.ofV3 p) (.ofV3 q) (.ofV3 r) = .fin (Fp.triangleArea p q r) ∧
    Fp.V3D.quadArea (.ofV3 p) (.ofV3 q) (.ofV3 r) (.ofV3 s) = .fin (Fp.quadArea p q r s) ∧
    Fp.V3D.boxVolume (.ofV3 p) (.ofV3 q) = .fin (Fp.boxVolume ⟨p.x, q.x, p.y, q.y, p.z, q.z⟩) := by
  refine ⟨(triangleArea_range hp hq hr).1, ?_, ?_⟩
  · obtain ⟨h1, h2⟩ := triangleArea_range hp hq hs
    obtain ⟨k1, k2⟩ := triangleArea_range hp hs hr
    rw [Fp.V3D.quadArea, h1, k1, (h2.add k2 (by norm_num) (by norm_num)).1]
    rfl
  · obtain ⟨-, x2⟩ := vectorBetween_range (vecOnGrid_of_moderate hp) (vecOnGrid_of_moderate hq) (by norm_num) (by norm_num)
    have gp := vecOnGrid_of_moderate hp
    have gq := vecOnGrid_of_moderate hq
    have x1 := (gq.1.sub gp.1 (by norm_num) (by norm_num)).1
    have y1 := (gq.2.1.sub gp.2.1 (by norm_num) (by norm_num)).1
    have z1 := (gq.2.2.sub gp.2.2 (by norm_num) (by norm_num)).1
    obtain ⟨m1, m2⟩ := x2.1.mul x2.2.1 (by norm_num) (by norm_num)
    obtain ⟨n1, -⟩ := m2.mul x2.2.2 (by norm_num) (by norm_num)
    simp only [Fp.vectorBetween] at m1 n1
    rw [Fp.V3D.boxVolume]
    simp only [Fp.V3D.ofV3]
    rw [x1, y1, z1, m1, n1]
    rfl

/-! ## Numbers of large or small magnitude -/

theorem round_overflow {x : ℝ} (h : 2 ^ (1024 : ℤ) ≤ x) : Fp.Dbl.round x = .inf false := by
  have hp : 0 < x := lt_of_lt_of_le (by positivity) h
  have h1 := (ulp_bounds hp.ne').2
  rw [abs_of_pos hp] at h1
  have hu : -1074 ≤ Fp.ulpExponent x := by
    by_contra hn
    have h2 : (2 : ℝ) ^ Fp.ulpExponent x ≤ 2 ^ (-53 : ℤ) := zpow_le_zpow_right₀ (by norm_num) (by omega)
    have h3 : (2 : ℝ) ^ (53 : ℕ) * 2 ^ (-53 : ℤ) = 1 := by
      rw [← zpow_natCast, ← zpow_add₀ (by norm_num)]
      norm_num
    have h4 : (1 : ℝ) ≤ 2 ^ (1024 : ℤ) := one_le_zpow₀ (by norm_num) (by norm_num)
    have h5 := mul_le_mul_of_nonneg_left h2 (show (0 : ℝ) ≤ 2 ^ (53 : ℕ) by positivity)
    rw [h3] at h5
    exact absurd ((h4.trans h).trans_lt (h1.trans_le h5)) (lt_irrefl _)
  have hr : (2 : ℝ) ^ 1024 ≤ |Fp.rnd x| := by
    rw [← zpow_natCast]
    exact (le_rnd_of_le (isDouble_two_zpow _) h).trans (le_abs_self _)
  unfold Fp.Dbl.round
  dsimp only
  rw [max_eq_left hu]
  change (if (2 : ℝ) ^ 1024 ≤ |Fp.rnd x| then _ else _) = _
  rw [if_pos hr, decide_eq_false (not_lt.2 hp.le)]

theorem round_underflow {x : ℝ} (h : |x| < 2 ^ (-1075 : ℤ)) : Fp.Dbl.round x = .fin 0 := by
  have hu : x = 0 ∨ Fp.ulpExponent x ≤ -1074 := by
    rcases eq_or_ne x 0 with h0 | h0
    · exact .inl h0
    refine .inr ?_
    by_contra hn
    have h1 := (ulp_bounds h0).1
    have h2 : (2 : ℝ) ^ (-1075 : ℤ) ≤ 2 ^ Fp.ulpExponent x := zpow_le_zpow_right₀ (by norm_num) (by omega)
    have h3 : (0 : ℝ) < 2 ^ Fp.ulpExponent x := by positivity
    norm_num at h1
    linarith
  rcases hu with rfl | hu
  · rw [dblRound_eq (.inl (Grid.zero _)) (by rw [abs_zero]; positivity), rnd_zero]
  have hn : Fp.nearestEven (x / 2 ^ (-1074 : ℤ)) = 0 := by
    refine nearestEven_eq ?_
    have hp : (0 : ℝ) < 2 ^ (-1074 : ℤ) := by positivity
    rw [Int.cast_zero, sub_zero, abs_div, abs_of_pos hp, div_lt_iff₀ hp]
    have e : (1 / 2 : ℝ) * 2 ^ (-1074 : ℤ) = 2 ^ (-1075 : ℤ) := by
      rw [show (-1074 : ℤ) = -1075 + 1 by norm_num, zpow_add₀ (by norm_num), zpow_one]
      ring
    rw [e]
    exact h
  unfold Fp.Dbl.round
  dsimp only
  rw [max_eq_right hu, hn, Int.cast_zero, zero_mul, abs_zero, if_neg (by rw [not_le]; positivity)]

theorem round_zero : Fp.Dbl.round 0 = .fin 0 := round_underflow (by rw [abs_zero]; positivity)

theorem round_two_zpow {n : ℤ} (h1 : -1074 ≤ n) (h2 : n ≤ 1023) : Fp.Dbl.round (2 ^ n) = .fin (2 ^ n) := by
  rw [dblRound_eq (.inl (Grid.mono (l := n) ⟨1, by simp⟩ h1)), rnd_of_isDouble (isDouble_two_zpow n)]
  rw [abs_of_pos (by positivity)]
  exact zpow_le_zpow_right₀ (by norm_num) h2

theorem squaredLength_large {n : ℤ} (h : 512 ≤ n) : Fp.V3D.squaredLength (.ofV3 ⟨2 ^ n, 0, 0⟩) = .inf false := by
  have h1 : Fp.Dbl.round (2 ^ n * 2 ^ n) = .inf false := by
    refine round_overflow ?_
    rw [← zpow_add₀ (by norm_num)]
    exact zpow_le_zpow_right₀ (by norm_num) (by omega)
  simp [Fp.V3D.squaredLength, Fp.V3D.ofV3, Fp.Dbl.mul, Fp.Dbl.add, h1, round_zero]

theorem squaredLength_small {n : ℤ} (h : n ≤ -538) : Fp.V3D.squaredLength (.ofV3 ⟨2 ^ n, 0, 0⟩) = .fin 0 := by
  have h1 : Fp.Dbl.round (2 ^ n * 2 ^ n) = .fin 0 := by
    refine round_underflow ?_
    rw [← zpow_add₀ (by norm_num), abs_of_pos (by positivity)]
    exact zpow_lt_zpow_right₀ (by norm_num) (by omega)
  simp [Fp.V3D.squaredLength, Fp.V3D.ofV3, Fp.Dbl.mul, Fp.Dbl.add, h1, round_zero]

theorem between_origin {n : ℤ} (h1 : -1074 ≤ n) (h2 : n ≤ 1023) :
    Fp.V3D.vectorBetween (.ofV3 0) (.ofV3 ⟨2 ^ n, 0, 0⟩) = .ofV3 ⟨2 ^ n, 0, 0⟩ := by
  simp [Fp.V3D.vectorBetween, Fp.V3D.ofV3, Fp.Dbl.sub, Fp.Dbl.neg, Fp.Dbl.add, round_zero, round_two_zpow h1 h2]

/-- **Overflow.**  The direction along the x-axis computed from a vector of length 2ⁿ, n ≥ 512 (1e154), is the null
vector, the distance of points that far apart is infinite, and a sphere with such a radius does not contain a
point between its centre and the surface that is as far from the centre. -/
theorem C155_overflow (n m : ℤ) (h1 : 512 ≤ n) (h2 : n ≤ 1023) (h3 : 512 ≤ m) :
    Fp.V3D.direction (.ofV3 ⟨2 ^ n, 0, 0⟩) = .ofV3 0 ∧
    Fp.V3D.distPointPoint (.ofV3 0) (.ofV3 ⟨2 ^ n, 0, 0⟩) = .inf false ∧
    ∀ eps, ¬ Fp.V3D.sphereContains (.ofV3 0) (.fin (2 ^ m)) (.ofV3 ⟨2 ^ n, 0, 0⟩) eps := by
  have hs := squaredLength_large h1
  have hb := between_origin (n := n) (by omega) h2
  refine ⟨?_, ?_, fun eps => ?_⟩
  · rw [Fp.V3D.direction, Fp.V3D.length, hs]
    rfl
  · rw [Fp.V3D.distPointPoint, hb, Fp.V3D.length, hs]
    rfl
  · have hm : (Fp.Dbl.fin (2 ^ m)).mul (.fin (2 ^ m)) = .inf false := by
      refine round_overflow ?_
      rw [← zpow_add₀ (by norm_num)]
      exact zpow_le_zpow_right₀ (by norm_num) (by omega)
    rw [Fp.V3D.sphereContains, hb, hs, hm]
    simp [Fp.Dbl.sub, Fp.Dbl.neg, Fp.Dbl.add, Fp.Dbl.lt]

/-- **Underflow.**  The direction of a vector of length 2ⁿ, n ≤ -538 (1e-162), along the x-axis has coordinates that are
infinite or not a number, and the distance of points that close to each other is zero. -/
theorem C155_underflow (n : ℤ) (h1 : n ≤ -538) (h2 : -1074 ≤ n) :
    Fp.V3D.direction (.ofV3 ⟨2 ^ n, 0, 0⟩) = ⟨.inf false, .nan, .nan⟩ ∧
    Fp.V3D.distPointPoint (.ofV3 0) (.ofV3 ⟨2 ^ n, 0, 0⟩) = .fin 0 := by
  have hs := squaredLength_small h1
  have hl : Fp.V3D.length (.ofV3 ⟨2 ^ n, 0, 0⟩) = .fin 0 := by
    rw [Fp.V3D.length, hs, Fp.Dbl.sqrt, if_neg (lt_irrefl _), Real.sqrt_zero, round_zero]
  have hp : (0 : ℝ) < 2 ^ n := by positivity
  constructor
  · rw [Fp.V3D.direction, hl]
    simp [Fp.V3D.ofV3, Fp.Dbl.div, hp.ne', hp.le]
  · rw [Fp.V3D.distPointPoint, between_origin h2 (by omega), hl]

/-- The full property: the direction of every vector other than zero, and the distance of any two points, are computed
up to a relative error of 2⁻⁵⁰. -/
def C155_full : Prop := ∀ v : V3, IsBinary64 v.x → IsBinary64 v.y → IsBinary64 v.z → v ≠ 0 →
  (∃ d, Fp.V3D.direction (.ofV3 v) = .ofV3 d ∧ |Spec.norm d - 1| ≤ 1 / 2 ^ 50) ∧
  ∃ δ, Fp.V3D.distPointPoint (.ofV3 0) (.ofV3 v) = .fin δ ∧ |δ - Spec.norm v| ≤ 1 / 2 ^ 50 * Spec.norm v

theorem C155_disproof : ¬ C155_full := by
  intro h
  have hz : IsBinary64 0 := ⟨⟨0, 0, by norm_num, by norm_num⟩, Grid.zero _, by rw [abs_zero]; positivity⟩
  have hx : IsBinary64 (2 ^ (600 : ℤ)) := ⟨isDouble_two_zpow _, Grid.mono ⟨1, by simp⟩ (show -1074 ≤ (600 : ℤ) by norm_num), by
    rw [abs_of_pos (by positivity)]
    exact zpow_lt_zpow_right₀ (by norm_num) (by norm_num)⟩
  have h0 : (⟨2 ^ (600 : ℤ), 0, 0⟩ : V3) ≠ 0 := by
    intro he
    have := congrArg V3.x he
    exact absurd this (by positivity : (2 : ℝ) ^ (600 : ℤ) ≠ 0)
  obtain ⟨-, δ, h1, -⟩ := h ⟨2 ^ (600 : ℤ), 0, 0⟩ hx hz hz h0
  rw [(C155_overflow 600 512 (by norm_num) (by norm_num) (by norm_num)).2.1] at h1
  cases h1

/-- An example: the points (1, 2, 3) and (1, 2, 3 + 2⁻⁴⁰). -/
example : ∃ δ, Fp.V3D.distPointPoint (.ofV3 ⟨1, 2, 3⟩) (.ofV3 ⟨1, 2, 3 + 1 / 2 ^ 40⟩) = .fin δ ∧ δ ≠ 0 := by
  have m1 : ∀ n : ℤ, 1 ≤ n → n ≤ 3 → Moderate (n : ℝ) := by
    intro n h1 h2
    have a1 : (1 : ℝ) ≤ n := by exact_mod_cast h1
    have a2 : (n : ℝ) ≤ 3 := by exact_mod_cast h2
    refine C155_moderate _ (isDouble_int (by rw [abs_of_pos (by omega)]; omega)) (.inr ?_)
    rw [abs_of_pos (by linarith)]
    exact ⟨le_trans (by norm_num) a1, a2.trans (by norm_num)⟩
  have m2 : Moderate (3 + 1 / 2 ^ 40 : ℝ) := by
    refine C155_moderate _ ⟨3 * 2 ^ 40 + 1, -40, by norm_num, by norm_num⟩ (.inr ?_)
    rw [abs_of_pos (by norm_num)]
    norm_num
  have i1 := m1 1 (by norm_num) (by norm_num)
  have i2 := m1 2 (by norm_num) (by norm_num)
  have i3 := m1 3 (by norm_num) (by norm_num)
  push_cast at i1 i2 i3
  obtain ⟨δ, h1, -, h2⟩ := C155_distance_partial ⟨1, 2, 3⟩ ⟨1, 2, 3 + 1 / 2 ^ 40⟩ ⟨i1, i2, i3⟩ ⟨i1, i2, m2⟩
  refine ⟨δ, h1, fun h => ?_⟩
  have := congrArg V3.z (h2.1 h)
  norm_num at this

/-- An example: the direction of (3, 4, 0). -/
example : ∃ d, Fp.V3D.direction (.ofV3 ⟨3, 4, 0⟩) = .ofV3 d ∧ |Spec.norm d - 1| ≤ 1 / 2 ^ 50 := by
  have m3 : Moderate 3 := C155_moderate _ ⟨3, 0, by norm_num, by norm_num⟩ (.inr (by rw [abs_of_pos] <;> norm_num))
  have m4 : Moderate 4 := C155_moderate _ ⟨4, 0, by norm_num, by norm_num⟩ (.inr (by rw [abs_of_pos] <;> norm_num))
  have m0 : Moderate 0 := C155_moderate _ ⟨0, 0, by norm_num, by norm_num⟩ (.inl rfl)
  obtain ⟨d, h1, -, h2⟩ := C155_direction_partial ⟨3, 4, 0⟩ ⟨m3, m4, m0⟩ (by
    intro h
    have := congrArg V3.x h
    norm_num at this)
  exact ⟨d, h1, h2⟩

end Props
