import Verif.Lemmas.FloatError
import Verif.Props.Angle
import Mathlib.Analysis.Real.Pi.Bounds

/-!
# C86, C87, C88 Angles, directions and parallel vectors in double precision
-/

namespace Props
open Verif Frackit Spec

/-! ## C87 Directions -/

theorem direction_val {v n : V3} (h : Fp.mkDirection v = .val n) :
    v ≠ 0 ∧ n = ⟨Fp.div v.x (Fp.length v), Fp.div v.y (Fp.length v), Fp.div v.z (Fp.length v)⟩ := by
  unfold Fp.mkDirection at h
  by_cases hl : Fp.length v = 0
  · rw [if_pos hl] at h
    cases h
  · rw [if_neg hl] at h
    refine ⟨fun hv => hl (length_eq_zero.2 hv), ?_⟩
    cases h
    rfl

theorem err_div_length (x : ℝ) (v : V3) : Err 4 (Fp.div x (Fp.length v)) (x / v.len) (|x| / v.len) := by
  unfold Fp.div
  have h := ((Err.refl x).mul (err_inv (close_length v))).rnd
  rw [div_eq_mul_inv, div_eq_mul_inv, div_eq_mul_inv]
  simpa using h

theorem close_abs_div_length (x : ℝ) (v : V3) : Close 4 |Fp.div x (Fp.length v)| (|x| / v.len) := by
  have h : |Fp.div x (Fp.length v)| = Fp.rnd (|x| / Fp.length v) := by
    unfold Fp.div
    have hl := (close_length v).1
    rcases le_total 0 x with hx | hx
    · rw [abs_of_nonneg hx, abs_of_nonneg (rnd_nonneg (div_nonneg hx hl))]
    · rw [abs_of_nonpos hx, neg_div, rnd_neg, abs_of_nonpos]
      have := rnd_nonneg (x := -x / Fp.length v) (div_nonneg (by linarith) hl)
      rw [neg_div, rnd_neg] at this
      linarith
  rw [h]
  exact ((Close.refl (abs_nonneg x)).div (close_length v)).rnd.mono (by norm_num)

/-- **Directions.**  The direction of a vector is computed for every vector other than zero.  Its coordinates are the
ones of the exact unit vector up to a relative error of 2⁻⁵⁰, and its length is one up to an error of 2⁻⁵⁰. -/
theorem C87_direction (v : V3) (hv : v ≠ 0) : ∃ n, Fp.mkDirection v = .val n ∧
    |n.x - v.x / norm v| ≤ 1 / 2 ^ 50 * (|v.x| / norm v) ∧
    |n.y - v.y / norm v| ≤ 1 / 2 ^ 50 * (|v.y| / norm v) ∧
    |n.z - v.z / norm v| ≤ 1 / 2 ^ 50 * (|v.z| / norm v) ∧
    |norm n - 1| ≤ 1 / 2 ^ 50 := by
  have hl := length_pos hv
  refine ⟨⟨Fp.div v.x (Fp.length v), Fp.div v.y (Fp.length v), Fp.div v.z (Fp.length v)⟩, ?_, ?_, ?_, ?_, ?_⟩
  · unfold Fp.mkDirection
    rw [if_neg hl.ne']
  · rw [norm_eq_len]
    refine (err_div_length v.x v).1.trans (mul_le_mul_of_nonneg_right ?_ (div_nonneg (abs_nonneg _) v.len_nonneg))
    exact (rho_pow_sub_one_le (by norm_num)).trans (by norm_num)
  · rw [norm_eq_len]
    refine (err_div_length v.y v).1.trans (mul_le_mul_of_nonneg_right ?_ (div_nonneg (abs_nonneg _) v.len_nonneg))
    exact (rho_pow_sub_one_le (by norm_num)).trans (by norm_num)
  · rw [norm_eq_len]
    refine (err_div_length v.z v).1.trans (mul_le_mul_of_nonneg_right ?_ (div_nonneg (abs_nonneg _) v.len_nonneg))
    exact (rho_pow_sub_one_le (by norm_num)).trans (by norm_num)
  · rw [norm_eq_len]
    set n : V3 := ⟨Fp.div v.x (Fp.length v), Fp.div v.y (Fp.length v), Fp.div v.z (Fp.length v)⟩
    have sq : ∀ x : ℝ, Close 8 (Fp.div x (Fp.length v) * Fp.div x (Fp.length v)) (x * x / (v.len * v.len)) := by
      intro x
      have h := (close_abs_div_length x v).mul (close_abs_div_length x v)
      rw [abs_mul_abs_self, div_mul_div_comm, abs_mul_abs_self] at h
      exact h
    have h : Close (2 * 4) n.sqLen 1 := by
      have h1 := ((sq v.x).add (sq v.y)).add (sq v.z)
      rw [← add_div, ← add_div, V3.len_mul_self] at h1
      have e : (v.x * v.x + v.y * v.y + v.z * v.z) / v.sqLen = 1 := div_self (V3.sqLen_pos.2 hv).ne'
      rw [e] at h1
      exact h1
    have h2 := h.sqrt
    rw [Real.sqrt_one] at h2
    have h3 := h2.abs_sub_le
    rw [mul_one] at h3
    exact h3.trans ((rho_pow_sub_one_le (by norm_num)).trans (by norm_num))

example : ∃ n, Fp.mkDirection ⟨1, -2, 3⟩ = .val n ∧ |norm n - 1| ≤ 1 / 2 ^ 50 := by
  obtain ⟨n, h1, _, _, _, h2⟩ := C87_direction ⟨1, -2, 3⟩ (by intro h; simpa using congrArg V3.x h)
  exact ⟨n, h1, h2⟩

/-- The direction of the zero vector is not a number. -/
theorem C87_zero : Fp.mkDirection 0 = .nan := by
  unfold Fp.mkDirection
  rw [if_pos (length_eq_zero.2 rfl)]

/-- Lengths are computed up to a relative error of 2⁻⁵¹. -/
theorem C87_length (v : V3) : |Fp.length v - norm v| ≤ 1 / 2 ^ 51 * norm v := by
  rw [norm_eq_len]
  refine (close_length v).abs_sub_le.trans (mul_le_mul_of_nonneg_right ?_ v.len_nonneg)
  exact (rho_pow_sub_one_le (by norm_num)).trans (by norm_num)

/-! ## C86 Angles between planes -/

/-- The smaller angle between the normals of two planes. -/
theorem planeAngle_exists (v w : V3) : IsPlaneAngle v w (Real.arccos |inner v w / (norm v * norm w)|) := by
  unfold IsPlaneAngle vecAngle
  rw [arccos_abs]

theorem abs_cos_le_one (v w : V3) : |inner v w / (norm v * norm w)| ≤ 1 := by
  rw [inner_eq_dot, norm_eq_len, norm_eq_len, abs_div, abs_of_nonneg (mul_nonneg v.len_nonneg w.len_nonneg)]
  exact div_le_one_of_le₀ (V3.abs_dot_le v w) (mul_nonneg v.len_nonneg w.len_nonneg)

theorem err_normals {v w m n : V3} (hm : Fp.mkDirection v = .val m) (hn : Fp.mkDirection w = .val n) :
    |Fp.scalarProduct m n - inner v w / (norm v * norm w)| ≤ 11 * (1 / 2 ^ 53) * (1 + 1 / 2 ^ 47) := by
  obtain ⟨hv, rfl⟩ := direction_val hm
  obtain ⟨hw, rfl⟩ := direction_val hn
  have prod : ∀ x y : ℝ, Err 9 (Fp.mul (Fp.div x (Fp.length v)) (Fp.div y (Fp.length w)))
      (x / v.len * (y / w.len)) (|x| / v.len * (|y| / w.len)) := fun x y =>
    ((err_div_length x v).mul (err_div_length y w)).rnd
  have h0 : ∀ a b : ℝ, Fp.add 0 (Fp.mul a b) = Fp.mul a b := by
    intro a b
    unfold Fp.add Fp.mul
    rw [zero_add, rnd_rnd]
  have h : Err 11 (Fp.scalarProduct ⟨Fp.div v.x (Fp.length v), Fp.div v.y (Fp.length v), Fp.div v.z (Fp.length v)⟩
      ⟨Fp.div w.x (Fp.length w), Fp.div w.y (Fp.length w), Fp.div w.z (Fp.length w)⟩)
      (v.x / v.len * (w.x / w.len) + v.y / v.len * (w.y / w.len) + v.z / v.len * (w.z / w.len))
      (|v.x| / v.len * (|w.x| / w.len) + |v.y| / v.len * (|w.y| / w.len) + |v.z| / v.len * (|w.z| / w.len)) := by
    unfold Fp.scalarProduct
    rw [h0]
    have h1 := ((prod v.x w.x).add (prod v.y w.y)).rnd
    exact (h1.add ((prod v.z w.z).mono (by norm_num) le_rfl)).rnd
  have lv := V3.len_pos.2 hv
  have lw := V3.len_pos.2 hw
  have e1 : v.x / v.len * (w.x / w.len) + v.y / v.len * (w.y / w.len) + v.z / v.len * (w.z / w.len)
      = inner v w / (norm v * norm w) := by
    rw [inner_eq_dot, norm_eq_len, norm_eq_len]
    unfold V3.dot
    field_simp
  have e2 : |v.x| / v.len * (|w.x| / w.len) + |v.y| / v.len * (|w.y| / w.len) + |v.z| / v.len * (|w.z| / w.len) ≤ 1 := by
    have e3 : |v.x| / v.len * (|w.x| / w.len) + |v.y| / v.len * (|w.y| / w.len) + |v.z| / v.len * (|w.z| / w.len)
        = (|v.x| * |w.x| + |v.y| * |w.y| + |v.z| * |w.z|) / (v.len * w.len) := by
      field_simp
    rw [e3]
    exact div_le_one_of_le₀ (abs_products_le v w) (mul_nonneg lv.le lw.le)
  rw [e1] at h
  have h2 := (h.mono le_rfl e2).1
  rw [mul_one] at h2
  exact_mod_cast h2.trans (rho_pow_sub_one_le (by norm_num))

theorem pi_delta : Real.pi * (1 / 2 ^ 25) < 9.4 / 10 ^ 8 := by
  have := Real.pi_lt_d4
  norm_num
  linarith

/-- **Angles between planes.**  The angle between two planes whose normals are constructed from any vectors is either
computed to within 1e-7, or it is not a number and the exact angle is less than 1e-7. -/
theorem C86_angle_partial (v w m n : V3) (θ : ℝ) (hm : Fp.mkDirection v = .val m) (hn : Fp.mkDirection w = .val n)
    (hθ : IsPlaneAngle v w θ) :
    (∃ a, Fp.planeAngle m n = some a ∧ |a - θ| < 1 / 10 ^ 7) ∨ (Fp.planeAngle m n = none ∧ θ < 1 / 10 ^ 7) := by
  have he := err_normals hm hn
  have hθ' : θ = Real.arccos |inner v w / (norm v * norm w)| := by
    have := planeAngle_exists v w
    unfold IsPlaneAngle at hθ this
    rw [hθ, this]
  set c := inner v w / (norm v * norm w)
  set s := Fp.scalarProduct m n
  have hc : |c| ≤ 1 := abs_cos_le_one v w
  have hsc : |(|s| - |c|)| ≤ 2 * (1 / 2 ^ 25) ^ 2 := by
    refine (abs_abs_sub_abs_le s c).trans (he.trans ?_)
    norm_num
  have hpi := pi_delta
  unfold Fp.planeAngle Fp.acos
  by_cases hs : |s| < -1 ∨ 1 < |s|
  · right
    rw [if_pos hs]
    refine ⟨rfl, ?_⟩
    have h1 : 1 < |s| := by
      rcases hs with h | h
      · linarith [abs_nonneg s]
      · exact h
    have h2 : |(1 : ℝ) - (|c|)| ≤ 2 * (1 / 2 ^ 25) ^ 2 := by
      rw [abs_of_nonneg (by linarith)]
      have := (abs_le.1 hsc).2
      linarith
    have h3 := arccos_diff (by norm_num) le_rfl (by linarith [abs_nonneg c]) hc h2 (by positivity)
    rw [Real.arccos_one, zero_sub, abs_neg, abs_of_nonneg (Real.arccos_nonneg _)] at h3
    rw [hθ']
    have : (9.4 : ℝ) / 10 ^ 8 < 1 / 10 ^ 7 := by norm_num
    linarith
  · left
    rw [if_neg hs]
    refine ⟨_, rfl, ?_⟩
    push Not at hs
    have h3 := arccos_diff hs.1 hs.2 (by linarith [abs_nonneg c]) hc hsc (by positivity)
    have h4 := rnd_error (Real.arccos |s|)
    rw [abs_of_nonneg (Real.arccos_nonneg _)] at h4
    have h5 := Real.arccos_le_pi |s|
    have h6 := Real.pi_lt_d4
    have h7 : unitRoundoff * Real.arccos |s| ≤ 1 / 2 ^ 53 * 4 := mul_le_mul_of_nonneg_left (by linarith) (by positivity)
    rw [← hθ'] at h3
    set A := Real.arccos |s|
    calc |Fp.rnd A - θ| = |(Fp.rnd A - A) + (A - θ)| := by ring_nf
      _ ≤ |Fp.rnd A - A| + |A - θ| := abs_add_le _ _
      _ ≤ 1 / 2 ^ 53 * 4 + Real.pi * (1 / 2 ^ 25) := add_le_add (h4.trans h7) h3
      _ < 1 / 10 ^ 7 := by
        have : (1 : ℝ) / 2 ^ 53 * 4 + 9.4 / 10 ^ 8 < 1 / 10 ^ 7 := by norm_num
        linarith

/-- **Minimum angle.**  Geometries that intersect in an angle that is larger than the minimum angle by 1e-7 are
accepted; if the angle is at least 1e-7, but smaller than the minimum angle by 1e-7, they are rejected. -/
theorem C86_constraint_partial (v w m n : V3) (θ minAngle : ℝ) (hm : Fp.mkDirection v = .val m)
    (hn : Fp.mkDirection w = .val n) (hθ : IsPlaneAngle v w θ) :
    (minAngle + 1 / 10 ^ 7 ≤ θ → Fp.admissibleAngle m n minAngle) ∧
    (1 / 10 ^ 7 ≤ θ → θ ≤ minAngle - 1 / 10 ^ 7 → ¬ Fp.admissibleAngle m n minAngle) := by
  have h := C86_angle_partial v w m n θ hm hn hθ
  unfold Fp.admissibleAngle
  constructor
  · intro hmin
    rcases h with ⟨a, ha, hb⟩ | ⟨ha, _⟩
    · rw [ha]
      have := (abs_lt.1 hb).1
      simp only [Fp.less, not_lt]
      linarith
    · rw [ha]
      simp [Fp.less]
  · intro h1 h2
    rcases h with ⟨a, ha, hb⟩ | ⟨_, hb⟩
    · rw [ha]
      have := (abs_lt.1 hb).2
      simp only [Fp.less, not_not]
      linarith
    · linarith

/-- Geometries whose computed angle equals the minimum angle are accepted, those with an angle below it are rejected. -/
theorem C86_boundary (m n : V3) (a minAngle : ℝ) (h : Fp.planeAngle m n = some a) :
    Fp.admissibleAngle m n minAngle ↔ minAngle ≤ a := by
  unfold Fp.admissibleAngle
  rw [h]
  exact not_lt

/-- The same vector twice: the angle zero is admissible for the minimum angle zero. -/
example : ∃ a, Fp.planeAngle ⟨1, 0, 0⟩ ⟨1, 0, 0⟩ = some a ∧ Fp.admissibleAngle ⟨1, 0, 0⟩ ⟨1, 0, 0⟩ a := by
  have h1 : Fp.scalarProduct ⟨1, 0, 0⟩ ⟨1, 0, 0⟩ = 1 := by
    have h : IsDouble 1 := by have := isDouble_int (m := 1) (by norm_num); simpa using this
    simp [Fp.scalarProduct, Fp.add, Fp.mul, rnd_of_isDouble h, rnd_zero]
  have : Fp.planeAngle ⟨1, 0, 0⟩ ⟨1, 0, 0⟩ = some (Fp.rnd (Real.arccos |1|)) := by
    unfold Fp.planeAngle Fp.acos
    rw [h1, if_neg]
    norm_num
  exact ⟨_, this, (C86_boundary _ _ _ _ this).2 le_rfl⟩

/-- Orthogonal planes are accepted for the minimum angle 1 and rejected for the minimum angle 2. -/
example : ∃ m n : V3, Fp.mkDirection ⟨1, 2, 0⟩ = .val m ∧ Fp.mkDirection ⟨-2, 1, 0⟩ = .val n ∧
    Fp.admissibleAngle m n 1 ∧ ¬ Fp.admissibleAngle m n 2 := by
  obtain ⟨m, hm, _⟩ := C87_direction ⟨1, 2, 0⟩ (by intro h; simpa using congrArg V3.x h)
  obtain ⟨n, hn, _⟩ := C87_direction ⟨-2, 1, 0⟩ (by intro h; simpa using congrArg V3.x h)
  have hθ : IsPlaneAngle ⟨1, 2, 0⟩ ⟨-2, 1, 0⟩ (Real.pi / 2) := by
    have h := planeAngle_exists ⟨1, 2, 0⟩ ⟨-2, 1, 0⟩
    have e : inner (⟨1, 2, 0⟩ : V3) ⟨-2, 1, 0⟩ = 0 := by norm_num [inner_eq_dot, V3.dot]
    rw [e, zero_div, abs_zero, Real.arccos_zero] at h
    exact h
  have h1 := Real.pi_gt_d2
  have h2 := Real.pi_lt_d2
  refine ⟨m, n, hm, hn, (C86_constraint_partial _ _ m n _ 1 hm hn hθ).1 ?_,
    (C86_constraint_partial _ _ m n _ 2 hm hn hθ).2 ?_ ?_⟩
  all_goals norm_num at h1 h2 ⊢
  all_goals linarith

/-! ### Parallel planes -/

theorem rnd_one : Fp.rnd 1 = 1 := rnd_of_isDouble (by exact_mod_cast isDouble_int (m := 1) (by norm_num))

theorem sqrt_mul_bounds {x a b : ℝ} (k : ℕ) (ha : 0 ≤ a) (hb : 0 ≤ b) (h1 : a ^ 2 ≤ x * 4 ^ k) (h2 : x * 4 ^ k ≤ b ^ 2) :
    a ≤ √x * 2 ^ k ∧ √x * 2 ^ k ≤ b := by
  have h4 : (4 : ℝ) ^ k = (2 ^ k) ^ 2 := by
    rw [← pow_mul, mul_comm, pow_mul]
    norm_num
  have h5 : √(x * 4 ^ k) = √x * 2 ^ k := by
    rw [h4, Real.sqrt_mul' _ (by positivity), Real.sqrt_sq (by positivity)]
  rw [← h5]
  exact ⟨Real.le_sqrt_of_sq_le h1, Real.sqrt_le_iff.2 ⟨hb, h2⟩⟩

theorem squaredLength_ones : Fp.squaredLength ⟨1, 1, 1⟩ = 3 := by
  unfold Fp.squaredLength Fp.add Fp.mul
  simp only [mul_one, rnd_one, zero_add]
  rw [show (1 : ℝ) + 1 = 2 by norm_num]
  have h2 : Fp.rnd 2 = 2 := rnd_of_isDouble (by exact_mod_cast isDouble_int (m := 2) (by norm_num))
  rw [h2, show (2 : ℝ) + 1 = 3 by norm_num]
  exact rnd_of_isDouble (by exact_mod_cast isDouble_int (m := 3) (by norm_num))

theorem length_ones : Fp.length ⟨1, 1, 1⟩ = 7800463371553962 / 2 ^ 52 := by
  unfold Fp.length Fp.sqrt
  rw [squaredLength_ones]
  obtain ⟨h1, h2⟩ := sqrt_mul_bounds (x := 3) (a := 7800463371553962 + 1 / 4) (b := 7800463371553962 + 0.49) 52
    (by norm_num) (by norm_num) (by norm_num) (by norm_num)
  refine rnd_eval 7800463371553962 52 ?_ ?_ ?_ ?_
  · norm_num
  · rw [abs_of_nonneg (Real.sqrt_nonneg _)]
    refine le_trans ?_ h1
    norm_num
  · rw [abs_of_nonneg (Real.sqrt_nonneg _)]
    refine lt_of_le_of_lt h2 ?_
    norm_num
  · rw [abs_lt]
    constructor
    · push_cast
      linarith
    · push_cast
      linarith

theorem direction_ones : Fp.mkDirection ⟨1, 1, 1⟩ =
    .val ⟨5200308914369309 / 2 ^ 53, 5200308914369309 / 2 ^ 53, 5200308914369309 / 2 ^ 53⟩ := by
  have h : Fp.div 1 (7800463371553962 / 2 ^ 52) = 5200308914369309 / 2 ^ 53 := by
    unfold Fp.div
    refine rnd_eval 5200308914369309 53 ?_ ?_ ?_ ?_ <;> norm_num [abs_lt, abs_of_pos]
  unfold Fp.mkDirection
  rw [length_ones, if_neg (by norm_num), h]

theorem dot_ones : Fp.scalarProduct ⟨5200308914369309 / 2 ^ 53, 5200308914369309 / 2 ^ 53, 5200308914369309 / 2 ^ 53⟩
    ⟨5200308914369309 / 2 ^ 53, 5200308914369309 / 2 ^ 53, 5200308914369309 / 2 ^ 53⟩ = 4503599627370497 / 2 ^ 52 := by
  have h : Fp.mul (5200308914369309 / 2 ^ 53) (5200308914369309 / 2 ^ 53) = 6004799503160663 / 2 ^ 54 := by
    unfold Fp.mul
    refine rnd_eval 6004799503160663 54 ?_ ?_ ?_ ?_ <;> norm_num [abs_lt, abs_of_pos]
  unfold Fp.scalarProduct
  simp only
  rw [h]
  have h1 : Fp.add 0 (6004799503160663 / 2 ^ 54) = 6004799503160663 / 2 ^ 54 := by
    unfold Fp.add
    refine rnd_eval 6004799503160663 54 ?_ ?_ ?_ ?_ <;> norm_num [abs_lt, abs_of_pos]
  have h2 : Fp.add (6004799503160663 / 2 ^ 54) (6004799503160663 / 2 ^ 54) = 6004799503160663 / 2 ^ 53 := by
    unfold Fp.add
    refine rnd_eval 6004799503160663 53 ?_ ?_ ?_ ?_ <;> norm_num [abs_lt, abs_of_pos]
  have h3 : Fp.add (6004799503160663 / 2 ^ 53) (6004799503160663 / 2 ^ 54) = 4503599627370497 / 2 ^ 52 := by
    unfold Fp.add
    refine rnd_eval 4503599627370497 52 ?_ ?_ ?_ ?_ <;> norm_num [abs_lt, abs_of_pos]
  rw [h1, h2, h3]

/-- The full property: the angle between two planes is computed to within 1e-7. -/
def C86_full : Prop := ∀ (v w m n : V3) (θ : ℝ), DoubleCoordinates v → DoubleCoordinates w →
  Fp.mkDirection v = .val m → Fp.mkDirection w = .val n → IsPlaneAngle v w θ →
    ∃ a, Fp.planeAngle m n = some a ∧ |a - θ| < 1 / 10 ^ 7

theorem doubleCoordinates_ones : DoubleCoordinates ⟨1, 1, 1⟩ := by
  have : IsDouble 1 := by exact_mod_cast isDouble_int (m := 1) (by norm_num)
  exact ⟨this, this, this⟩

theorem planeAngle_ones (m : V3) (hm : Fp.mkDirection ⟨1, 1, 1⟩ = .val m) : Fp.planeAngle m m = none := by
  rw [direction_ones] at hm
  cases hm
  unfold Fp.planeAngle Fp.acos
  rw [dot_ones, if_pos]
  right
  rw [abs_of_pos (by norm_num)]
  norm_num

/-- **The code violates the property**: the angle between two planes with the normal (1, 1, 1) is not a number, because
the scalar product of the normals is rounded to a number that is larger than one. -/
theorem C86_disproof : ¬ C86_full := by
  intro h
  obtain ⟨a, ha, _⟩ := h ⟨1, 1, 1⟩ ⟨1, 1, 1⟩ _ _ _ doubleCoordinates_ones doubleCoordinates_ones direction_ones
    direction_ones (planeAngle_exists _ _)
  rw [planeAngle_ones _ direction_ones] at ha
  cases ha

/-- **The code violates the constraint on the angle**: geometries in planes with the normal (1, 1, 1), the angle
between which is zero, are accepted for every minimum angle. -/
theorem C86_parallel_accepted : IsPlaneAngle ⟨1, 1, 1⟩ ⟨1, 1, 1⟩ 0 ∧
    ∀ m, Fp.mkDirection ⟨1, 1, 1⟩ = .val m → ∀ minAngle : ℝ, Fp.admissibleAngle m m minAngle := by
  constructor
  · have h := planeAngle_exists ⟨1, 1, 1⟩ ⟨1, 1, 1⟩
    have e : inner (⟨1, 1, 1⟩ : V3) ⟨1, 1, 1⟩ / (norm (⟨1, 1, 1⟩ : V3) * norm (⟨1, 1, 1⟩ : V3)) = 1 := by
      rw [inner_eq_dot, norm_eq_len, V3.len_mul_self, V3.sqLen_eq_dot, div_self]
      norm_num [V3.dot]
    rw [e, abs_one, Real.arccos_one] at h
    exact h
  · intro m hm minAngle
    unfold Fp.admissibleAngle
    rw [planeAngle_ones m hm]
    simp [Fp.less]

/-! ## C88 Parallel vectors -/

theorem angular_bounds : 9.9 / 10 ^ 11 < Fp.angular ∧ Fp.angular < 1.01 / 10 ^ 10 := by
  have h1 : Close 1 (Fp.rnd (1 / 10 ^ 12)) (1 / 10 ^ 12) := close_rnd (by positivity)
  have h2 : Close 2 Fp.angular (1 / 10 ^ 12 * 100) := by
    unfold Fp.angular Fp.mul
    exact (h1.mul (Close.refl (show (0 : ℝ) ≤ 100 by norm_num))).rnd
  have h3 := h2.abs_sub_le
  have h4 := rho_pow_sub_one_le (show 2 ≤ 15 by norm_num)
  have h5 := abs_le.1 (h3.trans (mul_le_mul_of_nonneg_right h4 (by positivity)))
  norm_num at h5
  norm_num
  constructor <;> linarith [h5.1, h5.2]

theorem not_pi : ¬ |Fp.sub Fp.angular Fp.pi| < Fp.angular := by
  have h := angular_bounds
  have h1 : Fp.sub Fp.angular Fp.pi ≤ -1 := by
    unfold Fp.sub
    refine rnd_le_of_le ?_ ?_
    · exact_mod_cast isDouble_int (m := -1) (by norm_num)
    · have : (3 : ℝ) ≤ Fp.pi := by
        unfold Fp.pi
        refine le_rnd_of_le ?_ Real.pi_gt_three.le
        exact_mod_cast isDouble_int (m := 3) (by norm_num)
      have h2 := h.2
      norm_num at h2
      linarith
  rw [abs_of_neg (by linarith)]
  have h2 := h.2
  norm_num at h2
  linarith

/-- The numbers of type `double` that are less than one are not closer to one than 2⁻⁵³. -/
theorem double_lt_one {x : ℝ} (hx : IsDouble x) (h1 : x < 1) : x ≤ 1 - 1 / 2 ^ 53 := by
  by_contra hn
  push Not at hn
  have hp : (2 : ℝ) ^ (-53 : ℤ) = 1 / 2 ^ 53 := by
    rw [zpow_neg, one_div]
    norm_cast
  have hr := rnd_of_isDouble hx
  have hpos : 0 < x := by
    have : (0 : ℝ) ≤ 1 - 1 / 2 ^ 53 := by norm_num
    linarith
  have he : Fp.ulpExponent x = -53 := by
    refine ulpExponent_eq ?_ ?_
    · rw [abs_of_pos hpos, hp]
      have : (2 : ℝ) ^ (52 : ℕ) * (1 / 2 ^ 53) ≤ 1 - 1 / 2 ^ 53 := by norm_num
      linarith
    · rw [abs_of_pos hpos, hp]
      have : (2 : ℝ) ^ (53 : ℕ) * (1 / 2 ^ 53) = 1 := by norm_num
      linarith
  unfold Fp.rnd at hr
  rw [he, hp] at hr
  set k := Fp.nearestEven (x / (1 / 2 ^ 53))
  have a1 : (k : ℝ) < 2 ^ 53 := by
    by_contra hk
    push Not at hk
    have : (2 : ℝ) ^ 53 * (1 / 2 ^ 53) ≤ k * (1 / 2 ^ 53) := mul_le_mul_of_nonneg_right hk (by positivity)
    norm_num at this hr
    linarith
  have a2 : k ≤ 2 ^ 53 - 1 := by
    have : k < 2 ^ 53 := by exact_mod_cast a1
    omega
  have a3 : (k : ℝ) ≤ 2 ^ 53 - 1 := by exact_mod_cast a2
  have : (k : ℝ) * (1 / 2 ^ 53) ≤ (2 ^ 53 - 1) * (1 / 2 ^ 53) := mul_le_mul_of_nonneg_right a3 (by positivity)
  norm_num at this hr hn
  linarith

/-- Vectors are found to be parallel exactly if the computed cosine is one. -/
theorem isParallel_iff (v w : V3) : Fp.isParallel v w Fp.angular ↔ Fp.cosine v w = some 1 := by
  have hb := angular_bounds
  unfold Fp.isParallel
  rw [or_iff_left not_pi]
  constructor
  · intro h
    cases hc : Fp.cosine v w with
    | none =>
      rw [hc] at h
      simp [Fp.less] at h
    | some c =>
      rw [hc] at h
      have hd : IsDouble c := by
        unfold Fp.cosine at hc
        split_ifs at hc
        cases hc
        exact isDouble_rnd _
      simp only [Option.bind_some] at h
      unfold Fp.acos at h
      by_cases h1 : c < -1 ∨ 1 < c
      · rw [if_pos h1] at h
        simp [Fp.less] at h
      · rw [if_neg h1] at h
        push Not at h1
        simp only [Option.map_some, Fp.less] at h
        have h0 := Real.arccos_nonneg c
        rw [abs_of_nonneg (rnd_nonneg h0)] at h
        have h2 := (close_rnd h0).2.2.1
        have h3 := rho_pow_sub_one_le (show 1 ≤ 15 by norm_num)
        have h4 : Real.arccos c ≤ 1.1 / 10 ^ 10 := by
          have h5 : rho ^ 1 ≤ 1.01 := by
            norm_num at h3 ⊢
            linarith
          have h6 : rho ^ 1 * Fp.rnd (Real.arccos c) ≤ 1.01 * (1.01 / 10 ^ 10) :=
            mul_le_mul h5 (by linarith [hb.2]) (rnd_nonneg h0) (by norm_num)
          norm_num at h6 ⊢
          norm_num at h2
          linarith
        have h5 : 1 - (Real.arccos c) ^ 2 / 2 ≤ c := by
          have := Real.one_sub_sq_div_two_le_cos (x := Real.arccos c)
          rwa [Real.cos_arccos h1.1 h1.2] at this
        have h6 : (Real.arccos c) ^ 2 ≤ (1.1 / 10 ^ 10) ^ 2 := pow_le_pow_left₀ h0 h4 2
        have h7 : 1 - 1 / 2 ^ 53 < c := by
          have : (1 : ℝ) - 1 / 2 ^ 53 < 1 - (1.1 / 10 ^ 10) ^ 2 / 2 := by norm_num
          linarith
        rcases h1.2.eq_or_lt with h8 | h8
        · rw [h8]
        · have := double_lt_one hd h8
          linarith
  · intro h
    rw [h]
    simp only [Option.bind_some]
    unfold Fp.acos
    rw [if_neg (by norm_num)]
    simp only [Option.map_some, Fp.less, Real.arccos_one, rnd_zero, abs_zero]
    have h2 := hb.1
    norm_num at h2
    linarith

/-- **Soundness.**  Vectors that are found to be parallel enclose an angle of less than 1e-7. -/
theorem C88_sound (v w : V3) (h : Fp.isParallel v w Fp.angular) :
    v ≠ 0 ∧ w ≠ 0 ∧ vecAngle v w < 1 / 10 ^ 7 := by
  rw [isParallel_iff] at h
  unfold Fp.cosine at h
  by_cases hl : Fp.length v = 0 ∨ Fp.length w = 0
  · rw [if_pos hl] at h
    cases h
  · rw [if_neg hl] at h
    push Not at hl
    have hv : v ≠ 0 := fun e => hl.1 (length_eq_zero.2 e)
    have hw : w ≠ 0 := fun e => hl.2 (length_eq_zero.2 e)
    refine ⟨hv, hw, ?_⟩
    have he := (err_cosine hv hw).1
    rw [Option.some.inj h, mul_one] at he
    have he' := he.trans (rho_pow_sub_one_le (by norm_num))
    have hc := abs_le.1 (abs_cos_le_one v w)
    unfold vecAngle
    rw [inner_eq_dot, norm_eq_len, norm_eq_len] at hc ⊢
    have h3 := arccos_diff (a := 1) (δ := 1 / 2 ^ 25) (by norm_num) le_rfl hc.1 hc.2 (he'.trans (by norm_num))
      (by positivity)
    rw [Real.arccos_one, zero_sub, abs_neg, abs_of_nonneg (Real.arccos_nonneg _)] at h3
    have := pi_delta
    have h4 : (9.4 : ℝ) / 10 ^ 8 < 1 / 10 ^ 7 := by norm_num
    linarith

/-- Vectors that enclose an angle of at least 1e-7 are not found to be parallel. -/
theorem C88_not_parallel (v w : V3) (h : 1 / 10 ^ 7 ≤ vecAngle v w) : ¬ Fp.isParallel v w Fp.angular :=
  fun hp => absurd (C88_sound v w hp).2.2 (not_lt.2 h)

/-- **Exact lengths.**  A vector is parallel to itself if the products, sums and the root in the computation of its
length are numbers of type `double`, such that nothing is rounded. -/
theorem C88_self_partial (v : V3) (hv : v ≠ 0) (hx : IsDouble (v.x * v.x)) (hy : IsDouble (v.y * v.y))
    (hz : IsDouble (v.z * v.z)) (hxy : IsDouble (v.x * v.x + v.y * v.y))
    (hs : IsDouble (v.x * v.x + v.y * v.y + v.z * v.z)) (hl : IsDouble (norm v)) : Fp.isParallel v v Fp.angular := by
  rw [isParallel_iff]
  have hlen := V3.len_pos.2 hv
  have h1 : Fp.squaredLength v = v.sqLen := by
    unfold Fp.squaredLength Fp.add Fp.mul V3.sqLen
    rw [rnd_of_isDouble hx, rnd_of_isDouble hy, rnd_of_isDouble hz, zero_add, rnd_of_isDouble hx, rnd_of_isDouble hxy,
      rnd_of_isDouble hs]
  have h2 : Fp.scalarProduct v v = v.sqLen := h1
  have h3 : Fp.length v = v.len := by
    unfold Fp.length Fp.sqrt
    rw [h1]
    rw [norm_eq_len] at hl
    exact rnd_of_isDouble hl
  unfold Fp.cosine Fp.div
  rw [h2, h3, if_neg (by rintro (h | h) <;> exact hlen.ne' h), ← V3.len_mul_self, mul_div_assoc, div_self hlen.ne',
    mul_one]
  rw [norm_eq_len] at hl
  rw [rnd_of_isDouble hl, div_self hlen.ne', rnd_one]

example : Fp.isParallel ⟨2, 3, 6⟩ ⟨2, 3, 6⟩ Fp.angular := by
  have d : ∀ m : ℤ, |m| ≤ 2 ^ 53 → IsDouble m := fun m h => isDouble_int h
  refine C88_self_partial ⟨2, 3, 6⟩ (by intro h; simpa using congrArg V3.x h) ?_ ?_ ?_ ?_ ?_ ?_
  · have := d 4 (by norm_num); norm_num at this ⊢; exact this
  · have := d 9 (by norm_num); norm_num at this ⊢; exact this
  · have := d 36 (by norm_num); norm_num at this ⊢; exact this
  · have := d 13 (by norm_num); norm_num at this ⊢; exact this
  · have := d 49 (by norm_num); norm_num at this ⊢; exact this
  · have e : norm (⟨2, 3, 6⟩ : V3) = 7 := by
      rw [norm_eq_len]
      unfold V3.len V3.sqLen
      rw [show (2 * 2 + 3 * 3 + 6 * 6 : ℝ) = 7 ^ 2 by norm_num]
      exact Real.sqrt_sq (by norm_num)
    rw [e]
    exact_mod_cast d 7 (by norm_num)

/-- The full property: vectors other than zero are parallel to themselves. -/
def C88_full : Prop := ∀ v : V3, DoubleCoordinates v → v ≠ 0 → Fp.isParallel v v Fp.angular

/-- **The code violates the property**: the vector (1, 1, 1) is not parallel to itself. -/
theorem C88_disproof : ¬ C88_full := by
  intro h
  have h1 := h ⟨1, 1, 1⟩ doubleCoordinates_ones (by intro h; simpa using congrArg V3.x h)
  rw [isParallel_iff] at h1
  have hs : Fp.scalarProduct ⟨1, 1, 1⟩ ⟨1, 1, 1⟩ = 3 := squaredLength_ones
  have h2 : Fp.div 3 (7800463371553962 / 2 ^ 52) = 7800463371553963 / 2 ^ 52 := by
    unfold Fp.div
    refine rnd_eval 7800463371553963 52 ?_ ?_ ?_ ?_ <;> norm_num [abs_lt, abs_of_pos]
  have h3 : Fp.div (7800463371553963 / 2 ^ 52) (7800463371553962 / 2 ^ 52) = 4503599627370497 / 2 ^ 52 := by
    unfold Fp.div
    refine rnd_eval 4503599627370497 52 ?_ ?_ ?_ ?_ <;> norm_num [abs_lt, abs_of_pos]
  unfold Fp.cosine at h1
  rw [length_ones, if_neg (by norm_num), hs, h2, h3] at h1
  have := Option.some.inj h1
  norm_num at this

end Props
