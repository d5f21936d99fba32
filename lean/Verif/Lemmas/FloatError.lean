import Verif.Lemmas.Rounding
import Verif.Model.Float.Vector
import Mathlib.Analysis.SpecialFunctions.Trigonometric.Bounds
import Mathlib.Tactic.IntervalCases

/-!
# Error bounds for lengths, directions and angles in double precision
-/

namespace Verif
open Frackit Frackit.Fp

/-- Growth of relative errors per rounding. -/
noncomputable def rho : ℝ := 1 / (1 - unitRoundoff)

theorem unitRoundoff_pos : (0 : ℝ) < unitRoundoff := by unfold unitRoundoff; positivity
theorem one_sub_pos : (0 : ℝ) < 1 - unitRoundoff := by unfold unitRoundoff; norm_num
theorem one_lt_rho : 1 < rho := by
  rw [rho, lt_div_iff₀ one_sub_pos]
  linarith [unitRoundoff_pos]
theorem rho_pos : 0 < rho := by linarith [one_lt_rho]
theorem one_add_le_rho : 1 + unitRoundoff ≤ rho := by
  rw [rho, le_div_iff₀ one_sub_pos]
  nlinarith [unitRoundoff_pos]
theorem rho_mul : rho * (1 - unitRoundoff) = 1 := by
  rw [rho, div_mul_cancel₀ _ one_sub_pos.ne']

/-- Two numbers that are not negative agree up to `k` relative errors. -/
def Close (k : ℕ) (a b : ℝ) : Prop := 0 ≤ a ∧ 0 ≤ b ∧ b ≤ rho ^ k * a ∧ a ≤ rho ^ k * b

theorem one_le_rho_pow (k : ℕ) : 1 ≤ rho ^ k := one_le_pow₀ one_lt_rho.le

theorem Close.refl {a : ℝ} (h : 0 ≤ a) : Close 0 a a := ⟨h, h, by simp, by simp⟩

theorem Close.symm {k : ℕ} {a b : ℝ} (h : Close k a b) : Close k b a := ⟨h.2.1, h.1, h.2.2.2, h.2.2.1⟩

theorem Close.mono {j k : ℕ} {a b : ℝ} (h : Close j a b) (hjk : j ≤ k) : Close k a b := by
  have := pow_le_pow_right₀ one_lt_rho.le hjk
  exact ⟨h.1, h.2.1, h.2.2.1.trans (mul_le_mul_of_nonneg_right this h.1),
    h.2.2.2.trans (mul_le_mul_of_nonneg_right this h.2.1)⟩

theorem Close.trans {j k : ℕ} {a b c : ℝ} (h : Close j a b) (h' : Close k b c) : Close (j + k) a c := by
  have hp : 0 ≤ rho ^ j := by positivity [rho_pos]
  have hq : 0 ≤ rho ^ k := by positivity [rho_pos]
  refine ⟨h.1, h'.2.1, ?_, ?_⟩
  · calc c ≤ rho ^ k * b := h'.2.2.1
      _ ≤ rho ^ k * (rho ^ j * a) := mul_le_mul_of_nonneg_left h.2.2.1 hq
      _ = rho ^ (j + k) * a := by ring
  · calc a ≤ rho ^ j * b := h.2.2.2
      _ ≤ rho ^ j * (rho ^ k * c) := mul_le_mul_of_nonneg_left h'.2.2.2 hp
      _ = rho ^ (j + k) * c := by ring

theorem Close.add {k : ℕ} {a b c d : ℝ} (h : Close k a b) (h' : Close k c d) : Close k (a + c) (b + d) := by
  refine ⟨add_nonneg h.1 h'.1, add_nonneg h.2.1 h'.2.1, ?_, ?_⟩
  · rw [mul_add]; exact add_le_add h.2.2.1 h'.2.2.1
  · rw [mul_add]; exact add_le_add h.2.2.2 h'.2.2.2

theorem Close.mul {j k : ℕ} {a b c d : ℝ} (h : Close j a b) (h' : Close k c d) : Close (j + k) (a * c) (b * d) := by
  have hp : 0 ≤ rho ^ j := by positivity [rho_pos]
  have hq : 0 ≤ rho ^ k := by positivity [rho_pos]
  refine ⟨mul_nonneg h.1 h'.1, mul_nonneg h.2.1 h'.2.1, ?_, ?_⟩
  · calc b * d ≤ (rho ^ j * a) * (rho ^ k * c) := mul_le_mul h.2.2.1 h'.2.2.1 h'.2.1 (mul_nonneg hp h.1)
      _ = rho ^ (j + k) * (a * c) := by ring
  · calc a * c ≤ (rho ^ j * b) * (rho ^ k * d) := mul_le_mul h.2.2.2 h'.2.2.2 h'.1 (mul_nonneg hp h.2.1)
      _ = rho ^ (j + k) * (b * d) := by ring

theorem Close.inv {k : ℕ} {a b : ℝ} (h : Close k a b) : Close k a⁻¹ b⁻¹ := by
  have hq : 0 < rho ^ k := pow_pos rho_pos k
  obtain ⟨h1, h2, h3, h4⟩ := h
  rcases h1.eq_or_lt with rfl | ha
  · have hb : b = 0 := by
      rw [mul_zero] at h3
      exact le_antisymm h3 h2
    subst hb
    exact ⟨by simp, by simp, by simp, by simp⟩
  · have hb : 0 < b := by
      rcases h2.eq_or_lt with rfl | hb
      · rw [mul_zero] at h4
        linarith
      · exact hb
    refine ⟨inv_nonneg.2 h1, inv_nonneg.2 h2, ?_, ?_⟩
    · rw [← div_eq_mul_inv, le_div_iff₀ ha, inv_mul_le_iff₀ hb]
      linarith
    · rw [← div_eq_mul_inv, le_div_iff₀ hb, inv_mul_le_iff₀ ha]
      linarith

theorem Close.div {j k : ℕ} {a b c d : ℝ} (h : Close j a b) (h' : Close k c d) : Close (j + k) (a / c) (b / d) := by
  rw [div_eq_mul_inv, div_eq_mul_inv]
  exact h.mul h'.inv

theorem Close.sqrt {k : ℕ} {a b : ℝ} (h : Close (2 * k) a b) : Close k √a √b := by
  have hq : 0 ≤ rho ^ k := by positivity [rho_pos]
  refine ⟨Real.sqrt_nonneg _, Real.sqrt_nonneg _, ?_, ?_⟩
  · refine Real.sqrt_le_iff.2 ⟨mul_nonneg hq (Real.sqrt_nonneg _), ?_⟩
    rw [mul_pow, Real.sq_sqrt h.1, ← pow_mul, mul_comm k 2]
    exact h.2.2.1
  · refine Real.sqrt_le_iff.2 ⟨mul_nonneg hq (Real.sqrt_nonneg _), ?_⟩
    rw [mul_pow, Real.sq_sqrt h.2.1, ← pow_mul, mul_comm k 2]
    exact h.2.2.2

theorem close_rnd {x : ℝ} (hx : 0 ≤ x) : Close 1 (rnd x) x := by
  have h := abs_le.1 (rnd_error x)
  rw [abs_of_nonneg hx] at h
  refine ⟨rnd_nonneg hx, hx, ?_, ?_⟩
  · have h1 : x * (1 - unitRoundoff) ≤ rnd x := by linarith [h.1]
    calc x = rho * (x * (1 - unitRoundoff)) := by rw [mul_comm x, ← mul_assoc, rho_mul, one_mul]
      _ ≤ rho * rnd x := mul_le_mul_of_nonneg_left h1 rho_pos.le
      _ = rho ^ 1 * rnd x := by rw [pow_one]
  · calc rnd x ≤ (1 + unitRoundoff) * x := by linarith [h.2]
      _ ≤ rho * x := mul_le_mul_of_nonneg_right one_add_le_rho hx
      _ = rho ^ 1 * x := by rw [pow_one]

theorem Close.rnd {k : ℕ} {a b : ℝ} (h : Close k a b) : Close (k + 1) (Fp.rnd a) b := by
  rw [add_comm]
  exact (close_rnd h.1).trans h

/-- Numbers that agree up to relative errors differ little. -/
theorem Close.abs_sub_le {k : ℕ} {a b : ℝ} (h : Close k a b) : |a - b| ≤ (rho ^ k - 1) * b := by
  have h1 := one_le_rho_pow k
  rw [abs_le]
  constructor
  · have h2 : 0 ≤ (rho ^ k - 1) * (b - a) + (rho ^ k - 1) * a + (a - b) := by
      have := h.2.2.1
      rcases le_total a b with hab | hab
      · nlinarith [h.1, h.2.1]
      · nlinarith [h.1, h.2.1, mul_nonneg (sub_nonneg.2 h1) h.2.1]
    linarith
  · linarith [h.2.2.2]

/-- Error of a number relative to a scale. -/
def Err (k : ℕ) (a b m : ℝ) : Prop := |a - b| ≤ (rho ^ k - 1) * m ∧ |b| ≤ m

theorem Err.nonneg {k : ℕ} {a b m : ℝ} (h : Err k a b m) : 0 ≤ m := (abs_nonneg b).trans h.2

theorem Err.refl (b : ℝ) : Err 0 b b |b| := ⟨by simp, le_refl _⟩

theorem Err.abs_le {k : ℕ} {a b m : ℝ} (h : Err k a b m) : |a| ≤ rho ^ k * m := by
  calc |a| = |(a - b) + b| := by ring_nf
    _ ≤ |a - b| + |b| := abs_add_le _ _
    _ ≤ (rho ^ k - 1) * m + m := add_le_add h.1 h.2
    _ = rho ^ k * m := by ring

theorem Err.mono {j k : ℕ} {a b m n : ℝ} (h : Err j a b m) (hjk : j ≤ k) (hmn : m ≤ n) : Err k a b n := by
  have h1 := pow_le_pow_right₀ one_lt_rho.le hjk
  have h2 := one_le_rho_pow k
  refine ⟨h.1.trans ?_, h.2.trans hmn⟩
  have := h.nonneg
  exact mul_le_mul (by linarith) hmn this (by linarith)

theorem Err.add {k : ℕ} {a b m c d n : ℝ} (h : Err k a b m) (h' : Err k c d n) : Err k (a + c) (b + d) (m + n) := by
  refine ⟨?_, (abs_add_le _ _).trans (add_le_add h.2 h'.2)⟩
  calc |a + c - (b + d)| = |(a - b) + (c - d)| := by ring_nf
    _ ≤ |a - b| + |c - d| := abs_add_le _ _
    _ ≤ (rho ^ k - 1) * (m + n) := by rw [mul_add]; exact add_le_add h.1 h'.1

theorem Err.mul {j k : ℕ} {a b m c d n : ℝ} (h : Err j a b m) (h' : Err k c d n) :
    Err (j + k) (a * c) (b * d) (m * n) := by
  have hm := h.nonneg
  have hn := h'.nonneg
  refine ⟨?_, by rw [abs_mul]; exact mul_le_mul h.2 h'.2 (abs_nonneg _) hm⟩
  have h1 := one_le_rho_pow j
  have h2 := one_le_rho_pow k
  calc |a * c - b * d| = |(a - b) * c + b * (c - d)| := by ring_nf
    _ ≤ |(a - b) * c| + |b * (c - d)| := abs_add_le _ _
    _ = |a - b| * |c| + |b| * |c - d| := by rw [abs_mul, abs_mul]
    _ ≤ ((rho ^ j - 1) * m) * (rho ^ k * n) + m * ((rho ^ k - 1) * n) := by
        refine add_le_add (mul_le_mul h.1 h'.abs_le (abs_nonneg _) ?_) (mul_le_mul h.2 h'.1 (abs_nonneg _) hm)
        exact mul_nonneg (by linarith) hm
    _ = (rho ^ (j + k) - 1) * (m * n) := by ring

theorem Err.rnd {k : ℕ} {a b m : ℝ} (h : Err k a b m) : Err (k + 1) (Fp.rnd a) b m := by
  have hm := h.nonneg
  have h1 := rnd_error a
  have h2 := h.abs_le
  refine ⟨?_, h.2⟩
  have h3 : unitRoundoff ≤ rho - 1 := by linarith [one_add_le_rho]
  calc |Fp.rnd a - b| = |(Fp.rnd a - a) + (a - b)| := by ring_nf
    _ ≤ |Fp.rnd a - a| + |a - b| := abs_add_le _ _
    _ ≤ unitRoundoff * |a| + (rho ^ k - 1) * m := add_le_add h1 h.1
    _ ≤ (rho - 1) * (rho ^ k * m) + (rho ^ k - 1) * m := by
        refine add_le_add (mul_le_mul h3 h2 (abs_nonneg _) (by linarith [one_lt_rho])) le_rfl
    _ = (rho ^ (k + 1) - 1) * m := by ring

theorem Close.err {k : ℕ} {a b : ℝ} (h : Close k a b) : Err k a b b :=
  ⟨h.abs_sub_le, by rw [abs_of_nonneg h.2.1]⟩

/-- Bounds for the relative errors of up to fifteen roundings. -/
theorem rho_pow_sub_one_le {k : ℕ} (hk : k ≤ 15) : rho ^ k - 1 ≤ k * (1 / 2 ^ 53) * (1 + 1 / 2 ^ 47) := by
  have h : rho ≤ 1 + 1 / 2 ^ 53 * (1 + 1 / 2 ^ 52) := by
    rw [rho, div_le_iff₀ one_sub_pos]
    unfold unitRoundoff
    norm_num
  have h1 : rho ^ k ≤ (1 + 1 / 2 ^ 53 * (1 + 1 / 2 ^ 52)) ^ k := pow_le_pow_left₀ rho_pos.le h k
  have h2 : ((1 : ℝ) + 1 / 2 ^ 53 * (1 + 1 / 2 ^ 52)) ^ k - 1 ≤ k * (1 / 2 ^ 53) * (1 + 1 / 2 ^ 47) := by
    interval_cases k <;> norm_num
  linarith

/-! ## Lengths and scalar products -/

theorem close_abs_mul_self (x : ℝ) : Close 1 (Fp.mul x x) (x * x) := by
  unfold Fp.mul
  exact close_rnd (mul_self_nonneg x)

theorem zero_add_rnd (x : ℝ) : Fp.add 0 (Fp.mul x x) = Fp.mul x x := by
  unfold Fp.add Fp.mul
  rw [zero_add, rnd_rnd]

theorem close_squaredLength (v : V3) : Close 3 (squaredLength v) v.sqLen := by
  unfold squaredLength V3.sqLen
  rw [zero_add_rnd]
  have h1 : Close 2 (Fp.add (Fp.mul v.x v.x) (Fp.mul v.y v.y)) (v.x * v.x + v.y * v.y) :=
    ((close_abs_mul_self v.x).add (close_abs_mul_self v.y)).rnd
  exact (h1.add ((close_abs_mul_self v.z).mono (by norm_num))).rnd

theorem close_length (v : V3) : Close 3 (length v) v.len := by
  unfold length Fp.sqrt V3.len
  exact (((close_squaredLength v).mono (show 3 ≤ 2 * 2 by norm_num)).sqrt).rnd

theorem length_pos {v : V3} (hv : v ≠ 0) : 0 < length v := by
  have h := close_length v
  have hl := V3.len_pos.2 hv
  rcases h.1.eq_or_lt with h0 | h0
  · have := h.2.2.1
    rw [← h0, mul_zero] at this
    linarith
  · exact h0

theorem length_eq_zero {v : V3} : length v = 0 ↔ v = 0 := by
  constructor
  · intro h
    by_contra hv
    exact (length_pos hv).ne' h
  · rintro rfl
    have h := (close_length 0).2.2.2
    have h0 : (0 : V3).len = 0 := V3.len_eq_zero.2 rfl
    rw [h0, mul_zero] at h
    exact le_antisymm h (close_length 0).1

theorem err_mul (x y : ℝ) : Err 1 (Fp.mul x y) (x * y) (|x| * |y|) := by
  rw [← abs_mul]
  exact (Err.refl (x * y)).rnd

theorem err_scalarProduct (v w : V3) :
    Err 3 (scalarProduct v w) (v.dot w) (|v.x| * |w.x| + |v.y| * |w.y| + |v.z| * |w.z|) := by
  unfold scalarProduct V3.dot
  have h0 : Fp.add 0 (Fp.mul v.x w.x) = Fp.mul v.x w.x := by
    unfold Fp.add Fp.mul
    rw [zero_add, rnd_rnd]
  rw [h0]
  have h1 : Err 2 (Fp.add (Fp.mul v.x w.x) (Fp.mul v.y w.y)) (v.x * w.x + v.y * w.y) (|v.x| * |w.x| + |v.y| * |w.y|) :=
    ((err_mul v.x w.x).add (err_mul v.y w.y)).rnd
  exact (h1.add ((err_mul v.z w.z).mono (by norm_num) le_rfl)).rnd

/-- The vector of absolute values. -/
noncomputable def absV (v : V3) : V3 := ⟨|v.x|, |v.y|, |v.z|⟩

theorem absV_len (v : V3) : (absV v).len = v.len := by
  unfold V3.len V3.sqLen absV
  simp only [abs_mul_abs_self]

theorem abs_products_le (v w : V3) : |v.x| * |w.x| + |v.y| * |w.y| + |v.z| * |w.z| ≤ v.len * w.len := by
  have := V3.dot_le (absV v) (absV w)
  rw [absV_len, absV_len] at this
  exact this

theorem err_scalarProduct_len (v w : V3) : Err 3 (scalarProduct v w) (v.dot w) (v.len * w.len) :=
  (err_scalarProduct v w).mono le_rfl (abs_products_le v w)

/-- The reciprocal length as factor. -/
theorem err_inv {k : ℕ} {a b : ℝ} (h : Close k a b) : Err k a⁻¹ b⁻¹ b⁻¹ := h.inv.err

theorem err_cosine {v w : V3} (hv : v ≠ 0) (hw : w ≠ 0) :
    Err 11 (Fp.div (Fp.div (scalarProduct v w) (length v)) (length w)) (v.dot w / (v.len * w.len)) 1 := by
  have h1 := (err_scalarProduct_len v w).mul (err_inv (close_length v))
  have h2 : Err 7 (Fp.div (scalarProduct v w) (length v)) (v.dot w * v.len⁻¹) (v.len * w.len * v.len⁻¹) := by
    unfold Fp.div
    rw [div_eq_mul_inv]
    exact h1.rnd
  have h3 := (h2.mul (err_inv (close_length w))).rnd
  have e1 : v.dot w * v.len⁻¹ * w.len⁻¹ = v.dot w / (v.len * w.len) := by
    rw [div_eq_mul_inv, mul_inv]
    ring
  have e2 : v.len * w.len * v.len⁻¹ * w.len⁻¹ = 1 := by
    have a := (V3.len_pos.2 hv).ne'
    have b := (V3.len_pos.2 hw).ne'
    field_simp
  rw [e1, e2] at h3
  unfold Fp.div at h3 ⊢
  rw [div_eq_mul_inv _ (length w)]
  exact h3

/-- The arc cosine is Hölder continuous. -/
theorem abs_sub_sq_le {α β : ℝ} (hα : 0 ≤ α) (hα' : α ≤ Real.pi) (hβ : 0 ≤ β) (hβ' : β ≤ Real.pi) :
    2 * ((α - β) / Real.pi) ^ 2 ≤ |Real.cos α - Real.cos β| := by
  wlog h : α ≤ β generalizing α β
  · have := this hβ hβ' hα hα' (le_of_not_ge h)
    rw [abs_sub_comm, show ((α - β) / Real.pi) ^ 2 = ((β - α) / Real.pi) ^ 2 by ring]
    exact this
  have hpi := Real.pi_pos
  have h1 : Real.cos α - Real.cos β = 2 * Real.sin ((β + α) / 2) * Real.sin ((β - α) / 2) := by
    rw [Real.cos_sub_cos, show (α - β) / 2 = -((β - α) / 2) by ring, Real.sin_neg, add_comm α β]
    ring
  have h2 : 2 / Real.pi * ((β - α) / 2) ≤ Real.sin ((β - α) / 2) := Real.mul_le_sin (by linarith) (by linarith)
  have h3 : Real.sin ((β - α) / 2) ≤ Real.sin ((β + α) / 2) := by
    rcases le_total ((β + α) / 2) (Real.pi / 2) with h4 | h4
    · exact Real.sin_le_sin_of_le_of_le_pi_div_two (by linarith) h4 (by linarith)
    · rw [← Real.sin_pi_sub ((β + α) / 2)]
      exact Real.sin_le_sin_of_le_of_le_pi_div_two (by linarith) (by linarith) (by linarith)
  have h5 : 0 ≤ 2 / Real.pi * ((β - α) / 2) := by
    have : 0 ≤ (β - α) / 2 := by linarith
    positivity
  refine le_trans ?_ (le_abs_self _)
  rw [h1]
  have e : ((α - β) / Real.pi) ^ 2 = (2 / Real.pi * ((β - α) / 2)) ^ 2 := by
    field_simp
    ring
  rw [e]
  nlinarith

theorem arccos_diff {a b δ : ℝ} (ha : -1 ≤ a) (ha' : a ≤ 1) (hb : -1 ≤ b) (hb' : b ≤ 1) (h : |a - b| ≤ 2 * δ ^ 2)
    (hδ : 0 ≤ δ) : |Real.arccos a - Real.arccos b| ≤ Real.pi * δ := by
  have h1 := abs_sub_sq_le (Real.arccos_nonneg a) (Real.arccos_le_pi a) (Real.arccos_nonneg b) (Real.arccos_le_pi b)
  rw [Real.cos_arccos ha ha', Real.cos_arccos hb hb'] at h1
  have h2 : ((Real.arccos a - Real.arccos b) / Real.pi) ^ 2 ≤ δ ^ 2 := by linarith
  have h3 := abs_le_of_sq_le_sq' h2 hδ
  have hpi := Real.pi_pos
  rw [le_div_iff₀ hpi, div_le_iff₀ hpi] at h3
  rw [abs_le]
  constructor <;> nlinarith [h3.1, h3.2]

end Verif
