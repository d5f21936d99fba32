import Verif.Model.Float.Rounding
import Verif.Spec.Double
import Mathlib.Tactic.Linarith
import Mathlib.Tactic.Ring
import Mathlib.Tactic.Positivity
import Mathlib.Tactic.FieldSimp
import Mathlib.Tactic.NormNum

/-!
# Rounding to the nearest number of type `double`
-/

namespace Verif
open Frackit Frackit.Fp Spec

theorem nearestEven_error (t : ℝ) : |(nearestEven t : ℝ) - t| ≤ 1 / 2 := by
  have h0 := Int.floor_le t
  have h1 := Int.lt_floor_add_one t
  unfold nearestEven
  split_ifs with a b c <;> push_cast <;> rw [abs_le] <;> constructor <;> linarith

theorem nearestEven_eq {t : ℝ} {m : ℤ} (h : |t - m| < 1 / 2) : nearestEven t = m := by
  have h1 := nearestEven_error t
  have h2 : |(nearestEven t : ℝ) - m| < 1 := by
    calc |(nearestEven t : ℝ) - m| = |((nearestEven t : ℝ) - t) + (t - m)| := by ring_nf
      _ ≤ |(nearestEven t : ℝ) - t| + |t - m| := abs_add_le _ _
      _ < 1 := by linarith
  have h3 : |(nearestEven t - m : ℤ)| < 1 := by exact_mod_cast h2
  have := Int.abs_lt_one_iff.1 h3
  omega

theorem nearestEven_int (m : ℤ) : nearestEven (m : ℝ) = m := nearestEven_eq (by norm_num)

theorem nearestEven_mono {s t : ℝ} (h : s ≤ t) : nearestEven s ≤ nearestEven t := by
  by_contra hn
  push Not at hn
  have hs := abs_le.1 (nearestEven_error s)
  have ht := abs_le.1 (nearestEven_error t)
  have h1 : (nearestEven t : ℝ) + 1 ≤ nearestEven s := by exact_mod_cast hn
  have hst : s = t := by linarith [hs.2, ht.1]
  rw [hst] at hn
  exact lt_irrefl _ hn

theorem nearestEven_even_of_tie {t : ℝ} (h : |(nearestEven t : ℝ) - t| = 1 / 2) : Even (nearestEven t) := by
  have h0 := Int.floor_le t
  have h1 := Int.lt_floor_add_one t
  unfold nearestEven at h ⊢
  split_ifs at h ⊢ with a b c
  · rw [abs_of_nonpos (by linarith)] at h
    linarith
  · push_cast at h
    rw [abs_of_nonneg (by linarith)] at h
    linarith
  · exact c
  · have := Int.not_even_iff_odd.1 c
    exact this.add_one

theorem nearestEven_unique {t : ℝ} {m : ℤ} (h : |(m : ℝ) - t| ≤ 1 / 2) (he : |(m : ℝ) - t| = 1 / 2 → Even m) :
    nearestEven t = m := by
  rcases lt_or_eq_of_le h with hlt | heq
  · exact nearestEven_eq (by rwa [abs_sub_comm])
  · have hm := he heq
    have h1 := nearestEven_error t
    rcases lt_or_eq_of_le h1 with hlt1 | heq1
    · have h2 : |(m : ℝ) - nearestEven t| < 1 := by
        calc |(m : ℝ) - nearestEven t| = |((m : ℝ) - t) + (t - nearestEven t)| := by ring_nf
          _ ≤ |(m : ℝ) - t| + |t - nearestEven t| := abs_add_le _ _
          _ < 1 := by rw [abs_sub_comm t]; linarith
      have h3 : |(m - nearestEven t : ℤ)| < 1 := by exact_mod_cast h2
      have := Int.abs_lt_one_iff.1 h3
      omega
    · have hev := nearestEven_even_of_tie heq1
      have h2 : |(m : ℝ) - nearestEven t| ≤ 1 := by
        calc |(m : ℝ) - nearestEven t| = |((m : ℝ) - t) + (t - nearestEven t)| := by ring_nf
          _ ≤ |(m : ℝ) - t| + |t - nearestEven t| := abs_add_le _ _
          _ ≤ 1 := by rw [abs_sub_comm t]; linarith
      have h3 : |(m - nearestEven t : ℤ)| ≤ 1 := by exact_mod_cast h2
      rw [abs_le] at h3
      obtain ⟨a, ha⟩ := hm
      obtain ⟨b, hb⟩ := hev
      omega

theorem nearestEven_neg (t : ℝ) : nearestEven (-t) = - nearestEven t := by
  have h : |((-nearestEven t : ℤ) : ℝ) - -t| = |(nearestEven t : ℝ) - t| := by
    push_cast
    rw [← abs_neg]
    congr 1
    ring
  refine nearestEven_unique ?_ ?_
  · rw [h]
    exact nearestEven_error t
  · intro he
    rw [h] at he
    exact (nearestEven_even_of_tie he).neg

/-- The number is between two powers of two. -/
theorem ulp_bounds {x : ℝ} (hx : x ≠ 0) :
    (2 : ℝ) ^ (52 : ℕ) * 2 ^ ulpExponent x ≤ |x| ∧ |x| < 2 ^ (53 : ℕ) * 2 ^ ulpExponent x := by
  have hp : 0 < |x| := abs_pos.2 hx
  have h1 := Int.zpow_log_le_self (b := 2) (r := |x|) (by norm_num) hp
  have h2 := Int.lt_zpow_succ_log_self (b := 2) (by norm_num) |x|
  have e1 : (2 : ℝ) ^ (52 : ℕ) * 2 ^ ulpExponent x = 2 ^ Int.log 2 |x| := by
    rw [ulpExponent, ← zpow_natCast, ← zpow_add₀ (by norm_num)]
    congr 1
    push_cast
    ring
  have e2 : (2 : ℝ) ^ (53 : ℕ) * 2 ^ ulpExponent x = 2 ^ (Int.log 2 |x| + 1) := by
    rw [ulpExponent, ← zpow_natCast, ← zpow_add₀ (by norm_num)]
    congr 1
    push_cast
    ring
  rw [e1, e2]
  exact ⟨by exact_mod_cast h1, by exact_mod_cast h2⟩

theorem ulpExponent_eq {x : ℝ} {e : ℤ} (h1 : (2 : ℝ) ^ (52 : ℕ) * 2 ^ e ≤ |x|) (h2 : |x| < 2 ^ (53 : ℕ) * 2 ^ e) :
    ulpExponent x = e := by
  have hp : (0 : ℝ) < 2 ^ e := by positivity
  have hx : x ≠ 0 := by
    rintro rfl
    rw [abs_zero] at h1
    have : (0 : ℝ) < 2 ^ (52 : ℕ) * 2 ^ e := by positivity
    linarith
  obtain ⟨h3, h4⟩ := ulp_bounds hx
  have h5 : (2 : ℝ) ^ e < 2 ^ (ulpExponent x + 1) := by
    rw [zpow_add_one₀ (by norm_num)]
    have : (2 : ℝ) ^ (53 : ℕ) = 2 ^ (52 : ℕ) * 2 := by norm_num
    rw [this] at h4
    nlinarith
  have h6 : (2 : ℝ) ^ ulpExponent x < 2 ^ (e + 1) := by
    rw [zpow_add_one₀ (by norm_num)]
    have : (2 : ℝ) ^ (53 : ℕ) = 2 ^ (52 : ℕ) * 2 := by norm_num
    rw [this] at h2
    nlinarith
  rw [zpow_lt_zpow_iff_right₀ (by norm_num)] at h5 h6
  omega

theorem rnd_zero : rnd 0 = 0 := by
  unfold rnd
  have : nearestEven ((0 : ℝ) / 2 ^ ulpExponent 0) = 0 := by
    rw [zero_div]
    exact_mod_cast nearestEven_int 0
  rw [this]
  simp

theorem rnd_neg (x : ℝ) : rnd (-x) = - rnd x := by
  have h : ulpExponent (-x) = ulpExponent x := by rw [ulpExponent, abs_neg, ulpExponent]
  rw [rnd, h, neg_div, nearestEven_neg, rnd]
  push_cast
  ring

/-- Evaluation of roundings: `m` is the significand and `e` the exponent of the result. -/
theorem rnd_eq {x : ℝ} (e m : ℤ) (h1 : (2 : ℝ) ^ (52 : ℕ) * 2 ^ e ≤ |x|) (h2 : |x| < 2 ^ (53 : ℕ) * 2 ^ e)
    (h : |x / 2 ^ e - m| < 1 / 2) : rnd x = m * 2 ^ e := by
  rw [rnd, ulpExponent_eq h1 h2, nearestEven_eq h]

/-- Evaluation of roundings of numbers that are not too large: `m` is the significand and `-k` the exponent. -/
theorem rnd_eq_nat {x : ℝ} (m : ℤ) (k : ℕ) (h1 : (2 : ℝ) ^ (52 : ℕ) ≤ |x| * 2 ^ k) (h2 : |x| * 2 ^ k < 2 ^ (53 : ℕ))
    (h : |x * 2 ^ k - m| < 1 / 2) : rnd x = m / 2 ^ k := by
  have hp : (0 : ℝ) < 2 ^ k := by positivity
  have e : (2 : ℝ) ^ (-(k : ℤ)) = (2 ^ k)⁻¹ := by rw [zpow_neg, zpow_natCast]
  have := rnd_eq (x := x) (-(k : ℤ)) m ?_ ?_ ?_
  · rw [this, e, div_eq_mul_inv]
  · rw [e, ← div_eq_mul_inv, div_le_iff₀ hp]
    exact h1
  · rw [e, ← div_eq_mul_inv, lt_div_iff₀ hp]
    exact h2
  · rw [e, div_inv_eq_mul]
    exact h

theorem rnd_eval {x y : ℝ} (m : ℤ) (k : ℕ) (hy : y * 2 ^ k = m) (h1 : (2 : ℝ) ^ (52 : ℕ) ≤ |x| * 2 ^ k)
    (h2 : |x| * 2 ^ k < 2 ^ (53 : ℕ)) (h : |x * 2 ^ k - m| < 1 / 2) : rnd x = y := by
  rw [rnd_eq_nat m k h1 h2 h, ← hy, mul_div_assoc, div_self (by positivity), mul_one]

/-- The bounds between which the rounding of a positive number lies. -/
theorem rnd_binade {x : ℝ} (hx : 0 < x) :
    (2 : ℝ) ^ (52 : ℕ) * 2 ^ ulpExponent x ≤ rnd x ∧ rnd x ≤ 2 ^ (53 : ℕ) * 2 ^ ulpExponent x := by
  obtain ⟨h1, h2⟩ := ulp_bounds hx.ne'
  rw [abs_of_pos hx] at h1 h2
  have hp : (0 : ℝ) < 2 ^ ulpExponent x := by positivity
  have a1 : ((2 ^ 52 : ℤ) : ℝ) ≤ x / 2 ^ ulpExponent x := by
    rw [le_div_iff₀ hp]
    exact_mod_cast h1
  have a2 : x / 2 ^ ulpExponent x ≤ ((2 ^ 53 : ℤ) : ℝ) := by
    rw [div_le_iff₀ hp]
    exact_mod_cast h2.le
  have b1 := nearestEven_mono a1
  have b2 := nearestEven_mono a2
  rw [nearestEven_int] at b1 b2
  have c1 : ((2 : ℝ) ^ (52 : ℕ)) ≤ nearestEven (x / 2 ^ ulpExponent x) := by exact_mod_cast b1
  have c2 : (nearestEven (x / 2 ^ ulpExponent x) : ℝ) ≤ 2 ^ (53 : ℕ) := by exact_mod_cast b2
  exact ⟨mul_le_mul_of_nonneg_right c1 hp.le, mul_le_mul_of_nonneg_right c2 hp.le⟩

theorem rnd_pos {x : ℝ} (hx : 0 < x) : 0 < rnd x :=
  lt_of_lt_of_le (by positivity) (rnd_binade hx).1

theorem rnd_nonneg {x : ℝ} (hx : 0 ≤ x) : 0 ≤ rnd x := by
  rcases hx.eq_or_lt with rfl | h
  · rw [rnd_zero]
  · exact (rnd_pos h).le

theorem rnd_mono_pos {x y : ℝ} (hx : 0 < x) (h : x ≤ y) : rnd x ≤ rnd y := by
  have hy : 0 < y := hx.trans_le h
  have hb := ulp_bounds hx.ne'
  have hb' := ulp_bounds hy.ne'
  rw [abs_of_pos hx] at hb
  rw [abs_of_pos hy] at hb'
  have hle : ulpExponent x ≤ ulpExponent y := by
    have h5 : (2 : ℝ) ^ ulpExponent x < 2 ^ (ulpExponent y + 1) := by
      rw [zpow_add_one₀ (by norm_num)]
      have e : (2 : ℝ) ^ (53 : ℕ) = 2 ^ (52 : ℕ) * 2 := by norm_num
      rw [e] at hb'
      have : (0 : ℝ) < 2 ^ ulpExponent y := by positivity
      nlinarith [hb.1, hb'.2]
    rw [zpow_lt_zpow_iff_right₀ (by norm_num)] at h5
    omega
  rcases hle.eq_or_lt with heq | hlt
  · unfold rnd
    rw [heq]
    have hp : (0 : ℝ) < 2 ^ ulpExponent y := by positivity
    refine mul_le_mul_of_nonneg_right ?_ hp.le
    exact_mod_cast nearestEven_mono (div_le_div_of_nonneg_right h hp.le)
  · have h1 := (rnd_binade hx).2
    have h2 := (rnd_binade hy).1
    refine h1.trans (le_trans ?_ h2)
    have h3 : (2 : ℝ) ^ (ulpExponent x + 1) ≤ 2 ^ ulpExponent y := zpow_le_zpow_right₀ (by norm_num) (by omega)
    rw [zpow_add_one₀ (by norm_num)] at h3
    have e : (2 : ℝ) ^ (53 : ℕ) = 2 ^ (52 : ℕ) * 2 := by norm_num
    rw [e]
    nlinarith

/-- Rounding is monotone. -/
theorem rnd_mono {x y : ℝ} (h : x ≤ y) : rnd x ≤ rnd y := by
  rcases lt_trichotomy x 0 with hx | rfl | hx
  · rcases lt_or_ge y 0 with hy | hy
    · have := rnd_mono_pos (x := -y) (y := -x) (by linarith) (by linarith)
      rw [rnd_neg, rnd_neg] at this
      linarith
    · have h1 : 0 < rnd (-x) := rnd_pos (by linarith)
      rw [rnd_neg] at h1
      have := rnd_nonneg hy
      linarith
  · rw [rnd_zero]
    exact rnd_nonneg h
  · exact rnd_mono_pos hx h

/-- The unit roundoff. -/
noncomputable abbrev unitRoundoff : ℝ := 1 / 2 ^ 53

/-- The relative error of rounding is at most the unit roundoff. -/
theorem rnd_error (x : ℝ) : |rnd x - x| ≤ unitRoundoff * |x| := by
  rcases eq_or_ne x 0 with rfl | hx
  · rw [rnd_zero]
    simp
  · have hp : (0 : ℝ) < 2 ^ ulpExponent x := by positivity
    have h1 := (ulp_bounds hx).1
    have h2 := nearestEven_error (x / 2 ^ ulpExponent x)
    have h3 : rnd x - x = ((nearestEven (x / 2 ^ ulpExponent x) : ℝ) - x / 2 ^ ulpExponent x) * 2 ^ ulpExponent x := by
      rw [rnd, sub_mul, div_mul_cancel₀ _ hp.ne']
    rw [h3, abs_mul, abs_of_pos hp]
    have h4 : (2 : ℝ) ^ ulpExponent x ≤ |x| / 2 ^ (52 : ℕ) := by
      rw [le_div_iff₀ (by positivity)]
      linarith
    calc |(nearestEven (x / 2 ^ ulpExponent x) : ℝ) - x / 2 ^ ulpExponent x| * 2 ^ ulpExponent x
        ≤ 1 / 2 * (|x| / 2 ^ (52 : ℕ)) := mul_le_mul h2 h4 hp.le (by norm_num)
      _ = unitRoundoff * |x| := by
        unfold unitRoundoff
        ring

/-- Numbers of type `double` are not changed. -/
theorem rnd_of_isDouble {x : ℝ} (h : IsDouble x) : rnd x = x := by
  rcases eq_or_ne x 0 with rfl | hx
  · exact rnd_zero
  obtain ⟨m, e, hm, hme⟩ := h
  obtain ⟨h1, h2⟩ := ulp_bounds hx
  have hp : (0 : ℝ) < 2 ^ ulpExponent x := by positivity
  have hpe : (0 : ℝ) < 2 ^ e := by positivity
  have hm' : |(m : ℝ)| ≤ 2 ^ (53 : ℕ) := by exact_mod_cast hm
  have habs : |x| = |(m : ℝ)| * 2 ^ e := by rw [hme, abs_mul, abs_of_pos hpe]
  -- the exponent of `x` is at most one larger than `e`, and then the significand is even
  have key : ∃ k : ℤ, x = k * 2 ^ ulpExponent x := by
    rcases le_or_gt (ulpExponent x) e with hle | hgt
    · refine ⟨m * 2 ^ (e - ulpExponent x).toNat, ?_⟩
      push_cast
      rw [mul_assoc, ← zpow_natCast, ← zpow_add₀ (by norm_num), Int.toNat_of_nonneg (by omega)]
      rw [hme]
      congr 2
      ring
    · have h3 : (2 : ℝ) ^ (e + 1) ≤ 2 ^ ulpExponent x := zpow_le_zpow_right₀ (by norm_num) (by omega)
      have h4 : (2 : ℝ) ^ (53 : ℕ) * 2 ^ e ≤ |x| := by
        refine le_trans ?_ h1
        rw [zpow_add_one₀ (by norm_num)] at h3
        have e' : (2 : ℝ) ^ (53 : ℕ) = 2 ^ (52 : ℕ) * 2 := by norm_num
        rw [e']
        nlinarith
      have h5 : |(m : ℝ)| = 2 ^ (53 : ℕ) := by
        refine le_antisymm hm' ?_
        rw [habs] at h4
        exact le_of_mul_le_mul_right h4 hpe
      have h6 : ulpExponent x = e + 1 := by
        refine ulpExponent_eq ?_ ?_
        · rw [habs, h5, zpow_add_one₀ (by norm_num)]
          apply le_of_eq
          ring
        · rw [habs, h5, zpow_add_one₀ (by norm_num)]
          nlinarith
      have h7 : |m| = 2 ^ 53 := by exact_mod_cast h5
      rcases abs_eq (by norm_num) |>.1 h7 with hm1 | hm1
      · refine ⟨2 ^ 52, ?_⟩
        rw [h6, hme, hm1, zpow_add_one₀ (by norm_num)]
        push_cast
        ring
      · refine ⟨-2 ^ 52, ?_⟩
        rw [h6, hme, hm1, zpow_add_one₀ (by norm_num)]
        push_cast
        ring
  obtain ⟨k, hk⟩ := key
  have h8 : x / 2 ^ ulpExponent x = k := by rw [div_eq_iff hp.ne']; exact hk
  rw [rnd, h8, nearestEven_int]
  exact hk.symm

/-- The result of rounding is a number of type `double`. -/
theorem isDouble_rnd (x : ℝ) : IsDouble (rnd x) := by
  rcases eq_or_ne x 0 with rfl | hx
  · exact ⟨0, 0, by norm_num, by rw [rnd_zero]; simp⟩
  · refine ⟨nearestEven (x / 2 ^ ulpExponent x), ulpExponent x, ?_, rfl⟩
    have hp : (0 : ℝ) < 2 ^ ulpExponent x := by positivity
    have hb := abs_lt.1 (ulp_bounds hx).2
    have a1 : ((-2 ^ 53 : ℤ) : ℝ) ≤ x / 2 ^ ulpExponent x := by
      rw [le_div_iff₀ hp]
      push_cast
      linarith [hb.1]
    have a2 : x / 2 ^ ulpExponent x ≤ ((2 ^ 53 : ℤ) : ℝ) := by
      rw [div_le_iff₀ hp]
      push_cast
      linarith [hb.2]
    have b1 := nearestEven_mono a1
    have b2 := nearestEven_mono a2
    rw [nearestEven_int] at b1 b2
    exact abs_le.2 ⟨b1, b2⟩

theorem rnd_rnd (x : ℝ) : rnd (rnd x) = rnd x := rnd_of_isDouble (isDouble_rnd x)

theorem isDouble_int {m : ℤ} (h : |m| ≤ 2 ^ 53) : IsDouble m := ⟨m, 0, h, by simp⟩

theorem isDouble_neg {x : ℝ} (h : IsDouble x) : IsDouble (-x) := by
  obtain ⟨m, e, hm, rfl⟩ := h
  exact ⟨-m, e, by rwa [abs_neg], by push_cast; ring⟩

/-- A sum with a number of type `double` as bound is rounded to the same side of it. -/
theorem rnd_le_of_le {x y : ℝ} (hy : IsDouble y) (h : x ≤ y) : rnd x ≤ y := by
  have := rnd_mono h
  rwa [rnd_of_isDouble hy] at this

theorem le_rnd_of_le {x y : ℝ} (hy : IsDouble y) (h : y ≤ x) : y ≤ rnd x := by
  have := rnd_mono h
  rwa [rnd_of_isDouble hy] at this

end Verif
