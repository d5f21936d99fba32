import Verif.Lemmas.Rounding
import Verif.Model.Float.Range

/-!
# Computations within the range of `double`
-/

namespace Verif
open Frackit Frackit.Fp Spec

/-- `x` is a multiple of 2ᵏ. -/
def Grid (k : ℤ) (x : ℝ) : Prop := ∃ m : ℤ, x = m * 2 ^ k

theorem Grid.mono {k l : ℤ} {x : ℝ} (h : Grid l x) (hk : k ≤ l) : Grid k x := by
  obtain ⟨m, rfl⟩ := h
  obtain ⟨n, rfl⟩ := Int.le.dest hk
  refine ⟨m * 2 ^ n, ?_⟩
  rw [zpow_add₀ (by norm_num)]
  push_cast
  rw [zpow_natCast]
  ring

theorem Grid.zero (k : ℤ) : Grid k 0 := ⟨0, by simp⟩

theorem Grid.neg {k : ℤ} {x : ℝ} (h : Grid k x) : Grid k (-x) := by
  obtain ⟨m, rfl⟩ := h
  exact ⟨-m, by push_cast; ring⟩

theorem Grid.add {k : ℤ} {x y : ℝ} (h : Grid k x) (h' : Grid k y) : Grid k (x + y) := by
  obtain ⟨m, rfl⟩ := h
  obtain ⟨n, rfl⟩ := h'
  exact ⟨m + n, by push_cast; ring⟩

theorem Grid.mul {k l : ℤ} {x y : ℝ} (h : Grid k x) (h' : Grid l y) : Grid (k + l) (x * y) := by
  obtain ⟨m, rfl⟩ := h
  obtain ⟨n, rfl⟩ := h'
  exact ⟨m * n, by push_cast; rw [zpow_add₀ (by norm_num)]; ring⟩

/-- A multiple of 2ᵏ other than zero is not below 2ᵏ. -/
theorem Grid.le_abs {k : ℤ} {x : ℝ} (h : Grid k x) (hx : x ≠ 0) : 2 ^ k ≤ |x| := by
  obtain ⟨m, rfl⟩ := h
  have hm : m ≠ 0 := by
    rintro rfl
    simp at hx
  have h1 : (1 : ℝ) ≤ |(m : ℝ)| := by exact_mod_cast Int.one_le_abs hm
  have hp : (0 : ℝ) < 2 ^ k := by positivity
  rw [abs_mul, abs_of_pos hp]
  nlinarith

theorem Grid.isDouble {k : ℤ} {x : ℝ} (h : Grid k x) (hx : |x| ≤ 2 ^ (53 : ℕ) * 2 ^ k) : IsDouble x := by
  obtain ⟨m, rfl⟩ := h
  have hp : (0 : ℝ) < 2 ^ k := by positivity
  rw [abs_mul, abs_of_pos hp] at hx
  have h1 := le_of_mul_le_mul_right hx hp
  exact ⟨m, k, by exact_mod_cast h1, rfl⟩

theorem Grid.rnd {k : ℤ} {x : ℝ} (h : Grid k x) : Grid k (Fp.rnd x) := by
  rcases eq_or_ne x 0 with rfl | hx
  · rw [rnd_zero]; exact Grid.zero k
  rcases le_or_gt k (ulpExponent x) with hk | hk
  · exact Grid.mono ⟨_, rfl⟩ hk
  · have h1 := (ulp_bounds hx).2
    have h2 : (2 : ℝ) ^ ulpExponent x ≤ 2 ^ k := zpow_le_zpow_right₀ (by norm_num) hk.le
    rw [rnd_of_isDouble (h.isDouble (h1.le.trans (by gcongr)))]
    exact h

theorem Grid.of_isDouble {j : ℤ} {x : ℝ} (h : IsDouble x) (hx : 2 ^ j ≤ |x|) : Grid (j - 53) x := by
  obtain ⟨m, e, hm, rfl⟩ := h
  refine Grid.mono ⟨m, rfl⟩ ?_
  have hp : (0 : ℝ) < 2 ^ e := by positivity
  rw [abs_mul, abs_of_pos hp] at hx
  have h1 : |(m : ℝ)| ≤ 2 ^ (53 : ℤ) := by exact_mod_cast hm
  have h2 : (2 : ℝ) ^ j ≤ 2 ^ (53 + e) := by
    rw [zpow_add₀ (by norm_num)]
    exact hx.trans (mul_le_mul_of_nonneg_right h1 hp.le)
  have h3 := (zpow_le_zpow_iff_right₀ (by norm_num : (1 : ℝ) < 2)).1 h2
  omega

theorem isDouble_two_zpow (n : ℤ) : IsDouble ((2 : ℝ) ^ n) := ⟨1, n, by norm_num, by simp⟩

theorem abs_rnd_le {x : ℝ} {n : ℤ} (h : |x| ≤ 2 ^ n) : |Fp.rnd x| ≤ 2 ^ n := by
  rw [abs_le] at h ⊢
  exact ⟨le_rnd_of_le (isDouble_neg (isDouble_two_zpow n)) h.1, rnd_le_of_le (isDouble_two_zpow n) h.2⟩

/-- Rounding to binary64 if the result neither underflows nor overflows. -/
theorem dblRound_eq {x : ℝ} (h : Grid (-1074) x ∨ 2 ^ (-1022 : ℤ) ≤ |x|) (hx : |x| ≤ 2 ^ (1023 : ℤ)) :
    Dbl.round x = .fin (Fp.rnd x) := by
  have hr := abs_rnd_le hx
  have hr' : ¬ (2 : ℝ) ^ 1024 ≤ |Fp.rnd x| := by
    rw [not_le]
    refine hr.trans_lt ?_
    rw [← zpow_natCast]
    exact zpow_lt_zpow_right₀ (by norm_num) (by norm_num)
  have key : ((nearestEven (x / 2 ^ max (ulpExponent x) (-1074)) : ℤ) : ℝ) * 2 ^ max (ulpExponent x) (-1074) = Fp.rnd x := by
    rcases eq_or_ne x 0 with rfl | hx0
    · rw [rnd_zero, zero_div]
      have := nearestEven_int 0
      push_cast at this
      rw [this]
      simp
    rcases le_or_gt (-1074) (ulpExponent x) with hk | hk
    · rw [max_eq_left hk]
      rfl
    · rw [max_eq_right hk.le]
      have h1 := (ulp_bounds hx0).2
      have h2 : (2 : ℝ) ^ ulpExponent x ≤ 2 ^ (-1075 : ℤ) := zpow_le_zpow_right₀ (by norm_num) (by omega)
      have h3 : |x| < 2 ^ (-1022 : ℤ) := by
        have h5 : (2 : ℝ) ^ (53 : ℕ) * 2 ^ (-1075 : ℤ) = 2 ^ (-1022 : ℤ) := by
          rw [← zpow_natCast, ← zpow_add₀ (by norm_num)]
          norm_num
        rw [← h5]
        exact h1.trans_le (by gcongr)
      have hg : Grid (-1074) x := h.resolve_right (not_le.2 h3)
      have hd : IsDouble x := by
        refine hg.isDouble (h3.le.trans ?_)
        rw [← zpow_natCast, ← zpow_add₀ (by norm_num)]
        exact zpow_le_zpow_right₀ (by norm_num) (by norm_num)
      rw [rnd_of_isDouble hd]
      obtain ⟨m, hm⟩ := hg
      have hp : (2 : ℝ) ^ (-1074 : ℤ) ≠ 0 := by positivity
      rw [hm, mul_div_assoc, div_self hp, mul_one, nearestEven_int]
  unfold Dbl.round
  dsimp only
  rw [key, if_neg hr']

/-- `x` is a multiple of 2ᵏ of magnitude at most 2ⁿ. -/
def OnGrid (k n : ℤ) (x : ℝ) : Prop := Grid k x ∧ |x| ≤ 2 ^ n

theorem OnGrid.mono {k n l m : ℤ} {x : ℝ} (h : OnGrid l n x) (hk : k ≤ l) (hn : n ≤ m) : OnGrid k m x :=
  ⟨h.1.mono hk, h.2.trans (zpow_le_zpow_right₀ (by norm_num) hn)⟩

theorem OnGrid.zero (k n : ℤ) : OnGrid k n 0 := ⟨Grid.zero k, by rw [abs_zero]; positivity⟩

theorem OnGrid.round {k n : ℤ} {x : ℝ} (h : OnGrid k n x) (hk : -1074 ≤ k) (hn : n ≤ 1023) :
    Dbl.round x = .fin (Fp.rnd x) ∧ OnGrid k n (Fp.rnd x) :=
  ⟨dblRound_eq (.inl (h.1.mono hk)) (h.2.trans (zpow_le_zpow_right₀ (by norm_num) hn)), h.1.rnd, abs_rnd_le h.2⟩

theorem OnGrid.add {k n : ℤ} {a b : ℝ} (ha : OnGrid k n a) (hb : OnGrid k n b) (hk : -1074 ≤ k) (hn : n ≤ 1022) :
    (Dbl.fin a).add (.fin b) = .fin (Fp.add a b) ∧ OnGrid k (n + 1) (Fp.add a b) := by
  refine OnGrid.round ⟨ha.1.add hb.1, (abs_add_le a b).trans ?_⟩ hk (by omega)
  rw [zpow_add₀ (by norm_num), zpow_one]
  linarith [ha.2, hb.2]

theorem OnGrid.sub {k n : ℤ} {a b : ℝ} (ha : OnGrid k n a) (hb : OnGrid k n b) (hk : -1074 ≤ k) (hn : n ≤ 1022) :
    (Dbl.fin a).sub (.fin b) = .fin (Fp.sub a b) ∧ OnGrid k (n + 1) (Fp.sub a b) := by
  have h := OnGrid.add ha (b := -b) ⟨hb.1.neg, by rw [abs_neg]; exact hb.2⟩ hk hn
  have e : Fp.sub a b = Fp.add a (-b) := by rw [Fp.sub, Fp.add, sub_eq_add_neg]
  rw [e]
  exact h

theorem OnGrid.mul {k n l m : ℤ} {a b : ℝ} (ha : OnGrid k n a) (hb : OnGrid l m b) (hk : -1074 ≤ k + l)
    (hn : n + m ≤ 1023) :
    (Dbl.fin a).mul (.fin b) = .fin (Fp.mul a b) ∧ OnGrid (k + l) (n + m) (Fp.mul a b) := by
  refine OnGrid.round ⟨ha.1.mul hb.1, ?_⟩ hk hn
  rw [abs_mul, zpow_add₀ (by norm_num)]
  exact mul_le_mul ha.2 hb.2 (abs_nonneg _) (by positivity)

/-- Square roots of multiples of 2²ʲ. -/
theorem OnGrid.sqrt {j n : ℤ} {a : ℝ} (h : OnGrid (2 * j) (2 * n) a) (ha : 0 ≤ a) (hj : -1000 ≤ j) (hn : n ≤ 1023) :
    (Dbl.fin a).sqrt = .fin (Fp.sqrt a) ∧ OnGrid (j - 53) n (Fp.sqrt a) ∧ (a ≠ 0 → 2 ^ j ≤ Fp.sqrt a) := by
  have h2 : ∀ i : ℤ, √((2 : ℝ) ^ (2 * i)) = 2 ^ i := fun i => by
    rw [mul_comm, zpow_mul, show ((2 : ℝ) ^ i) ^ (2 : ℤ) = (2 ^ i) ^ 2 by norm_cast, Real.sqrt_sq (by positivity)]
  have hlow : a ≠ 0 → 2 ^ j ≤ √a := by
    intro h0
    have h1 := h.1.le_abs h0
    rw [abs_of_nonneg ha] at h1
    rw [← h2 j]
    exact Real.sqrt_le_sqrt h1
  have hup : |√a| ≤ 2 ^ n := by
    rw [abs_of_nonneg (Real.sqrt_nonneg a), ← h2 n]
    refine Real.sqrt_le_sqrt ?_
    have := h.2
    rwa [abs_of_nonneg ha] at this
  have e : (Dbl.fin a).sqrt = Dbl.round (√a) := if_neg (not_lt.2 ha)
  rw [e]
  rcases eq_or_ne a 0 with rfl | h0
  · have hz : Fp.sqrt 0 = 0 := by rw [Fp.sqrt, Real.sqrt_zero, rnd_zero]
    refine ⟨dblRound_eq (.inl ?_) ?_, ?_, fun h => absurd rfl h⟩
    · rw [Real.sqrt_zero]; exact Grid.zero _
    · rw [Real.sqrt_zero, abs_zero]; positivity
    · rw [hz]; exact OnGrid.zero _ _
  · have hl := hlow h0
    have hl' : 2 ^ j ≤ Fp.sqrt a := le_rnd_of_le (isDouble_two_zpow j) hl
    refine ⟨dblRound_eq (.inr ?_) (hup.trans (zpow_le_zpow_right₀ (by norm_num) hn)), ⟨?_, abs_rnd_le hup⟩, fun _ => hl'⟩
    · rw [abs_of_nonneg (Real.sqrt_nonneg a)]
      exact (zpow_le_zpow_right₀ (by norm_num) (by omega)).trans hl
    · refine Grid.of_isDouble (isDouble_rnd _) ?_
      exact hl'.trans (le_abs_self _)

theorem OnGrid.div {k n j m : ℤ} {a b : ℝ} (ha : OnGrid k n a) (hb : 2 ^ j ≤ b) (hb' : b ≤ 2 ^ m)
    (h1 : -1022 ≤ k - m) (h2 : n - j ≤ 1023) : (Dbl.fin a).div (.fin b) = .fin (Fp.div a b) := by
  have hp : 0 < b := lt_of_lt_of_le (by positivity) hb
  have e : (Dbl.fin a).div (.fin b) = Dbl.round (a / b) := if_neg hp.ne'
  rw [e]
  have hup : |a / b| ≤ 2 ^ (1023 : ℤ) := by
    rw [abs_div, abs_of_pos hp, div_le_iff₀ hp]
    refine ha.2.trans ?_
    calc (2 : ℝ) ^ n ≤ 2 ^ (1023 + j) := zpow_le_zpow_right₀ (by norm_num) (by omega)
      _ = 2 ^ (1023 : ℤ) * 2 ^ j := zpow_add₀ (by norm_num) _ _
      _ ≤ 2 ^ (1023 : ℤ) * b := by gcongr
  rcases eq_or_ne a 0 with rfl | h0
  · exact dblRound_eq (.inl (by rw [zero_div]; exact Grid.zero _)) hup
  · refine dblRound_eq (.inr ?_) hup
    rw [abs_div, abs_of_pos hp, le_div_iff₀ hp]
    refine le_trans ?_ (ha.1.le_abs h0)
    calc (2 : ℝ) ^ (-1022 : ℤ) * b ≤ 2 ^ (-1022 : ℤ) * 2 ^ m := by gcongr
      _ = 2 ^ (-1022 + m) := (zpow_add₀ (by norm_num) _ _).symm
      _ ≤ 2 ^ k := zpow_le_zpow_right₀ (by norm_num) (by omega)

end Verif
