import Mathlib.Analysis.SpecialFunctions.Trigonometric.Basic
import Mathlib.Algebra.BigOperators.Intervals
import Mathlib.Algebra.Order.BigOperators.Group.Finset

/-!
# Closed chains of vectors sorted by angle

If vectors with sum zero are chained in the order of their angles, the vertex at which the angle
passes `φ` is extremal in the direction orthogonal to `φ`.
-/

namespace Lemmas
open Finset

private theorem sin_sign₁ {a : ℝ} (h0 : 0 ≤ a) (h1 : a ≤ Real.pi) : 0 ≤ Real.sin a :=
  Real.sin_nonneg_of_nonneg_of_le_pi h0 h1

private theorem sin_sign₂ {a : ℝ} (h0 : -Real.pi ≤ a) (h1 : a ≤ 0) : Real.sin a ≤ 0 :=
  Real.sin_nonpos_of_nonpos_of_neg_pi_le h1 h0

private theorem sin_sign₃ {a : ℝ} (h0 : Real.pi ≤ a) (h1 : a ≤ 2 * Real.pi) : Real.sin a ≤ 0 := by
  rw [← Real.sin_sub_two_pi]
  exact sin_sign₂ (by linarith) (by linarith)

private theorem sin_sign₄ {a : ℝ} (h0 : -(2 * Real.pi) ≤ a) (h1 : a ≤ -Real.pi) : 0 ≤ Real.sin a := by
  rw [← Real.sin_add_two_pi]
  exact sin_sign₁ (by linarith) (by linarith)

theorem sorted_angles_extremal (n p : ℕ) (hp : p ≤ n) (θ f : ℕ → ℝ) (φ : ℝ) (h0 : 0 ≤ φ)
    (h2 : φ ≤ 2 * Real.pi) (mono : ∀ a b, a ≤ b → b < n → θ a ≤ θ b)
    (hr : ∀ k < n, 0 ≤ θ k ∧ θ k < 2 * Real.pi) (lo : ∀ k < p, θ k ≤ φ)
    (hi : ∀ k, p ≤ k → k < n → φ ≤ θ k)
    (hf : ∀ k < n, ∃ r, 0 ≤ r ∧ f k = r * Real.sin (θ k - φ))
    (tot : ∑ k ∈ range n, f k = 0) (j : ℕ) (hj : j ≤ n) :
    ∑ k ∈ range p, f k ≤ ∑ k ∈ range j, f k := by
  have hpi := Real.pi_pos
  have pos : ∀ k < n, 0 ≤ Real.sin (θ k - φ) → 0 ≤ f k := by
    intro k hk hs
    obtain ⟨r, h, e⟩ := hf k hk
    rw [e]; positivity
  have neg : ∀ k < n, Real.sin (θ k - φ) ≤ 0 → f k ≤ 0 := by
    intro k hk hs
    obtain ⟨r, h, e⟩ := hf k hk
    rw [e]; exact mul_nonpos_of_nonneg_of_nonpos h hs
  rcases le_total p j with hpj | hjp
  · have e1 := sum_range_add_sum_Ico f hpj
    have e2 := sum_range_add_sum_Ico f hj
    by_cases hall : ∀ k ∈ Ico p j, θ k ≤ φ + Real.pi
    · have : 0 ≤ ∑ k ∈ Ico p j, f k := by
        refine sum_nonneg fun k hk => ?_
        have hk' := mem_Ico.1 hk
        have := hall k hk
        have := hi k hk'.1 (by omega)
        exact pos k (by omega) (sin_sign₁ (by linarith) (by linarith))
      linarith
    · push Not at hall
      obtain ⟨k0, hk0, hgt⟩ := hall
      have hk0' := mem_Ico.1 hk0
      have hφ : φ < Real.pi := by have := (hr k0 (by omega)).2; linarith
      have s1 : ∑ k ∈ range p, f k ≤ 0 := by
        refine sum_nonpos fun k hk => ?_
        have hk' := mem_range.1 hk
        have := lo k hk'
        have := (hr k (by omega)).1
        exact neg k (by omega) (sin_sign₂ (by linarith) (by linarith))
      have s2 : ∑ k ∈ Ico j n, f k ≤ 0 := by
        refine sum_nonpos fun k hk => ?_
        have hk' := mem_Ico.1 hk
        have := mono k0 k (by omega) hk'.2
        have := (hr k hk'.2).2
        exact neg k hk'.2 (sin_sign₃ (by linarith) (by linarith))
      linarith
  · have e1 := sum_range_add_sum_Ico f hjp
    have e2 := sum_range_add_sum_Ico f hp
    by_cases hall : ∀ k ∈ Ico j p, φ - Real.pi ≤ θ k
    · have : ∑ k ∈ Ico j p, f k ≤ 0 := by
        refine sum_nonpos fun k hk => ?_
        have hk' := mem_Ico.1 hk
        have := hall k hk
        have := lo k hk'.2
        exact neg k (by omega) (sin_sign₂ (by linarith) (by linarith))
      linarith
    · push Not at hall
      obtain ⟨k0, hk0, hlt⟩ := hall
      have hk0' := mem_Ico.1 hk0
      have hφ : Real.pi < φ := by have := (hr k0 (by omega)).1; linarith
      have s1 : 0 ≤ ∑ k ∈ range j, f k := by
        refine sum_nonneg fun k hk => ?_
        have hk' := mem_range.1 hk
        have := mono k k0 (by omega) (by omega)
        have := (hr k (by omega)).1
        exact pos k (by omega) (sin_sign₄ (by linarith) (by linarith))
      have s2 : 0 ≤ ∑ k ∈ Ico p n, f k := by
        refine sum_nonneg fun k hk => ?_
        have hk' := mem_Ico.1 hk
        have := hi k hk'.1 hk'.2
        have := (hr k hk'.2).2
        exact pos k hk'.2 (sin_sign₁ (by linarith) (by linarith))
      linarith

/-- Position at which a monotone sequence passes a value. -/
theorem exists_pass (n : ℕ) (θ : ℕ → ℝ) (φ : ℝ) (mono : ∀ a b, a ≤ b → b < n → θ a ≤ θ b) :
    ∃ p ≤ n, (∀ k < p, θ k < φ) ∧ ∀ k, p ≤ k → k < n → φ ≤ θ k := by
  induction n with
  | zero => exact ⟨0, le_rfl, by simp, by intro k _ h; omega⟩
  | succ n ih =>
    obtain ⟨p, hp, h1, h2⟩ := ih fun a b hab hb => mono a b hab (by omega)
    by_cases hn : p = n
    · subst hn
      by_cases hc : θ p < φ
      · refine ⟨p + 1, le_rfl, ?_, by intro k _ h; omega⟩
        intro k hk
        rcases Nat.lt_succ_iff_lt_or_eq.1 hk with h | rfl
        · exact h1 k h
        · exact hc
      · refine ⟨p, by omega, h1, ?_⟩
        intro k hk hk'
        obtain rfl : k = p := by omega
        exact not_lt.1 hc
    · refine ⟨p, by omega, h1, ?_⟩
      intro k hk hk'
      exact (h2 p le_rfl (by omega)).trans (mono p k hk hk')

end Lemmas
