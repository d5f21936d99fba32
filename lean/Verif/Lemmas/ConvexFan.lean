import Mathlib.Tactic.Ring
import Mathlib.Tactic.Linarith
import Mathlib.Tactic.LinearCombination
import Mathlib.Tactic.FieldSimp
import Mathlib.Tactic.Positivity
import Mathlib.Algebra.Order.Field.Basic
import Mathlib.Data.Real.Basic
import Mathlib.Data.Finset.Max

/-!
# Fans of convex polygons

Corners of a polygon in the plane, given by their coordinates.  Cutting off the last corner of a convex
polygon with different corners gives a convex polygon again.
-/

namespace Verif

/-- Twice the signed area of the triangle with corners `i`, `j`, `k`. -/
def orient (x y : ℕ → ℝ) (i j k : ℕ) : ℝ :=
  (x j - x i) * (y k - y i) - (x k - x i) * (y j - y i)

/-- Convex polygon with corners `0, …, N`: each corner is on the left of (or on) each edge. -/
def ConvexPoints (x y : ℕ → ℝ) (N : ℕ) : Prop :=
  (∀ i < N, ∀ k ≤ N, 0 ≤ orient x y i (i + 1) k) ∧ ∀ k ≤ N, 0 ≤ orient x y N 0 k

/-- Different corners are different points. -/
def DistinctPoints (x y : ℕ → ℝ) (N : ℕ) : Prop :=
  ∀ i ≤ N, ∀ j ≤ N, x i = x j → y i = y j → i = j

variable {x y : ℕ → ℝ} {N : ℕ}

theorem exists_scalar {a b c d : ℝ} (h : a ≠ 0 ∨ b ≠ 0) (hp : a * d = c * b) :
    ∃ s, c = s * a ∧ d = s * b := by
  rcases h with h | h
  · refine ⟨c / a, by field_simp, ?_⟩
    field_simp; linarith
  · refine ⟨d / b, ?_, by field_simp⟩
    field_simp; linarith

section
variable (hc : ConvexPoints x y (N + 1)) (hd : DistinctPoints x y (N + 1))
include hc hd

/-- A step along the line of the last edge. -/
theorem chain_step (hT : 0 < orient x y N (N + 1) 0) {j k : ℕ} (hj : j < N) (hk : k ≤ N + 1)
    (aj : orient x y (N + 1) 0 j = 0) (ak : orient x y (N + 1) 0 k = 0)
    (hf : (x j - x 0) * (x 0 - x (N + 1)) + (y j - y 0) * (y 0 - y (N + 1))
      < (x k - x 0) * (x 0 - x (N + 1)) + (y k - y 0) * (y 0 - y (N + 1))) :
    orient x y (N + 1) 0 (j + 1) = 0 ∧
    (x j - x 0) * (x 0 - x (N + 1)) + (y j - y 0) * (y 0 - y (N + 1))
      < (x (j + 1) - x 0) * (x 0 - x (N + 1)) + (y (j + 1) - y 0) * (y 0 - y (N + 1)) := by
  have e1 := hc.1 j (by omega) k hk
  have e2 := hc.1 j (by omega) N (by omega)
  have e3 := hc.2 (j + 1) (by omega)
  have hne := fun h1 h2 => hd j (by omega) (j + 1) (by omega) h1 h2
  simp only [orient] at *
  generalize x 0 = x0 at *
  generalize y 0 = y0 at *
  generalize x (N + 1) = xb at *
  generalize y (N + 1) = yb at *
  generalize x N = xa at *
  generalize y N = ya at *
  generalize x j = xj at *
  generalize y j = yj at *
  generalize x k = xk at *
  generalize y k = yk at *
  generalize x (j + 1) = xq at *
  generalize y (j + 1) = yq at *
  have hu : x0 - xb ≠ 0 ∨ y0 - yb ≠ 0 := by
    by_contra h
    push Not at h
    rw [h.1, h.2] at hf
    simp at hf
  -- the point k in terms of j
  obtain ⟨s, hs1, hs2⟩ := exists_scalar (a := x0 - xb) (b := y0 - yb) (c := xk - xj) (d := yk - yj) hu
    (by linear_combination ak - aj)
  have hq : 0 < (x0 - xb) ^ 2 + (y0 - yb) ^ 2 := by
    rcases hu with h | h
    · have := sq_pos_of_ne_zero h; nlinarith [sq_nonneg (y0 - yb)]
    · have := sq_pos_of_ne_zero h; nlinarith [sq_nonneg (x0 - xb)]
  have hs : 0 < s := by
    have : 0 < s * ((x0 - xb) ^ 2 + (y0 - yb) ^ 2) := by
      have e : s * ((x0 - xb) ^ 2 + (y0 - yb) ^ 2)
          = (s * (x0 - xb)) * (x0 - xb) + (s * (y0 - yb)) * (y0 - yb) := by ring
      rw [e, ← hs1, ← hs2]; linarith
    exact (pos_iff_pos_of_mul_pos this).2 hq
  rw [hs1, hs2] at e1
  -- the edge from j is parallel to the line
  have p1 : 0 ≤ (xq - xj) * (y0 - yb) - (x0 - xb) * (yq - yj) := by
    have : 0 ≤ s * ((xq - xj) * (y0 - yb) - (x0 - xb) * (yq - yj)) := by linarith
    exact (mul_nonneg_iff_of_pos_left hs).1 this
  have p2 : (x0 - xb) * (yq - yj) = (xq - xj) * (y0 - yb) := by nlinarith
  obtain ⟨t, ht1, ht2⟩ := exists_scalar (a := x0 - xb) (b := y0 - yb) (c := xq - xj) (d := yq - yj) hu p2
  have hT' : 0 < (x0 - xb) * (ya - yj) - (xa - xj) * (y0 - yb) := by nlinarith
  have ht0 : 0 ≤ t := by
    rw [ht1, ht2] at e2
    have : 0 ≤ ((x0 - xb) * (ya - yj) - (xa - xj) * (y0 - yb)) * t := by linarith
    exact (mul_nonneg_iff_of_pos_left hT').1 this
  have ht : 0 < t := by
    refine lt_of_le_of_ne ht0 fun h => ?_
    rw [← h] at ht1 ht2
    have := hne (by linarith) (by linarith)
    omega
  refine ⟨by linear_combination p2 + aj, ?_⟩
  have : 0 < t * ((x0 - xb) ^ 2 + (y0 - yb) ^ 2) := mul_pos ht hq
  have e : t * ((x0 - xb) ^ 2 + (y0 - yb) ^ 2)
      = (t * (x0 - xb)) * (x0 - xb) + (t * (y0 - yb)) * (y0 - yb) := by ring
  rw [e, ← ht1, ← ht2] at this
  linarith

theorem chain_no_return (hT : 0 < orient x y N (N + 1) 0) {i : ℕ} (hi : i ≤ N)
    (ai : orient x y (N + 1) 0 i = 0) :
    0 ≤ (x i - x 0) * (x 0 - x (N + 1)) + (y i - y 0) * (y 0 - y (N + 1)) := by
  set f : ℕ → ℝ := fun j => (x j - x 0) * (x 0 - x (N + 1)) + (y j - y 0) * (y 0 - y (N + 1)) with hf
  show 0 ≤ f i
  have hu : x 0 - x (N + 1) ≠ 0 ∨ y 0 - y (N + 1) ≠ 0 := by
    by_contra h
    push Not at h
    have := hd 0 (by omega) (N + 1) le_rfl (by linarith) (by linarith)
    omega
  have hq : 0 < (x 0 - x (N + 1)) ^ 2 + (y 0 - y (N + 1)) ^ 2 := by
    rcases hu with h | h
    · have := sq_pos_of_ne_zero h; nlinarith [sq_nonneg (y 0 - y (N + 1))]
    · have := sq_pos_of_ne_zero h; nlinarith [sq_nonneg (x 0 - x (N + 1))]
  have a0 : orient x y (N + 1) 0 0 = 0 := by simp only [orient]; ring
  have aN : orient x y (N + 1) 0 N = orient x y N (N + 1) 0 := by simp only [orient]; ring
  -- the last point on the line
  obtain ⟨m, hm, hmax⟩ := Finset.exists_max_image
    ((Finset.range (N + 2)).filter fun k => orient x y (N + 1) 0 k = 0) f
    ⟨0, by simp [a0]⟩
  simp only [Finset.mem_filter, Finset.mem_range] at hm hmax
  -- equal position means equal point
  have inj : ∀ j k, j ≤ N + 1 → k ≤ N + 1 → orient x y (N + 1) 0 j = 0 → orient x y (N + 1) 0 k = 0 →
      f j = f k → j = k := by
    intro j k hj hk hj0 hk0 he
    obtain ⟨s, hs1, hs2⟩ := exists_scalar (a := x 0 - x (N + 1)) (b := y 0 - y (N + 1)) (c := x k - x j)
      (d := y k - y j) hu (by simp only [orient] at hj0 hk0; linear_combination hk0 - hj0)
    have : s * ((x 0 - x (N + 1)) ^ 2 + (y 0 - y (N + 1)) ^ 2) = 0 := by
      have e : s * ((x 0 - x (N + 1)) ^ 2 + (y 0 - y (N + 1)) ^ 2)
          = (s * (x 0 - x (N + 1))) * (x 0 - x (N + 1)) + (s * (y 0 - y (N + 1))) * (y 0 - y (N + 1)) := by
        ring
      rw [e, ← hs1, ← hs2]
      simp only [hf] at he
      linarith
    have hs0 : s = 0 := by
      rcases mul_eq_zero.1 this with h | h
      · exact h
      · exact absurd h hq.ne'
    rw [hs0] at hs1 hs2
    exact hd j hj k hk (by linarith) (by linarith)
  have less : ∀ j, j ≤ N + 1 → orient x y (N + 1) 0 j = 0 → j ≠ m → f j < f m := fun j hj hj0 hne =>
    lt_of_le_of_ne (hmax j ⟨by omega, hj0⟩) fun he => hne (inj j m hj (by omega) hj0 hm.2 he)
  -- the last point is met after i
  have him : i ≤ m := by
    by_contra hlt
    push Not at hlt
    have : ∀ d, i + d ≤ N → orient x y (N + 1) 0 (i + d) = 0 := by
      intro d
      induction d with
      | zero => intro _; exact ai
      | succ d ih =>
        intro hle
        have h0 := ih (by omega)
        exact (chain_step hc hd hT (j := i + d) (k := m) (by omega) (by omega) h0 hm.2
          (less _ (by omega) h0 (by omega))).1
    have := this (N - i) (by omega)
    rw [Nat.add_sub_cancel' hi, aN] at this
    linarith
  -- from corner 0 to there the position increases
  have inc : ∀ j, j ≤ m → j ≤ N → orient x y (N + 1) 0 j = 0 ∧ 0 ≤ f j := by
    intro j
    induction j with
    | zero => intro _ _; exact ⟨a0, by simp [hf]⟩
    | succ j ih =>
      intro h1 h2
      obtain ⟨h0, hp⟩ := ih (by omega) (by omega)
      obtain ⟨g1, g2⟩ := chain_step hc hd hT (j := j) (k := m) (by omega) (by omega) h0 hm.2
        (less _ (by omega) h0 (by omega))
      exact ⟨g1, le_of_lt (lt_of_le_of_lt hp g2)⟩
  exact (inc i him hi).2

/-- No corner is cut off together with the last one. -/
theorem ear_cut : ∀ i ≤ N, 0 ≤ orient x y N 0 i := by
  have key : ∀ d i, i + d = N → 0 ≤ orient x y N 0 i := by
    intro d
    induction d with
    | zero =>
      intro i hi
      have : i = N := by omega
      subst this
      simp only [orient]
      nlinarith
    | succ d ih =>
      intro i hi
      have hnext := ih (i + 1) (by omega)
      by_contra hneg
      push Not at hneg
      have hA := hc.2 i (by omega)
      have hG := hc.1 N (by omega) i (by omega)
      have eP : orient x y (N + 1) 0 i + orient x y N (N + 1) i - orient x y N 0 i
          = orient x y N (N + 1) 0 := by simp only [orient]; ring
      have hT : 0 < orient x y N (N + 1) 0 := by linarith
      have qA := hc.1 i (by omega) N (by omega)
      have qB := hc.1 i (by omega) (N + 1) (by omega)
      have qC := hc.1 i (by omega) 0 (by omega)
      have hsum : orient x y (N + 1) 0 i * orient x y i (i + 1) N
          + (-orient x y N 0 i) * orient x y i (i + 1) (N + 1)
          + orient x y N (N + 1) i * orient x y i (i + 1) 0 = 0 := by simp only [orient]; ring
      have z1 : orient x y (N + 1) 0 i * orient x y i (i + 1) N = 0 := by
        have h1 := mul_nonneg hA qA
        have h2 := mul_nonneg (neg_pos.2 hneg).le qB
        have h3 := mul_nonneg hG qC
        linarith
      have z2 : (-orient x y N 0 i) * orient x y i (i + 1) (N + 1) = 0 := by
        have h1 := mul_nonneg hA qA
        have h2 := mul_nonneg (neg_pos.2 hneg).le qB
        have h3 := mul_nonneg hG qC
        linarith
      have z3 : orient x y N (N + 1) i * orient x y i (i + 1) 0 = 0 := by linarith
      have zB : orient x y i (i + 1) (N + 1) = 0 := by
        rcases mul_eq_zero.1 z2 with h | h
        · linarith
        · exact h
      have hne : ¬ (x i = x (i + 1) ∧ y i = y (i + 1)) := fun h => by
        have := hd i (by omega) (i + 1) (by omega) h.1 h.2
        omega
      by_cases hA0 : orient x y (N + 1) 0 i = 0
      · -- on the last edge
        have := chain_no_return hc hd hT (by omega) hA0
        -- position of the point: orient N 0 i < 0
        have hu : x 0 - x (N + 1) ≠ 0 ∨ y 0 - y (N + 1) ≠ 0 := by
          by_contra h
          push Not at h
          have := hd 0 (by omega) (N + 1) le_rfl (by linarith) (by linarith)
          omega
        have hq : 0 < (x 0 - x (N + 1)) ^ 2 + (y 0 - y (N + 1)) ^ 2 := by
          rcases hu with h | h
          · have := sq_pos_of_ne_zero h; nlinarith [sq_nonneg (y 0 - y (N + 1))]
          · have := sq_pos_of_ne_zero h; nlinarith [sq_nonneg (x 0 - x (N + 1))]
        obtain ⟨s, hs1, hs2⟩ := exists_scalar (a := x 0 - x (N + 1)) (b := y 0 - y (N + 1)) (c := x i - x 0)
          (d := y i - y 0) hu (by simp only [orient] at hA0; linear_combination hA0)
        have e : orient x y N 0 i = s * orient x y N (N + 1) 0 := by
          have hx : x i = x 0 + s * (x 0 - x (N + 1)) := by linarith
          have hy : y i = y 0 + s * (y 0 - y (N + 1)) := by linarith
          simp only [orient]
          rw [hx, hy]; ring
        have hs : s < 0 := by
          by_contra h
          push Not at h
          have := mul_nonneg h hT.le
          linarith
        rw [hs1, hs2] at this
        nlinarith
      · have zA : orient x y i (i + 1) N = 0 := (mul_eq_zero.1 z1).resolve_left hA0
        by_cases hG0 : orient x y N (N + 1) i = 0
        · -- on the edge to the last corner
          have hu : x (N + 1) - x N ≠ 0 ∨ y (N + 1) - y N ≠ 0 := by
            by_contra h
            push Not at h
            have := hd (N + 1) (by omega) N (by omega) (by linarith) (by linarith)
            omega
          obtain ⟨s, hs1, hs2⟩ := exists_scalar (a := x (N + 1) - x N) (b := y (N + 1) - y N)
            (c := x (i + 1) - x i) (d := y (i + 1) - y i) hu
            (by simp only [orient] at zA zB; linear_combination zA - zB)
          have eC : orient x y i (i + 1) 0 = s * orient x y N (N + 1) 0 - s * orient x y N (N + 1) i := by
            simp only [orient]
            rw [hs1, hs2]; ring
          rw [hG0] at eC
          have hs0 : 0 ≤ s := by
            have : 0 ≤ orient x y N (N + 1) 0 * s := by linarith
            exact (mul_nonneg_iff_of_pos_left hT).1 this
          have e : orient x y N 0 (i + 1) = orient x y N 0 i - s * orient x y N (N + 1) 0 := by
            have hx : x (i + 1) = x i + s * (x (N + 1) - x N) := by linarith
            have hy : y (i + 1) = y i + s * (y (N + 1) - y N) := by linarith
            simp only [orient]
            rw [hx, hy]; ring
          have := mul_nonneg hs0 hT.le
          linarith
        · -- inside
          have zC : orient x y i (i + 1) 0 = 0 := (mul_eq_zero.1 z3).resolve_left hG0
          apply hne
          have m1 : (x (i + 1) - x i) * orient x y N (N + 1) 0 = 0 := by
            simp only [orient] at zA zB zC ⊢
            linear_combination (x 0 - x (N + 1)) * zA + (x N - x 0) * zB + (x (N + 1) - x N) * zC
          have m2 : (y (i + 1) - y i) * orient x y N (N + 1) 0 = 0 := by
            simp only [orient] at zA zB zC ⊢
            linear_combination (y 0 - y (N + 1)) * zA + (y N - y 0) * zB + (y (N + 1) - y N) * zC
          constructor
          · have := (mul_eq_zero.1 m1).resolve_right hT.ne'
            linarith
          · have := (mul_eq_zero.1 m2).resolve_right hT.ne'
            linarith
  intro i hi
  exact key (N - i) i (by omega)

theorem convex_cut : ConvexPoints x y N :=
  ⟨fun i hi k hk => hc.1 i (by omega) k (by omega), ear_cut hc hd⟩

end

/-- The diagonals from corner 0 have the corners in order. -/
theorem fan_order (hc : ConvexPoints x y N) (hd : DistinctPoints x y N) :
    ∀ j ≤ N, ∀ i ≤ j, 0 ≤ orient x y 0 i j := by
  induction N with
  | zero =>
    intro j hj i hi
    have : j = 0 := by omega
    subst this
    have : i = 0 := by omega
    subst this
    simp [orient]
  | succ N ih =>
    intro j hj i hi
    rcases Nat.lt_or_ge j (N + 1) with h | h
    · exact ih (convex_cut hc hd) (fun a ha b hb => hd a (by omega) b (by omega)) j (by omega) i hi
    · have : j = N + 1 := by omega
      subst this
      have := hc.2 i hi
      simp only [orient] at this ⊢
      nlinarith

end Verif
