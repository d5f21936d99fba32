import Verif.Model.Geometry.NDim
import Mathlib.Analysis.InnerProductSpace.PiL2
import Mathlib.Tactic.FinCases
import Mathlib.Tactic.Ring
import Mathlib.Tactic.Linarith
import Mathlib.Tactic.NormNum

/-!
# Points, vectors and directions of any dimension
-/

namespace Props
open Verif Frackit

/-! ## C83 Arithmetic of points, vectors and directions -/

/-- The coordinates as a vector of the Euclidean space of Mathlib. -/
abbrev euclid {n : ℕ} (v : Coords n) : EuclideanSpace ℝ (Fin n) := WithLp.toLp 2 v

theorem squaredLength_eq {n : ℕ} (v : Coords n) : v.squaredLength = ‖euclid v‖ ^ 2 := by
  rw [EuclideanSpace.real_norm_sq_eq]
  exact Finset.sum_congr rfl fun i _ => by rw [sq]

theorem length_eq {n : ℕ} (v : Coords n) : v.length = ‖euclid v‖ := by
  rw [Coords.length, squaredLength_eq, Real.sqrt_sq (norm_nonneg _)]

theorem scalarProduct_eq {n : ℕ} (v w : Coords n) : v.scalarProduct w = inner ℝ (euclid v) (euclid w) := by
  rw [PiLp.inner_apply]
  exact Finset.sum_congr rfl fun i _ => by simp [mul_comm]

/-- Length and scalar product are those of the Euclidean space. -/
theorem C83_euclidean {n : ℕ} (v w : Coords n) :
    v.length = ‖euclid v‖ ∧ v.squaredLength = ‖euclid v‖ ^ 2 ∧
      v.scalarProduct w = inner ℝ (euclid v) (euclid w) ∧ v.squaredLength = v.scalarProduct v :=
  ⟨length_eq v, squaredLength_eq v, scalarProduct_eq v w, rfl⟩

/-- Sums, differences and multiples of vectors are those of the vector space. -/
theorem C83_vector_space {n : ℕ} (v w : Coords n) (a : ℝ) :
    v.plus w = v + w ∧ v.minus w = v - w ∧ v.scale a = a • v ∧ Coords.default n = 0 ∧
      (a ≠ 0 → v.divide a = .val (a⁻¹ • v)) ∧ v.divide 0 = .nan := by
  refine ⟨rfl, rfl, funext fun i => mul_comm _ _, rfl, fun ha => ?_, if_pos rfl⟩
  rw [Coords.divide, if_neg ha]
  exact congrArg _ (funext fun i => by simp [div_eq_inv_mul])

/-- Points are moved by vectors: the vector between two points moves the first one to the second one, moving back
undoes the motion, and two motions add up. -/
theorem C83_affine {n : ℕ} (p q v w : Coords n) :
    p.moveForward (vectorBetween p q) = q ∧ vectorBetween p (p.moveForward v) = v ∧
      (p.moveForward v).moveBackward v = p ∧ (p.moveBackward v).moveForward v = p ∧
      (p.moveForward v).moveForward w = p.moveForward (v.plus w) ∧
      vectorBetween p q = (vectorBetween q p).scale (-1) ∧
      (vectorBetween p q).plus (vectorBetween q w) = vectorBetween p w := by
  refine ⟨?_, ?_, ?_, ?_, ?_, ?_, ?_⟩ <;> funext i <;>
    simp only [Coords.moveForward, Coords.moveBackward, vectorBetween, Coords.plus, Coords.scale] <;> ring

/-- Two points are equal up to a tolerance if their distance is smaller; hence it does not matter which of them is
asked, and moving both points does not matter either. -/
theorem C83_equality {n : ℕ} (p q v : Coords n) (eps : ℝ) (he : 0 ≤ eps) :
    (p.isEqual q eps ↔ dist (euclid p) (euclid q) < eps) ∧ (p.isEqual q eps ↔ q.isEqual p eps) ∧
      ((p.moveForward v).isEqual (q.moveForward v) eps ↔ p.isEqual q eps) := by
  have key : ∀ a b : Coords n, a.isEqual b eps ↔ dist (euclid a) (euclid b) < eps := by
    intro a b
    have h : euclid (vectorBetween a b) = euclid b - euclid a := rfl
    rw [Coords.isEqual, squaredLength_eq, ← sq, sq_lt_sq₀ (norm_nonneg _) he, h, dist_eq_norm, norm_sub_rev]
  refine ⟨key p q, ?_, ?_⟩
  · rw [key, key, dist_comm]
  · have h : vectorBetween (p.moveForward v) (q.moveForward v) = vectorBetween p q := by
      funext i
      simp only [Coords.moveForward, vectorBetween]
      ring
    rw [Coords.isEqual, h, Coords.isEqual]

/-- Directions are made of all vectors except zero; they have unit length and the vector is a positive multiple. -/
theorem C83_direction {n : ℕ} (v : Coords n) :
    (v ≠ Coords.default n → ∃ d, directionOf v = .val d ∧ d.length = 1 ∧ directionTimes d v.length = v ∧
      0 < v.length ∧ (directionInvert d).length = 1 ∧ (directionInvert d).plus d = Coords.default n) ∧
    directionOf (Coords.default n) = .nan := by
  have h0 : (Coords.default n).length = 0 := by simp [Coords.length, Coords.squaredLength, Coords.default]
  constructor
  · intro hv
    have hp : 0 < v.length := by
      rw [length_eq, norm_pos_iff]
      intro h
      exact hv (funext fun i => by have := congrArg (fun x : EuclideanSpace ℝ (Fin n) => x i) h; simpa [Coords.default] using this)
    have hd : ∀ d : Coords n, (∀ i, d i = v i / v.length) → d.length = 1 := by
      intro d hdi
      have : d.squaredLength = v.squaredLength / v.length ^ 2 := by
        rw [Coords.squaredLength, Coords.squaredLength, Finset.sum_div]
        exact Finset.sum_congr rfl fun i _ => by rw [hdi]; field_simp
      rw [Coords.length, this]
      have h2 : v.length ^ 2 = v.squaredLength := by rw [length_eq, squaredLength_eq]
      rw [← h2, div_self (by positivity), Real.sqrt_one]
    refine ⟨fun i => v i / v.length, by rw [directionOf, Coords.divide, if_neg hp.ne'], hd _ fun i => rfl, ?_, hp, ?_, ?_⟩
    · funext i
      simp only [directionTimes, Coords.scale]
      field_simp
    · have := hd (fun i => v i / v.length) fun i => rfl
      rw [Coords.length, Coords.squaredLength] at this ⊢
      simpa only [directionInvert, neg_mul_neg, mul_neg_one] using this
    · funext i
      simp only [directionInvert, Coords.plus, Coords.default]
      ring
  · rw [directionOf, h0]
    exact if_pos rfl

/-- From a list of at least as many coordinates as dimensions, the first ones are taken.  Shorter lists leave
coordinates without a value. -/
theorem C83_list {n : ℕ} (l : List ℝ) :
    (n ≤ l.length → ∃ p, Coords.ofInitializerList n l = .val p ∧ ∀ i : Fin n, l[(i : ℕ)]? = some (p i)) ∧
    (l.length < n → Coords.ofInitializerList n l = .ub) := by
  constructor
  · intro h
    refine ⟨_, if_neg (by omega), fun i => ?_⟩
    have hi : (i : ℕ) < l.length := by omega
    simp [List.getD_eq_getElem?_getD, hi]
  · intro h
    exact if_pos h

/-- In one dimension, all vectors are parallel; the general criterion is discussed in C04. -/
theorem C83_parallel_1d (v w : Coords 1) (eps : ℝ) : v.isParallel w eps := .inl rfl

/-- In two and more dimensions, vectors are parallel, for tolerances below a right angle, exactly if neither of them is
zero and the angle between them is smaller than the tolerance. -/
theorem C83_parallel {n : ℕ} (hn : n ≠ 1) (v w : Coords n) (eps : ℝ) (he : eps < Real.pi / 2) :
    v.isParallel w eps ↔ (∃ i, v i ≠ 0) ∧ (∃ i, w i ≠ 0) ∧
      Real.arccos ((∑ i, v i * w i) / (√(∑ i, v i ^ 2) * √(∑ i, w i ^ 2))) < eps := by
  have hz : ∀ u : Coords n, u.length ≠ 0 ↔ ∃ i, u i ≠ 0 := by
    intro u
    rw [Coords.length, Coords.squaredLength, ne_eq,
      Real.sqrt_eq_zero (Finset.sum_nonneg fun i _ => mul_self_nonneg _),
      Finset.sum_eq_zero_iff_of_nonneg fun i _ => mul_self_nonneg _]
    push Not
    simp
  have hl : ∀ u : Coords n, u.length = √(∑ i, u i ^ 2) := by
    intro u
    simp only [Coords.length, Coords.squaredLength, pow_two]
  unfold Coords.isParallel
  rw [abs_of_nonneg (Real.arccos_nonneg _), hz, hz, hl, hl, div_div, Coords.scalarProduct]
  constructor
  · rintro (h | h | h)
    · exact absurd h hn
    · exact h
    · rw [abs_lt] at h; linarith [h.1, h.2, Real.pi_pos]
  · exact fun h => .inr (.inl h)

/-- The vectors (1, 0) and (2, 0) are parallel. -/
example : Coords.isParallel (n := 2) ![1, 0] ![2, 0] (1 / 2) := by
  refine (C83_parallel (by norm_num) _ _ _ (by linarith [Real.two_le_pi])).2 ⟨⟨0, by simp⟩, ⟨0, by simp⟩, ?_⟩
  simp [Fin.sum_univ_two]

/-- The vector (3, 4) has length 5, and its direction is (3/5, 4/5). -/
example : Coords.length (n := 2) ![3, 4] = 5 ∧ directionOf (n := 2) ![3, 4] = .val ![3 / 5, 4 / 5] ∧
    (![3, 4] : Coords 2) ≠ Coords.default 2 := by
  have h : Coords.length (n := 2) ![3, 4] = 5 := by
    rw [Coords.length, Coords.squaredLength, Fin.sum_univ_two]
    norm_num
    rw [show (25 : ℝ) = 5 ^ 2 by norm_num, Real.sqrt_sq (by norm_num)]
  refine ⟨h, ?_, fun e => ?_⟩
  · rw [directionOf, h, Coords.divide, if_neg (by norm_num)]
    congr 1
    funext i
    fin_cases i <;> norm_num
  · have := congrFun e 0
    simp [Coords.default] at this

example : Coords.ofInitializerList 2 [1, 2, 3] = .val ![1, 2] := by
  rw [Coords.ofInitializerList, if_neg (by decide)]
  congr 1
  funext i
  fin_cases i <;> rfl

end Props
