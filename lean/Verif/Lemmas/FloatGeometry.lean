import Verif.Lemmas.FloatError
import Verif.Model.Float.Geometry
import Verif.Spec.Euclid

/-!
# Error bounds for vectors between points in double precision
-/

namespace Verif
open Frackit Frackit.Fp

theorem fpSub_neg (a b : ℝ) : Fp.sub b a = -Fp.sub a b := by
  unfold Fp.sub
  rw [← rnd_neg, neg_sub]

theorem close_sub_sq (a b : ℝ) : Close 2 (Fp.sub b a * Fp.sub b a) ((b - a) * (b - a)) := by
  rcases le_total a b with h | h
  · have : Close 1 (Fp.sub b a) (b - a) := close_rnd (by linarith)
    exact this.mul this
  · have : Close 1 (Fp.sub a b) (a - b) := close_rnd (by linarith)
    have h2 := this.mul this
    rw [fpSub_neg, neg_mul_neg, show (b - a) * (b - a) = (a - b) * (a - b) by ring]
    exact h2

theorem close_between_sq (p q : V3) : Close 2 (vectorBetween p q).sqLen (q - p).sqLen :=
  ((close_sub_sq p.x q.x).add (close_sub_sq p.y q.y)).add (close_sub_sq p.z q.z)

theorem close_between (p q : V3) : Close 1 (vectorBetween p q).len (Spec.dist p q) := by
  rw [Spec.dist_eq_len, V3.len_sub_comm]
  exact Close.sqrt (k := 1) (close_between_sq p q)

theorem close_distPointPoint (p q : V3) : Close 4 (distPointPoint p q) (Spec.dist p q) :=
  (close_length _).trans (close_between p q)

theorem close_squaredBetween (p q : V3) : Close 5 (squaredLength (vectorBetween p q)) (Spec.dist p q ^ 2) := by
  have h := (close_squaredLength (vectorBetween p q)).trans (close_between_sq p q)
  rw [Spec.dist_eq_len, V3.len_sub_comm, V3.len_sq]
  exact h

theorem between_neg (p q : V3) : vectorBetween q p = -vectorBetween p q := by
  ext <;> simp only [vectorBetween, V3.neg_x, V3.neg_y, V3.neg_z] <;> exact fpSub_neg _ _

theorem squaredLength_neg (v : V3) : squaredLength (-v) = squaredLength v := by
  unfold squaredLength Fp.mul
  simp

theorem length_neg (v : V3) : length (-v) = length v := by
  unfold length
  rw [squaredLength_neg]

theorem err_between_x (p q : V3) : Err 1 (vectorBetween p q).x (q.x - p.x) |q.x - p.x| := (Err.refl _).rnd
theorem err_between_y (p q : V3) : Err 1 (vectorBetween p q).y (q.y - p.y) |q.y - p.y| := (Err.refl _).rnd
theorem err_between_z (p q : V3) : Err 1 (vectorBetween p q).z (q.z - p.z) |q.z - p.z| := (Err.refl _).rnd

/-- Bounds for the coordinates give a bound for the vector. -/
theorem len_sub_le_of {a b m : V3} {c : ℝ} (hc : 0 ≤ c) (hx : |a.x - b.x| ≤ c * m.x) (hy : |a.y - b.y| ≤ c * m.y)
    (hz : |a.z - b.z| ≤ c * m.z) : (a - b).len ≤ c * m.len := by
  unfold V3.len
  refine Real.sqrt_le_iff.2 ⟨mul_nonneg hc (Real.sqrt_nonneg _), ?_⟩
  rw [mul_pow, Real.sq_sqrt (V3.sqLen_nonneg m)]
  have sq : ∀ {x y : ℝ}, |x| ≤ y → x * x ≤ y * y := by
    intro x y h
    rw [← abs_mul_abs_self]
    exact mul_le_mul h h (abs_nonneg _) ((abs_nonneg _).trans h)
  have h1 := sq hx
  have h2 := sq hy
  have h3 := sq hz
  unfold V3.sqLen
  simp only [V3.sub_x, V3.sub_y, V3.sub_z]
  nlinarith

/-- The scalar product with the vector between two points. -/
theorem err_dot_between (n p q : V3) :
    Err 4 (scalarProduct n (vectorBetween p q)) (n.dot (q - p)) (n.len * (q - p).len) := by
  have m : ∀ {a w v : ℝ}, Err 1 w v |v| → Err 2 (Fp.mul a w) (a * v) (|a| * |v|) := by
    intro a w v h
    exact ((Err.refl a).mul h).rnd
  have h0 : ∀ x y, Fp.add 0 (Fp.mul x y) = Fp.mul x y := by
    intro x y
    unfold Fp.add Fp.mul
    rw [zero_add, rnd_rnd]
  have hx := m (a := n.x) (err_between_x p q)
  have hy := m (a := n.y) (err_between_y p q)
  have hz := m (a := n.z) (err_between_z p q)
  have h1 := (((hx.add hy).rnd).add (hz.mono (by norm_num : 2 ≤ 3) le_rfl)).rnd
  unfold scalarProduct
  rw [h0]
  exact h1.mono le_rfl (abs_products_le n (q - p))

/-- The computed projection of a point on a line. -/
theorem lineProjection_error (l : Line) (p : V3) :
    (lineProjection l p - (l.supp + (l.dir.dot (p - l.supp)) • l.dir)).len ≤
      (rho ^ 6 - 1) * (l.supp.len + l.dir.len * l.dir.len * (p - l.supp).len) := by
  have hs := err_dot_between l.dir l.supp p
  set s := scalarProduct l.dir (vectorBetween l.supp p)
  set e := l.dir.dot (p - l.supp)
  set k := l.dir.len * (p - l.supp).len
  have c0 : 0 ≤ rho ^ 6 - 1 := by linarith [one_le_rho_pow 6]
  have hc : ∀ a d : ℝ, |Fp.add a (Fp.mul d s) - (a + e * d)| ≤ (rho ^ 6 - 1) * (|a| + k * |d|) := by
    intro a d
    have h1 := ((Err.refl d).mul hs).rnd
    have h2 := (((Err.refl a).mono (by norm_num : 0 ≤ 5) le_rfl).add (h1.mono (by norm_num) le_rfl)).rnd
    have h3 := h2.1
    rw [show e * d = d * e by ring, show k * |d| = |d| * k by ring]
    exact h3
  have h := len_sub_le_of (a := lineProjection l p) (b := l.supp + e • l.dir) (m := absV l.supp + k • absV l.dir) c0
    (hc l.supp.x l.dir.x) (hc l.supp.y l.dir.y) (hc l.supp.z l.dir.z)
  refine h.trans (mul_le_mul_of_nonneg_left ?_ c0)
  refine (V3.len_add_le _ _).trans ?_
  have k0 : 0 ≤ k := mul_nonneg (V3.len_nonneg _) (V3.len_nonneg _)
  rw [V3.len_smul, absV_len, absV_len, abs_of_nonneg k0]
  apply le_of_eq
  ring

theorem abs_len_sub_le (a b : V3) : |a.len - b.len| ≤ (a - b).len := by
  have h1 := V3.len_add_le (a - b) b
  have h2 := V3.len_add_le (b - a) a
  rw [show a - b + b = a by ext <;> simp] at h1
  rw [show b - a + a = b by ext <;> simp, V3.len_sub_comm] at h2
  rw [abs_le]
  constructor <;> linarith

theorem close_confusion : Close 1 Fp.confusion (1 / 10 ^ 7) := close_rnd (by positivity)

theorem rho_pow_le {k : ℕ} (hk : k ≤ 15) : rho ^ k ≤ 1 + k * (1 / 2 ^ 53) * (1 + 1 / 2 ^ 47) := by
  linarith [rho_pow_sub_one_le hk]

end Verif
