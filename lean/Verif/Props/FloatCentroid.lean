import Verif.Props.FloatArea
import Verif.Model.Float.Centroid
import Verif.Spec.Fan

/-!
# C162 Volumes, centres and polygons in double precision
-/

namespace Props
open Verif Frackit Spec

/-- **Volume of a sphere.** -/
theorem C162_sphere (r : ℝ) (hr : 0 ≤ r) :
    |Fp.sphereVolume r - 4 / 3 * Real.pi * r ^ 3| ≤ 1 / 2 ^ 50 * (4 / 3 * Real.pi * r ^ 3) := by
  have h1 : Close 1 Fp.pi Real.pi := close_rnd Real.pi_pos.le
  have h0 : Close 1 (Fp.div 4 3) (4 / 3) := close_rnd (by norm_num)
  have h2 := (((((h0.mul h1).rnd.mul (Close.refl hr)).rnd.mul (Close.refl hr)).rnd).mul (Close.refl hr)).rnd.abs_sub_le
  have e : 4 / 3 * Real.pi * r ^ 3 = 4 / 3 * Real.pi * r * r * r := by ring
  rw [e]
  refine h2.trans (mul_le_mul_of_nonneg_right ?_ (by have := Real.pi_pos; positivity))
  exact (rho_pow_sub_one_le (by norm_num)).trans (by norm_num)

/-- **Volume of a cylinder.** -/
theorem C162_cylinder (r h : ℝ) (hr : 0 ≤ r) (hh : 0 ≤ h) :
    |Fp.cylinderVolume r h - Real.pi * r ^ 2 * h| ≤ 1 / 2 ^ 50 * (Real.pi * r ^ 2 * h) := by
  have h1 : Close 1 Fp.pi Real.pi := close_rnd Real.pi_pos.le
  have h2 := ((((h1.mul (Close.refl hr)).rnd.mul (Close.refl hr)).rnd).mul (Close.refl hh)).rnd.abs_sub_le
  have e : Real.pi * r ^ 2 * h = Real.pi * r * r * h := by ring
  rw [e]
  refine h2.trans (mul_le_mul_of_nonneg_right ?_ (by have := Real.pi_pos; positivity))
  exact (rho_pow_sub_one_le (by norm_num)).trans (by norm_num)

example : (0 : ℝ) ≤ 2 := by norm_num

/-- The relative error of many roundings. -/
theorem rho_pow_sub_one_le_many {k : ℕ} (hk : (k : ℝ) ≤ 2 ^ 50) : rho ^ k - 1 ≤ 1.15 * k / 2 ^ 53 := by
  have hk' : (k : ℝ) ≤ 1125899906842624 := hk.trans (by norm_num)
  have h1 : 1 + (k : ℝ) * (-unitRoundoff) ≤ (1 + -unitRoundoff) ^ k :=
    one_add_mul_le_pow (by unfold unitRoundoff; norm_num) k
  have h2 : rho ^ k = 1 / (1 + -unitRoundoff) ^ k := by rw [rho, one_div_pow, sub_eq_add_neg]
  have k0 : (0 : ℝ) ≤ k := Nat.cast_nonneg k
  have h3 : (0 : ℝ) < 1 + (k : ℝ) * (-unitRoundoff) := by
    unfold unitRoundoff; norm_num; linarith
  rw [h2]
  have h4 := one_div_le_one_div_of_le h3 h1
  refine (sub_le_sub_right h4 1).trans ?_
  rw [sub_le_iff_le_add, div_le_iff₀ h3]
  unfold unitRoundoff
  clear hk h1 h2 h3 h4
  generalize (k : ℝ) = x at *
  norm_num
  nlinarith

theorem le_rho_pow_seven : 7 / 2 ^ 53 ≤ rho ^ 7 - 1 := by
  have h : 1 + 1 / 2 ^ 53 ≤ rho := by
    rw [rho, le_div_iff₀ one_sub_pos]
    unfold unitRoundoff
    norm_num
  have h1 : 1 + ((7 : ℕ) : ℝ) * (1 / 2 ^ 53) ≤ (1 + 1 / 2 ^ 53) ^ 7 := one_add_mul_le_pow (by norm_num) 7
  have h2 : (1 + 1 / 2 ^ 53 : ℝ) ^ 7 ≤ rho ^ 7 := pow_le_pow_left₀ (by norm_num) h 7
  have := h1.trans h2
  push_cast at this
  linarith

theorem isTriangleArea_unique {p q r : V3} {S T : ℝ} (hS : IsTriangleArea p q r S) (hT : IsTriangleArea p q r T) :
    S = T := by
  have h := hS.2.trans hT.2.symm
  have : S ^ 2 = T ^ 2 := by linarith
  exact (sq_eq_sq₀ hS.1 hT.1).1 this

theorem err_triangleArea {p q r : V3} {T : ℝ} (hT : IsTriangleArea p q r T) :
    Err 7 (Fp.triangleArea p q r) T (sides p q r) ∧ 2 * T ≤ sides p q r ∧ 0 ≤ Fp.triangleArea p q r := by
  have hs : sides p q r = (q - p).len * (r - p).len := by
    rw [sides, Spec.dist_comm p q, Spec.dist_comm p r, dist_eq_len, dist_eq_len]
  have hT' := isTriangleArea_unique hT (isTriangleArea_cross p q r)
  have h1 := triangleArea_error p q r
  have h2 := cross_len_le (q - p) (r - p)
  have m0 : 0 ≤ (q - p).len * (r - p).len := mul_nonneg (V3.len_nonneg _) (V3.len_nonneg _)
  have c0 := V3.len_nonneg ((q - p).cross (r - p))
  rw [hs, hT']
  refine ⟨⟨h1.trans (mul_le_mul_of_nonneg_right (le_trans (by norm_num) le_rho_pow_seven) m0), ?_⟩, by linarith, ?_⟩
  · rw [abs_of_nonneg (by positivity)]
    linarith
  · exact rnd_nonneg (mul_nonneg (by norm_num) (close_length _).1)

theorem err_third {x y z M : ℝ} (hx : |x| ≤ M) (hy : |y| ≤ M) (hz : |z| ≤ M) :
    Err 4 (Fp.mul (Fp.div 1 3) (Fp.add (Fp.add x y) z)) ((x + y + z) / 3) M := by
  have ex := (Err.refl x).mono (le_refl 0) hx
  have ey := (Err.refl y).mono (le_refl 0) hy
  have ez := (Err.refl z).mono (Nat.zero_le 1) hz
  have h := (((close_rnd (by norm_num : (0 : ℝ) ≤ 1 / 3)).err).mul (((ex.add ey).rnd.add ez).rnd)).rnd
  have e1 : (1 : ℝ) / 3 * (x + y + z) = (x + y + z) / 3 := by ring
  have e2 : (1 : ℝ) / 3 * (M + M + M) = M := by ring
  rw [e1, e2] at h
  exact h

/-- **Centre of a triangle.**  Each coordinate differs from the mean of the coordinates of the corners by at most 2^-50
times the largest of them. -/
theorem C162_triangle (p q r : V3) (M : ℝ) (hp : |p.x| ≤ M ∧ |p.y| ≤ M ∧ |p.z| ≤ M)
    (hq : |q.x| ≤ M ∧ |q.y| ≤ M ∧ |q.z| ≤ M) (hr : |r.x| ≤ M ∧ |r.y| ≤ M ∧ |r.z| ≤ M) :
    |(Fp.triangleCenter p q r).x - (p.x + q.x + r.x) / 3| ≤ 1 / 2 ^ 50 * M ∧
    |(Fp.triangleCenter p q r).y - (p.y + q.y + r.y) / 3| ≤ 1 / 2 ^ 50 * M ∧
    |(Fp.triangleCenter p q r).z - (p.z + q.z + r.z) / 3| ≤ 1 / 2 ^ 50 * M := by
  have M0 : 0 ≤ M := (abs_nonneg _).trans hp.1
  have hr4 : rho ^ 4 - 1 ≤ 1 / 2 ^ 50 := (rho_pow_sub_one_le (by norm_num)).trans (by norm_num)
  have hm := mul_le_mul_of_nonneg_right hr4 M0
  exact ⟨(err_third hp.1 hq.1 hr.1).1.trans hm, (err_third hp.2.1 hq.2.1 hr.2.1).1.trans hm,
    (err_third hp.2.2 hq.2.2 hr.2.2).1.trans hm⟩

example : |(1 : ℝ)| ≤ 5 ∧ |(2 : ℝ)| ≤ 5 ∧ |(-3 : ℝ)| ≤ 5 := by norm_num

/-- Rounded sums. -/
theorem foldl_err {α : Type} (f g m : α → ℝ) (k : ℕ) (l : List α) (h : ∀ t ∈ l, Err k (f t) (g t) (m t)) :
    ∀ j s s' M, k ≤ j → Err j s s' M →
      Err (j + l.length) (l.foldl (fun s t => Fp.add s (f t)) s) (s' + (l.map g).sum) (M + (l.map m).sum) := by
  induction l with
  | nil => intro j s s' M _ hs; simpa using hs
  | cons t l ih =>
    intro j s s' M hj hs
    have h1 : Err (j + 1) (Fp.add s (f t)) (s' + g t) (M + m t) :=
      (hs.add ((h t (by simp)).mono hj (le_refl _))).rnd
    have h2 := ih (fun u hu => h u (by simp [hu])) (j + 1) _ _ _ (by omega) h1
    simp only [List.foldl_cons, List.map_cons, List.sum_cons, List.length_cons]
    rw [show j + (l.length + 1) = j + 1 + l.length by omega, ← add_assoc, ← add_assoc]
    exact h2

theorem err_zero (k : ℕ) : Err k 0 0 0 := ⟨by simp, by simp⟩

/-- The sum of the areas. -/
theorem err_areas (l : List (V3 × V3 × V3)) (T : V3 → V3 → V3 → ℝ) (hT : ∀ p q r, IsTriangleArea p q r (T p q r)) :
    Err (7 + l.length) (l.foldl (fun s t => Fp.add s (Fp.triangleArea t.1 t.2.1 t.2.2)) 0) (total T l) (total sides l) := by
  have := foldl_err (fun t => Fp.triangleArea t.1 t.2.1 t.2.2) (fun t => T t.1 t.2.1 t.2.2)
    (fun t => sides t.1 t.2.1 t.2.2) 7 l (fun t _ => (err_triangleArea (hT _ _ _)).1) 7 0 0 0 (le_refl _) (err_zero 7)
  simpa [total] using this

theorem total_sides_ge (l : List (V3 × V3 × V3)) (T : V3 → V3 → V3 → ℝ) (hT : ∀ p q r, IsTriangleArea p q r (T p q r)) :
    2 * total T l ≤ total sides l := by
  induction l with
  | nil => simp [total]
  | cons t l ih =>
    have := (err_triangleArea (hT t.1 t.2.1 t.2.2)).2.1
    simp only [total, List.map_cons, List.sum_cons] at ih ⊢
    linarith

/-- One coordinate of the centre. -/
theorem centroid_coordinate_error (l : List (V3 × V3 × V3)) (T : V3 → V3 → V3 → ℝ) (hT : ∀ p q r, IsTriangleArea p q r (T p q r))
    (c : V3 → ℝ) (M : ℝ) (hc : ∀ t ∈ l, |c t.1| ≤ M ∧ |c t.2.1| ≤ M ∧ |c t.2.2| ≤ M) (h0 : 0 < total T l)
    (hcond : (l.length + 13) / 2 ^ 51 * total sides l ≤ total T l) (S A : ℝ)
    (hS : S = l.foldl (fun s t => Fp.add s (Fp.mul (Fp.sub (Fp.mul (Fp.div 1 3)
      (Fp.add (Fp.add (c t.1) (c t.2.1)) (c t.2.2))) 0) (Fp.triangleArea t.1 t.2.1 t.2.2))) 0)
    (hA : A = l.foldl (fun s t => Fp.add s (Fp.triangleArea t.1 t.2.1 t.2.2)) 0) :
    0 < A ∧ |Fp.div S A - total (fun p q r => (c p + c q + c r) / 3 * T p q r) l / total T l| ≤
      (l.length + 13) / 2 ^ 51 * M * (total sides l / total T l) := by
  have hl : l ≠ [] := by rintro rfl; simp [total] at h0
  have M0 : 0 ≤ M := by
    obtain ⟨t, l', rfl⟩ := List.exists_cons_of_ne_nil hl
    exact (abs_nonneg _).trans (hc t (by simp)).1
  have e1 : Err (13 + l.length) S (total (fun p q r => (c p + c q + c r) / 3 * T p q r) l)
      (M * total sides l) := by
    have := foldl_err (fun t => Fp.mul (Fp.sub (Fp.mul (Fp.div 1 3)
      (Fp.add (Fp.add (c t.1) (c t.2.1)) (c t.2.2))) 0) (Fp.triangleArea t.1 t.2.1 t.2.2))
      (fun t => (c t.1 + c t.2.1 + c t.2.2) / 3 * T t.1 t.2.1 t.2.2) (fun t => M * sides t.1 t.2.1 t.2.2) 13 l
      (fun t ht => by
        have hh := hc t ht
        have h4 := err_third hh.1 hh.2.1 hh.2.2
        have h5 : Err 5 (Fp.sub (Fp.mul (Fp.div 1 3) (Fp.add (Fp.add (c t.1) (c t.2.1)) (c t.2.2))) 0)
            ((c t.1 + c t.2.1 + c t.2.2) / 3) M := by
          have := h4.rnd
          rw [Fp.sub, sub_zero]
          exact this
        exact (h5.mul (err_triangleArea (hT t.1 t.2.1 t.2.2)).1).rnd) 13 0 0 0 (le_refl _) (err_zero 13)
    rw [← hS] at this
    simpa [total, List.sum_map_mul_left] using this
  have e2 := (err_areas l T hT).mono (show 7 + l.length ≤ 13 + l.length by omega) (le_refl _)
  rw [← hA] at e2
  have hC : |total (fun p q r => (c p + c q + c r) / 3 * T p q r) l| ≤ M * total T l := by
    clear e1 e2 hS hA hcond h0 hl
    induction l with
    | nil => simp [total]
    | cons t l ih =>
      have i1 := ih (fun u hu => hc u (by simp [hu]))
      have hh := hc t (by simp)
      have i2 : |(c t.1 + c t.2.1 + c t.2.2) / 3 * T t.1 t.2.1 t.2.2| ≤ M * T t.1 t.2.1 t.2.2 := by
        rw [abs_mul, abs_of_nonneg (hT t.1 t.2.1 t.2.2).1]
        refine mul_le_mul_of_nonneg_right ?_ (hT _ _ _).1
        obtain ⟨⟨a1, a2⟩, ⟨b1, b2⟩, ⟨c1, c2⟩⟩ := And.imp abs_le.1 (And.imp abs_le.1 abs_le.1) hh
        rw [abs_le]
        constructor <;> linarith
      simp only [total, List.map_cons, List.sum_cons] at i1 ⊢
      rw [mul_add]
      exact (abs_add_le _ _).trans (add_le_add i2 i1)
  have hP := total_sides_ge l T hT
  set P := total sides l
  set Q := total T l
  set C := total (fun p q r => (c p + c q + c r) / 3 * T p q r) l
  set n : ℝ := (l.length : ℝ) with hn
  have n0 : 0 ≤ n := Nat.cast_nonneg _
  have P0 : 0 < P := by linarith
  have nb : n + 13 ≤ 2 ^ 50 := by
    by_contra hcon
    push Not at hcon
    have : 1 / 2 * P < (n + 13) / 2 ^ 51 * P := mul_lt_mul_of_pos_right (by norm_num at hcon ⊢; linarith) P0
    linarith
  have hk : rho ^ (13 + l.length) - 1 ≤ 1.15 * (n + 13) / 2 ^ 53 := by
    have := rho_pow_sub_one_le_many (k := 13 + l.length) (by push_cast; rw [add_comm]; exact nb)
    push_cast at this
    rw [add_comm (13 : ℝ)] at this
    exact this
  have E1 : |S - C| ≤ 1.15 * (n + 13) / 2 ^ 53 * (M * P) :=
    e1.1.trans (mul_le_mul_of_nonneg_right hk (mul_nonneg M0 P0.le))
  have E2 : |A - Q| ≤ 1.15 * (n + 13) / 2 ^ 53 * P := e2.1.trans (mul_le_mul_of_nonneg_right hk P0.le)
  -- the relative error
  obtain ⟨w, hw⟩ : ∃ w, w = (n + 13) / 2 ^ 51 * P / Q := ⟨_, rfl⟩
  have w1 : w ≤ 1 := by rw [hw, div_le_one h0]; exact hcond
  have wQ : (n + 13) / 2 ^ 51 * P = w * Q := by rw [hw]; field_simp
  have w2 : 26 / 2 ^ 51 ≤ w := by
    rw [hw, le_div_iff₀ h0]
    have : 13 / 2 ^ 51 * P ≤ (n + 13) / 2 ^ 51 * P := mul_le_mul_of_nonneg_right (by norm_num; linarith) P0.le
    norm_num at this ⊢
    linarith
  have E1' : |S - C| ≤ 0.29 * w * (M * Q) := by
    have : 1.15 * (n + 13) / 2 ^ 53 * (M * P) = 1.15 / 4 * M * ((n + 13) / 2 ^ 51 * P) := by norm_num; ring
    rw [this, wQ] at E1
    have hz : 0 ≤ w * (M * Q) := mul_nonneg (by norm_num at w2 ⊢; linarith) (mul_nonneg M0 h0.le)
    refine E1.trans ?_
    have : 1.15 / 4 * M * (w * Q) = 1.15 / 4 * (w * (M * Q)) := by ring
    rw [this, mul_assoc]
    exact mul_le_mul_of_nonneg_right (by norm_num) hz
  have E2' : |A - Q| ≤ 0.29 * w * Q := by
    have : 1.15 * (n + 13) / 2 ^ 53 * P = 1.15 / 4 * ((n + 13) / 2 ^ 51 * P) := by norm_num; ring
    rw [this, wQ] at E2
    have hz : 0 ≤ w * Q := mul_nonneg (by norm_num at w2 ⊢; linarith) h0.le
    refine E2.trans ?_
    rw [mul_assoc]
    exact mul_le_mul_of_nonneg_right (by norm_num) hz
  have w0 : 0 < w := lt_of_lt_of_le (by norm_num) w2
  have A1 : 0.71 * Q ≤ A := by
    have h3 := (abs_le.1 E2').1
    have h4 : w * Q ≤ 1 * Q := mul_le_mul_of_nonneg_right w1 h0.le
    norm_num at *
    nlinarith
  have A0 : 0 < A := lt_of_lt_of_le (by positivity) A1
  refine ⟨A0, ?_⟩
  have hR : (n + 13) / 2 ^ 51 * M * (P / Q) = w * M := by rw [hw]; ring
  rw [hR]
  have q1 : |S / A - C / Q| ≤ 0.82 * (w * M) := by
    have e : S / A - C / Q = ((S - C) * Q - C * (A - Q)) / (A * Q) := by field_simp; ring
    rw [e, abs_div, abs_of_pos (mul_pos A0 h0), div_le_iff₀ (mul_pos A0 h0)]
    calc |(S - C) * Q - C * (A - Q)| ≤ |(S - C) * Q| + |C * (A - Q)| := abs_sub _ _
      _ = |S - C| * Q + |C| * |A - Q| := by rw [abs_mul, abs_mul, abs_of_pos h0]
      _ ≤ 0.29 * w * (M * Q) * Q + M * Q * (0.29 * w * Q) :=
          add_le_add (mul_le_mul_of_nonneg_right E1' h0.le) (mul_le_mul hC E2' (abs_nonneg _) (mul_nonneg M0 h0.le))
      _ = 0.58 * (w * M * Q) * Q := by ring
      _ ≤ 0.82 * (w * M * Q) * A := by
          have : 0 ≤ w * M * Q := mul_nonneg (mul_nonneg w0.le M0) h0.le
          nlinarith
      _ = 0.82 * (w * M) * (A * Q) := by ring
  have q2 : |C / Q| ≤ M := by
    rw [abs_div, abs_of_pos h0, div_le_iff₀ h0]
    exact hC
  have q3 := rnd_error_num (S / A)
  have q4 : |S / A| ≤ 2 * M := by
    have : |S / A| ≤ |S / A - C / Q| + |C / Q| := by
      calc |S / A| = |(S / A - C / Q) + C / Q| := by ring_nf
        _ ≤ _ := abs_add_le _ _
    have : w * M ≤ 1 * M := mul_le_mul_of_nonneg_right w1 M0
    norm_num at *
    linarith
  have q5 : 26 / 2 ^ 51 * M ≤ w * M := mul_le_mul_of_nonneg_right w2 M0
  calc |Fp.div S A - C / Q| = |(Fp.rnd (S / A) - S / A) + (S / A - C / Q)| := by rw [Fp.div]; ring_nf
    _ ≤ |Fp.rnd (S / A) - S / A| + |S / A - C / Q| := abs_add_le _ _
    _ ≤ w * M := by
      generalize |Fp.rnd (S / A) - S / A| = y at *
      generalize |S / A - C / Q| = y2 at *
      generalize |S / A| = y3 at *
      norm_num at *
      linarith

theorem triangulate_eq_fan (cs : List V3) (h : 3 ≤ cs.length) : Fp.triangulate cs = fan cs := by
  match cs, h with
  | p :: q :: r :: rest, _ =>
    apply List.ext_getElem
    · simp [Fp.triangulate, fan]
    · intro i h1 h2
      rcases i with _ | i
      · simp [Fp.triangulate, fan]
      · have : i < rest.length := by simpa [fan] using h2
        simp [Fp.triangulate, fan, List.getElem_zip]
        rcases i with _ | i
        · simp [Nat.add_comm, List.getElem?_eq_getElem this]
        · rw [show 2 + (i + 1) = i + 1 + 1 + 1 by omega]
          simp [List.getElem?_eq_getElem this, List.getElem?_eq_getElem (show i < rest.length by omega)]

theorem length_fan (cs : List V3) (h : 3 ≤ cs.length) : (fan cs).length = cs.length - 2 := by
  match cs, h with
  | p :: q :: r :: rest, _ => simp [fan]

theorem fan_corners (cs : List V3) (t : V3 × V3 × V3) (ht : t ∈ fan cs) : t.1 ∈ cs ∧ t.2.1 ∈ cs ∧ t.2.2 ∈ cs := by
  match cs with
  | [] => simp [fan] at ht
  | p :: rest =>
    simp only [fan, List.mem_map] at ht
    obtain ⟨e, he, rfl⟩ := ht
    have h1 := List.of_mem_zip he
    exact ⟨by simp, by simp [h1.1], by simp [List.mem_of_mem_tail h1.2]⟩

theorem foldl_polygonStep (l : List (V3 × V3 × V3)) : ∀ s : V3 × ℝ,
    (l.foldl Fp.polygonStep s).1.x = l.foldl (fun s t => Fp.add s (Fp.mul (Fp.sub (Fp.mul (Fp.div 1 3)
      (Fp.add (Fp.add t.1.x t.2.1.x) t.2.2.x)) 0) (Fp.triangleArea t.1 t.2.1 t.2.2))) s.1.x ∧
    (l.foldl Fp.polygonStep s).1.y = l.foldl (fun s t => Fp.add s (Fp.mul (Fp.sub (Fp.mul (Fp.div 1 3)
      (Fp.add (Fp.add t.1.y t.2.1.y) t.2.2.y)) 0) (Fp.triangleArea t.1 t.2.1 t.2.2))) s.1.y ∧
    (l.foldl Fp.polygonStep s).1.z = l.foldl (fun s t => Fp.add s (Fp.mul (Fp.sub (Fp.mul (Fp.div 1 3)
      (Fp.add (Fp.add t.1.z t.2.1.z) t.2.2.z)) 0) (Fp.triangleArea t.1 t.2.1 t.2.2))) s.1.z ∧
    (l.foldl Fp.polygonStep s).2 = l.foldl (fun s t => Fp.add s (Fp.triangleArea t.1 t.2.1 t.2.2)) s.2 := by
  induction l with
  | nil => intro s; exact ⟨rfl, rfl, rfl, rfl⟩
  | cons t l ih => intro s; exact ih (Fp.polygonStep s t)

/-- **Area of a polygon.**  The computed area of a polygon with `n` corners differs from the sum of the areas of the
triangles between its first corner and the opposite edges by at most `(n + 11) 2^-52` times the sum of the products of
their sides at the first corner. -/
theorem C162_area (cs : List V3) (h3 : 3 ≤ cs.length) (hn : cs.length ≤ 2 ^ 49) (T : V3 → V3 → V3 → ℝ)
    (hT : ∀ p q r, IsTriangleArea p q r (T p q r)) : ∃ A, Fp.polygonArea cs = .val A ∧
      |A - total T (fan cs)| ≤ (cs.length + 11) / 2 ^ 52 * total sides (fan cs) := by
  refine ⟨(Fp.polygonSums cs).2, by rw [Fp.polygonArea, if_neg (by omega)], ?_⟩
  have e := err_areas (fan cs) T hT
  have h4 := (foldl_polygonStep (fan cs) (0, 0)).2.2.2
  rw [Fp.polygonSums, triangulate_eq_fan cs h3, h4]
  refine e.1.trans (mul_le_mul_of_nonneg_right ?_ e.nonneg)
  have hn' : (cs.length : ℝ) ≤ 2 ^ 49 := by exact_mod_cast hn
  rw [length_fan cs h3]
  have : ((7 + (cs.length - 2) : ℕ) : ℝ) = cs.length + 5 := by
    rw [show 7 + (cs.length - 2) = cs.length + 5 by omega]; push_cast; ring
  refine (rho_pow_sub_one_le_many (by rw [this]; refine (add_le_add_left hn' 5).trans (by norm_num))).trans ?_
  rw [this]
  have : (0 : ℝ) ≤ cs.length := Nat.cast_nonneg _
  norm_num
  linarith

/-- **Centre of a polygon.**  Let the coordinates of the `n` corners be at most `M` in modulus, and let the area `Q` of the
triangles between the first corner and the opposite edges not be tiny when compared to the products `P` of their sides.
The coordinates of the computed centre differ from those of the centroid of the triangles by at most `(n + 11) 2^-51 M P/Q`. -/
theorem C162_center (cs : List V3) (h3 : 3 ≤ cs.length) (T : V3 → V3 → V3 → ℝ)
    (hT : ∀ p q r, IsTriangleArea p q r (T p q r)) (M : ℝ) (hM : ∀ p ∈ cs, |p.x| ≤ M ∧ |p.y| ≤ M ∧ |p.z| ≤ M)
    (h0 : 0 < total T (fan cs)) (hcond : (cs.length + 11) / 2 ^ 51 * total sides (fan cs) ≤ total T (fan cs)) :
    ∃ c, Fp.polygonCenter cs = .val c ∧
      (∀ X, X = total (fun p q r => (p.x + q.x + r.x) / 3 * T p q r) (fan cs) / total T (fan cs) →
        |c.x - X| ≤ (cs.length + 11) / 2 ^ 51 * M * (total sides (fan cs) / total T (fan cs))) ∧
      (∀ Y, Y = total (fun p q r => (p.y + q.y + r.y) / 3 * T p q r) (fan cs) / total T (fan cs) →
        |c.y - Y| ≤ (cs.length + 11) / 2 ^ 51 * M * (total sides (fan cs) / total T (fan cs))) ∧
      (∀ Z, Z = total (fun p q r => (p.z + q.z + r.z) / 3 * T p q r) (fan cs) / total T (fan cs) →
        |c.z - Z| ≤ (cs.length + 11) / 2 ^ 51 * M * (total sides (fan cs) / total T (fan cs))) := by
  have hl : ((fan cs).length : ℝ) + 13 = cs.length + 11 := by
    rw [length_fan cs h3, Nat.cast_sub (by omega)]; push_cast; ring
  obtain ⟨fx, fy, fz, fa⟩ := foldl_polygonStep (fan cs) (0, 0)
  have hs : Fp.polygonSums cs = (fan cs).foldl Fp.polygonStep (0, 0) := by
    rw [Fp.polygonSums, triangulate_eq_fan cs h3]
  rw [← hs] at fx fy fz fa
  have key := fun (c : V3 → ℝ) (hc : ∀ p ∈ cs, |c p| ≤ M) => centroid_coordinate_error (fan cs) T hT c M
    (fun t ht => have := fan_corners cs t ht; ⟨hc _ this.1, hc _ this.2.1, hc _ this.2.2⟩) h0 (by rw [hl]; exact hcond)
  rw [hl] at key
  have kx := key V3.x (fun p hp => (hM p hp).1) _ _ fx fa
  have ky := key V3.y (fun p hp => (hM p hp).2.1) _ _ fy fa
  have kz := key V3.z (fun p hp => (hM p hp).2.2) _ _ fz fa
  refine ⟨_, by rw [Fp.polygonCenter, if_neg (by omega), Fp.divide, if_neg kx.1.ne'], ?_, ?_, ?_⟩
  · rintro X rfl; exact kx.2
  · rintro X rfl; exact ky.2
  · rintro X rfl; exact kz.2

/-- **Centre of a quadrilateral.**  The same for the two triangles on both sides of the diagonal from the first to the last
corner. -/
theorem C162_quadrilateral (p0 p1 p2 p3 : V3) (T : V3 → V3 → V3 → ℝ) (hT : ∀ p q r, IsTriangleArea p q r (T p q r))
    (M : ℝ) (hM : ∀ p ∈ [p0, p1, p2, p3], |p.x| ≤ M ∧ |p.y| ≤ M ∧ |p.z| ≤ M) (Q P : ℝ)
    (hQ : Q = T p0 p1 p3 + T p0 p3 p2) (hP : P = sides p0 p1 p3 + sides p0 p3 p2) (h0 : 0 < Q)
    (hcond : 15 / 2 ^ 51 * P ≤ Q) :
    ∃ c, Fp.quadCenter p0 p1 p2 p3 = .val c ∧
      |c.x - ((p0.x + p1.x + p3.x) / 3 * T p0 p1 p3 + (p0.x + p3.x + p2.x) / 3 * T p0 p3 p2) / Q| ≤
        15 / 2 ^ 51 * M * (P / Q) ∧
      |c.y - ((p0.y + p1.y + p3.y) / 3 * T p0 p1 p3 + (p0.y + p3.y + p2.y) / 3 * T p0 p3 p2) / Q| ≤
        15 / 2 ^ 51 * M * (P / Q) ∧
      |c.z - ((p0.z + p1.z + p3.z) / 3 * T p0 p1 p3 + (p0.z + p3.z + p2.z) / 3 * T p0 p3 p2) / Q| ≤
        15 / 2 ^ 51 * M * (P / Q) := by
  set l := [(p0, p1, p3), (p0, p3, p2)] with hldef
  have tQ : total T l = Q := by simp [total, l, hQ]
  have tP : total sides l = P := by simp [total, l, hP]
  have hl : ((l.length : ℝ)) + 13 = 15 := by simp [l]; norm_num
  have fa : Fp.quadArea p0 p1 p2 p3 = l.foldl (fun s t => Fp.add s (Fp.triangleArea t.1 t.2.1 t.2.2)) 0 := by
    have : Fp.add 0 (Fp.triangleArea p0 p1 p3) = Fp.triangleArea p0 p1 p3 := by
      rw [Fp.add, zero_add, Fp.triangleArea, Fp.mul, rnd_rnd]
    simp only [l, List.foldl_cons, List.foldl_nil, this]
    rfl
  have key := fun (c : V3 → ℝ) (hc : ∀ p ∈ [p0, p1, p2, p3], |c p| ≤ M) => centroid_coordinate_error l T hT c M
    (by
      intro t ht
      have h := hc
      simp only [List.mem_cons, List.not_mem_nil, or_false, forall_eq_or_imp, forall_eq] at h
      simp only [l, List.mem_cons, List.not_mem_nil, or_false] at ht
      rcases ht with rfl | rfl
      · exact ⟨h.1, h.2.1, h.2.2.2⟩
      · exact ⟨h.1, h.2.2.2, h.2.2.1⟩) (by rw [tQ]; exact h0) (by rw [hl, tP, tQ]; exact hcond)
  rw [hl, tP, tQ] at key
  have kx := key V3.x (fun p hp => (hM p hp).1) _ _ rfl fa
  have ky := key V3.y (fun p hp => (hM p hp).2.1) _ _ rfl fa
  have kz := key V3.z (fun p hp => (hM p hp).2.2) _ _ rfl fa
  refine ⟨_, by rw [Fp.quadCenter, Fp.divide, if_neg kx.1.ne'], ?_, ?_, ?_⟩
  · have := kx.2; simp only [total, l, List.map_cons, List.map_nil, List.sum_cons, List.sum_nil, add_zero] at this; exact this
  · have := ky.2; simp only [total, l, List.map_cons, List.map_nil, List.sum_cons, List.sum_nil, add_zero] at this; exact this
  · have := kz.2; simp only [total, l, List.map_cons, List.map_nil, List.sum_cons, List.sum_nil, add_zero] at this; exact this

/-- The hypotheses of `C162_center` hold for the unit square. -/
example : ∃ T : V3 → V3 → V3 → ℝ, (∀ p q r, IsTriangleArea p q r (T p q r)) ∧
    0 < total T (fan [⟨0, 0, 0⟩, ⟨1, 0, 0⟩, ⟨1, 1, 0⟩, ⟨0, 1, 0⟩]) ∧
    ((4 : ℕ) + 11) / 2 ^ 51 * total sides (fan [⟨0, 0, 0⟩, ⟨1, 0, 0⟩, ⟨1, 1, 0⟩, ⟨0, 1, 0⟩]) ≤
      total T (fan [⟨0, 0, 0⟩, ⟨1, 0, 0⟩, ⟨1, 1, 0⟩, ⟨0, 1, 0⟩]) := by
  refine ⟨_, isTriangleArea_cross, ?_⟩
  have h2 : √2 ≤ (2 : ℝ) := Real.sqrt_le_iff.2 (by norm_num)
  simp [total, fan, sides, Spec.dist, V3.len, V3.sqLen, V3.cross]
  norm_num
  linarith

end Props
