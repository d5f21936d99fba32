import Verif.Props.FloatCentroid
import Verif.Model.Float.PolygonContains

/-!
# C163 Containment in triangles and polygons in double precision
-/

namespace Props
open Verif Frackit Spec

theorem subAreas_eq (cs : List V3) (h3 : 3 ≤ cs.length) (p : V3) :
    Fp.subAreas cs p = (around cs p).foldl (fun s t => Fp.add s (Fp.triangleArea t.1 t.2.1 t.2.2)) 0 := by
  have h : around cs p = (List.range (cs.length - 1)).map (fun i => (cs.getD i 0, cs.getD (i + 1) 0, p)) ++
      [(cs.getD (cs.length - 1) 0, cs.getD 0 0, p)] := by
    apply List.ext_getElem
    · simp [around]; omega
    · intro i h1 h2
      have hi : i < cs.length := by simpa [around] using h1
      rcases lt_or_ge i (cs.length - 1) with hlt | hge
      · rw [List.getElem_append_left (by simpa using hlt)]
        simp [around, List.getElem_rotate, Nat.mod_eq_of_lt (show i + 1 < cs.length by omega), hi,
          show i + 1 < cs.length by omega]
      · have hi' : i = cs.length - 1 := by omega
        subst hi'
        rw [List.getElem_append_right (by simp)]
        simp [around, List.getElem_rotate, show cs.length - 1 + 1 = cs.length by omega, hi, show 0 < cs.length by omega]
  rw [h, List.foldl_append, List.foldl_map]
  rfl

theorem length_around (cs : List V3) (p : V3) : (around cs p).length = cs.length := by simp [around]

theorem abs_close {x y E : ℝ} (h : |x - y| ≤ E) : |x| ≤ |y| + E ∧ |y| ≤ |x| + E := by
  have h1 := abs_sub_abs_le_abs_sub x y
  have h2 := abs_sub_abs_le_abs_sub y x
  rw [abs_sub_comm y x] at h2
  constructor <;> linarith

/-- The error of the comparison of areas. -/
theorem area_difference (l l' : List (V3 × V3 × V3)) (T : V3 → V3 → V3 → ℝ) (hT : ∀ p q r, IsTriangleArea p q r (T p q r))
    (n : ℕ) (hl : l.length ≤ n) (hl' : l'.length ≤ n) (hn : n ≤ 2 ^ 49) (A B : ℝ)
    (hA : A = l.foldl (fun s t => Fp.add s (Fp.triangleArea t.1 t.2.1 t.2.2)) 0)
    (hB : B = l'.foldl (fun s t => Fp.add s (Fp.triangleArea t.1 t.2.1 t.2.2)) 0) :
    |Fp.sub A B - (total T l - total T l')| ≤ (n + 8) / 2 ^ 52 * (total sides l + total sides l') := by
  have e1 := (err_areas l T hT).mono (show 7 + l.length ≤ 7 + n by omega) (le_refl _)
  have e2 := (err_areas l' T hT).mono (show 7 + l'.length ≤ 7 + n by omega) (le_refl _)
  rw [← hA] at e1
  rw [← hB] at e2
  have e2' : Err (7 + n) (-B) (-total T l') (total sides l') := by
    refine ⟨?_, by rw [abs_neg]; exact e2.2⟩
    rw [show -B - -total T l' = -(B - total T l') by ring, abs_neg]
    exact e2.1
  have e3 := (e1.add e2').rnd
  have hs : Fp.sub A B = Fp.rnd (A + -B) := by rw [Fp.sub, sub_eq_add_neg]
  rw [hs, sub_eq_add_neg (total T l)]
  refine e3.1.trans (mul_le_mul_of_nonneg_right ?_ e3.nonneg)
  have hn' : (n : ℝ) ≤ 2 ^ 49 := by exact_mod_cast hn
  refine (rho_pow_sub_one_le_many (k := 7 + n + 1) ?_).trans ?_
  · push_cast
    have : (7 : ℝ) + 2 ^ 49 + 1 ≤ 2 ^ 50 := by norm_num
    linarith
  · have : (0 : ℝ) ≤ n := Nat.cast_nonneg _
    push_cast
    norm_num
    linarith

/-- **Polygons.**  For a polygon with `n` corners that is found to be convex, let the areas of the triangles around the point `p`
add up to the area of the polygon up to `D`.  A point found on the plane is contained if `D` is less than the squared tolerance
by more than the rounding errors, `(n + 8) 2^-52` times the sum of the products of two sides of all triangles, and `D` is at
most the squared tolerance plus these errors for points that are contained. -/
theorem C163_polygon_partial (cs : List V3) (h3 : 3 ≤ cs.length) (hn : cs.length ≤ 2 ^ 49) (T : V3 → V3 → V3 → ℝ)
    (hT : ∀ p q r, IsTriangleArea p q r (T p q r)) (p : V3) (eps D E : ℝ) (check : Bool)
    (hD : D = |total T (fan cs) - total T (around cs p)|)
    (hE : E = (cs.length + 8) / 2 ^ 52 * (total sides (fan cs) + total sides (around cs p))) :
    ∃ b, Fp.polygonContains true cs p eps check = .val b ∧
      (b → D ≤ (1 + 1 / 2 ^ 52) * eps ^ 2 + E) ∧
      (D + E < (1 - 1 / 2 ^ 52) * eps ^ 2 →
        (check = true → ∃ pl, Fp.planeOfPoints (cs.getD 0 0) (cs.getD 1 0) (cs.getD 2 0) = .val pl ∧
          Fp.planeContains pl p eps) → b) := by
  have hA : (Fp.polygonSums cs).2 = (fan cs).foldl (fun s t => Fp.add s (Fp.triangleArea t.1 t.2.1 t.2.2)) 0 := by
    rw [Fp.polygonSums, triangulate_eq_fan cs h3, (foldl_polygonStep (fan cs) (0, 0)).2.2.2]
  have key := area_difference (fan cs) (around cs p) T hT cs.length (by rw [length_fan cs h3]; omega)
    (by rw [length_around]) hn _ _ hA (subAreas_eq cs h3 p)
  rw [← hE] at key
  have hr := rnd_error_num (eps * eps)
  rw [abs_of_nonneg (mul_self_nonneg eps)] at hr
  obtain ⟨r1, r2⟩ := abs_le.1 hr
  have q0 : 0 ≤ eps * eps := mul_self_nonneg eps
  obtain ⟨k1, k2⟩ := abs_close key
  rw [← hD] at k1 k2
  have sq : eps ^ 2 = eps * eps := by ring
  rw [sq]
  refine ⟨_, rfl, ?_, ?_⟩
  · rintro ⟨-, h⟩
    change _ < Fp.rnd (eps * eps) at h
    norm_num at *
    linarith
  · intro h hpl
    refine ⟨hpl, ?_⟩
    change _ < Fp.rnd (eps * eps)
    norm_num at *
    linarith

/-- **Triangles.**  The same for triangles. -/
theorem C163_triangle (p0 p1 p2 p : V3) (T : V3 → V3 → V3 → ℝ) (hT : ∀ p q r, IsTriangleArea p q r (T p q r))
    (eps D E : ℝ) (check : Bool) (hD : D = |T p0 p1 p2 - (T p0 p1 p + T p1 p2 p + T p2 p0 p)|)
    (hE : E = 11 / 2 ^ 52 * (sides p0 p1 p2 + (sides p0 p1 p + sides p1 p2 p + sides p2 p0 p))) :
    (Fp.triangleContains p0 p1 p2 p eps check → D ≤ (1 + 1 / 2 ^ 52) * eps ^ 2 + E) ∧
    (D + E < (1 - 1 / 2 ^ 52) * eps ^ 2 → (check = true → ∃ n,
        Fp.mkDirection (Fp.crossProduct (Fp.vectorBetween p0 p1) (Fp.vectorBetween p0 p2)) = .val n ∧
        |Fp.scalarProduct (Fp.vectorBetween p0 p) n| < eps) → Fp.triangleContains p0 p1 p2 p eps check) := by
  have hA : Fp.triangleArea p0 p1 p2 =
      [(p0, p1, p2)].foldl (fun s t => Fp.add s (Fp.triangleArea t.1 t.2.1 t.2.2)) 0 := by
    simp only [List.foldl_cons, List.foldl_nil]
    rw [Fp.add, zero_add, Fp.triangleArea, Fp.mul, rnd_rnd]
  have key := area_difference [(p0, p1, p2)] [(p0, p1, p), (p1, p2, p), (p2, p0, p)] T hT 3 (by simp) (by simp) (by norm_num)
    _ _ hA rfl
  have e1 : total T [(p0, p1, p2)] = T p0 p1 p2 := by simp [total]
  have e2 : total T [(p0, p1, p), (p1, p2, p), (p2, p0, p)] = T p0 p1 p + T p1 p2 p + T p2 p0 p := by simp [total]; ring
  have e3 : total sides [(p0, p1, p2)] = sides p0 p1 p2 := by simp [total]
  have e4 : total sides [(p0, p1, p), (p1, p2, p), (p2, p0, p)] = sides p0 p1 p + sides p1 p2 p + sides p2 p0 p := by
    simp [total]; ring
  rw [e1, e2, e3, e4, show (((3 : ℕ) : ℝ) + 8) = 11 by norm_num, ← hE] at key
  have hr := rnd_error_num (eps * eps)
  rw [abs_of_nonneg (mul_self_nonneg eps)] at hr
  obtain ⟨r1, r2⟩ := abs_le.1 hr
  have q0 : 0 ≤ eps * eps := mul_self_nonneg eps
  set B := [(p0, p1, p), (p1, p2, p), (p2, p0, p)].foldl (fun s t => Fp.add s (Fp.triangleArea t.1 t.2.1 t.2.2)) 0 with hB
  obtain ⟨k1, k2⟩ := abs_close key
  rw [← hD] at k1 k2
  have sq : eps ^ 2 = eps * eps := by ring
  rw [sq]
  constructor
  · rintro ⟨-, h⟩
    change |Fp.sub (Fp.triangleArea p0 p1 p2) B| < Fp.rnd (eps * eps) at h
    norm_num at *
    linarith
  · intro h hpl
    refine ⟨hpl, ?_⟩
    change |Fp.sub (Fp.triangleArea p0 p1 p2) B| < Fp.rnd (eps * eps)
    norm_num at *
    linarith

/-- The full property: with the default tolerance, a polygon that is found to be convex contains its corners, if the areas
of the triangles between the corner and the edges add up to its area. -/
def C163_full : Prop :=
  ∀ (cs : List V3) (T : V3 → V3 → V3 → ℝ), (∀ p q r, IsTriangleArea p q r (T p q r)) → 3 ≤ cs.length →
    (∀ p ∈ cs, Fp.rnd p.x = p.x ∧ Fp.rnd p.y = p.y ∧ Fp.rnd p.z = p.z) → 0 < total T (fan cs) →
    ∀ p ∈ cs, total T (around cs p) = total T (fan cs) →
      ∃ b, Fp.polygonContainsDefault true cs p = .val b ∧ b

namespace FlatTriangle

/-- A flat triangle whose first corner is close to the middle of the opposite edge. -/
noncomputable def c1 : V3 := ⟨268435328 / 2 ^ 27, 0, 0⟩
/-- The third corner. -/
noncomputable def c2 : V3 := ⟨-(268435451 / 2 ^ 27), 134217729 / 2 ^ 37, 0⟩

theorem rnd_dyadic {x : ℝ} (m : ℤ) (k : ℕ) (h : |m| ≤ 2 ^ 53) (hx : x = m / 2 ^ k := by norm_num) : Fp.rnd x = x := by
  refine rnd_of_isDouble ⟨m, -(k : ℤ), h, ?_⟩
  rw [hx, zpow_neg, zpow_natCast, div_eq_mul_inv]

theorem rnd_w : Fp.rnd (268435328 / 2 ^ 27) = 268435328 / 2 ^ 27 := by
  exact rnd_dyadic 268435328 27 (by norm_num)
theorem rnd_a : Fp.rnd (268435451 / 2 ^ 27) = 268435451 / 2 ^ 27 := by
  exact rnd_dyadic 268435451 27 (by norm_num)
theorem rnd_h : Fp.rnd (134217729 / 2 ^ 37) = 134217729 / 2 ^ 37 := by
  exact rnd_dyadic 134217729 37 (by norm_num)
theorem rnd_b : Fp.rnd (536870779 / 2 ^ 27) = 536870779 / 2 ^ 27 := by
  exact rnd_dyadic 536870779 27 (by norm_num)
theorem rnd_half (m : ℤ) (h : |m| ≤ 2 ^ 53) : Fp.rnd (1 / 2 * (m / 2 ^ 62)) = m / 2 ^ 63 := by
  rw [show (1 : ℝ) / 2 * (m / 2 ^ 62) = m / 2 ^ 63 by ring]
  exact rnd_dyadic m 63 h rfl

theorem crossProduct_flat (a b c d : ℝ) :
    Fp.crossProduct ⟨a, b, 0⟩ ⟨c, d, 0⟩ = ⟨0, 0, Fp.rnd (Fp.rnd (a * d) - Fp.rnd (b * c))⟩ := by
  simp [Fp.crossProduct, Fp.sub, Fp.mul, rnd_zero]

theorem length_vertical (z : ℝ) : Fp.length ⟨0, 0, z⟩ = Fp.rnd √(Fp.rnd (z * z)) := by
  simp [Fp.length, Fp.squaredLength, Fp.sqrt, Fp.add, Fp.mul, rnd_zero, rnd_rnd]

theorem area_first : Fp.triangleArea 0 c1 c2 = 9007195026882528 / 2 ^ 63 := by
  have v1 : Fp.vectorBetween 0 c1 = ⟨268435328 / 2 ^ 27, 0, 0⟩ := by
    simp only [Fp.vectorBetween, Fp.sub, c1, V3.zero_x, V3.zero_y, V3.zero_z, sub_zero, rnd_zero, rnd_w]
  have v2 : Fp.vectorBetween 0 c2 = ⟨-(268435451 / 2 ^ 27), 134217729 / 2 ^ 37, 0⟩ := by
    simp only [Fp.vectorBetween, Fp.sub, c2, V3.zero_x, V3.zero_y, V3.zero_z, sub_zero, rnd_zero, rnd_neg, rnd_a, rnd_h]
  have e1 : Fp.rnd (268435328 / 2 ^ 27 * (134217729 / 2 ^ 37)) = 9007195026882528 / 2 ^ 62 :=
    rnd_eval 9007195026882528 62 (by norm_num) (by norm_num [abs_of_pos]) (by norm_num [abs_of_pos]) (by norm_num)
  have e2 : Fp.rnd ((9007195026882528 : ℝ) / 2 ^ 62) = 9007195026882528 / 2 ^ 62 := by
    exact rnd_dyadic 9007195026882528 62 (by norm_num)
  have e3 : Fp.rnd ((9007195026882528 : ℝ) / 2 ^ 62 * (9007195026882528 / 2 ^ 62)) = 9007190799026049 / 2 ^ 71 :=
    rnd_eval 9007190799026049 71 (by norm_num) (by norm_num [abs_of_pos]) (by norm_num [abs_of_pos])
      (by rw [abs_lt]; constructor <;> norm_num)
  have e4 : Fp.rnd √((9007190799026049 : ℝ) / 2 ^ 71) = 9007195026882528 / 2 ^ 62 := by
    have s1 : (9007195026882528 - 1 / 3 : ℝ) / 2 ^ 62 < √((9007190799026049 : ℝ) / 2 ^ 71) :=
      Real.lt_sqrt_of_sq_lt (by norm_num)
    have s2 : √((9007190799026049 : ℝ) / 2 ^ 71) < (9007195026882528 + 1 / 3 : ℝ) / 2 ^ 62 :=
      (Real.sqrt_lt' (by norm_num)).2 (by norm_num)
    have s0 : 0 ≤ √((9007190799026049 : ℝ) / 2 ^ 71) := Real.sqrt_nonneg _
    generalize √((9007190799026049 : ℝ) / 2 ^ 71) = r at *
    norm_num at s1 s2
    refine rnd_eval 9007195026882528 62 (by norm_num) ?_ ?_ ?_
    · rw [abs_of_nonneg s0]; norm_num; linarith
    · rw [abs_of_nonneg s0]; norm_num; linarith
    · rw [abs_lt]; norm_num; constructor <;> linarith
  rw [Fp.triangleArea, v1, v2, crossProduct_flat, e1, zero_mul, rnd_zero, sub_zero, e2, length_vertical, e3, e4, Fp.mul]
  have := rnd_half 9007195026882528 (by norm_num)
  push_cast at this
  exact this

theorem area_second : Fp.triangleArea c2 0 c1 = 9007195026882527 / 2 ^ 63 := by
  have v1 : Fp.vectorBetween c2 0 = ⟨268435451 / 2 ^ 27, -(134217729 / 2 ^ 37), 0⟩ := by
    simp only [Fp.vectorBetween, Fp.sub, c2, V3.zero_x, V3.zero_y, V3.zero_z, zero_sub, neg_neg, neg_zero, rnd_zero, rnd_neg,
      rnd_a, rnd_h]
  have v2 : Fp.vectorBetween c2 c1 = ⟨536870779 / 2 ^ 27, -(134217729 / 2 ^ 37), 0⟩ := by
    have : (268435328 : ℝ) / 2 ^ 27 - -(268435451 / 2 ^ 27) = 536870779 / 2 ^ 27 := by norm_num
    simp only [Fp.vectorBetween, Fp.sub, c2, c1, zero_sub, sub_zero, rnd_zero, rnd_neg, rnd_h, this, rnd_b]
  have e0 : Fp.rnd (268435451 / 2 ^ 27 * -(134217729 / 2 ^ 37)) = -(9007199154077695 / 2 ^ 62) := by
    rw [mul_neg, rnd_neg, rnd_eval (y := 9007199154077695 / 2 ^ 62) 9007199154077695 62 (by norm_num) (by norm_num [abs_of_pos]) (by norm_num [abs_of_pos])
      (by rw [abs_lt]; constructor <;> norm_num)]
  have e1 : Fp.rnd (-(134217729 / 2 ^ 37) * (536870779 / 2 ^ 27)) = -(9007197090480111 / 2 ^ 61) := by
    rw [neg_mul, rnd_neg, rnd_eval (y := 9007197090480111 / 2 ^ 61) 9007197090480111 61 (by norm_num) (by norm_num [abs_of_pos]) (by norm_num [abs_of_pos])
      (by rw [abs_lt]; constructor <;> norm_num)]
  have e1' : -((9007199154077695 : ℝ) / 2 ^ 62) - -(9007197090480111 / 2 ^ 61) = 9007195026882527 / 2 ^ 62 := by norm_num
  have e2 : Fp.rnd ((9007195026882527 : ℝ) / 2 ^ 62) = 9007195026882527 / 2 ^ 62 := by
    exact rnd_dyadic 9007195026882527 62 (by norm_num)
  have e3 : Fp.rnd ((9007195026882527 : ℝ) / 2 ^ 62 * (9007195026882527 / 2 ^ 62)) = 9007190799026047 / 2 ^ 71 :=
    rnd_eval 9007190799026047 71 (by norm_num) (by norm_num [abs_of_pos]) (by norm_num [abs_of_pos])
      (by rw [abs_lt]; constructor <;> norm_num)
  have e4 : Fp.rnd √((9007190799026047 : ℝ) / 2 ^ 71) = 9007195026882527 / 2 ^ 62 := by
    have s1 : (9007195026882527 - 1 / 3 : ℝ) / 2 ^ 62 < √((9007190799026047 : ℝ) / 2 ^ 71) :=
      Real.lt_sqrt_of_sq_lt (by norm_num)
    have s2 : √((9007190799026047 : ℝ) / 2 ^ 71) < (9007195026882527 + 1 / 3 : ℝ) / 2 ^ 62 :=
      (Real.sqrt_lt' (by norm_num)).2 (by norm_num)
    have s0 : 0 ≤ √((9007190799026047 : ℝ) / 2 ^ 71) := Real.sqrt_nonneg _
    generalize √((9007190799026047 : ℝ) / 2 ^ 71) = r at *
    norm_num at s1 s2
    refine rnd_eval 9007195026882527 62 (by norm_num) ?_ ?_ ?_
    · rw [abs_of_nonneg s0]; norm_num; linarith
    · rw [abs_of_nonneg s0]; norm_num; linarith
    · rw [abs_lt]; norm_num; constructor <;> linarith
  rw [Fp.triangleArea, v1, v2, crossProduct_flat, e0, e1, e1', e2, length_vertical, e3, e4, Fp.mul]
  have := rnd_half 9007195026882527 (by norm_num)
  push_cast at this
  exact this

/-- The exact areas. -/
noncomputable def exactArea (p q r : V3) : ℝ := ((q - p).cross (r - p)).len / 2

theorem exact_first : exactArea 0 c1 c2 = 268435328 / 2 ^ 27 * (134217729 / 2 ^ 37) / 2 := by
  have : ((c1 - 0).cross (c2 - 0)) = ⟨0, 0, 268435328 / 2 ^ 27 * (134217729 / 2 ^ 37)⟩ := by
    apply V3.ext <;> simp [c1, c2, V3.cross]
  rw [exactArea, this]
  simp only [V3.len, V3.sqLen, mul_zero, zero_add]
  congr 1
  rw [Real.sqrt_eq_iff_mul_self_eq_of_pos (by norm_num)]
  try ring

theorem exact_second : exactArea c2 0 c1 = 268435328 / 2 ^ 27 * (134217729 / 2 ^ 37) / 2 := by
  have : ((0 - c2).cross (c1 - c2)) = ⟨0, 0, 268435328 / 2 ^ 27 * (134217729 / 2 ^ 37)⟩ := by
    apply V3.ext <;> simp [c1, c2, V3.cross] <;> norm_num
  rw [exactArea, this]
  simp only [V3.len, V3.sqLen, mul_zero, zero_add]
  congr 1
  rw [Real.sqrt_eq_iff_mul_self_eq_of_pos (by norm_num)]
  try ring

theorem exact_degenerate (p q : V3) : exactArea p q q = 0 ∧ exactArea p q p = 0 := by
  constructor
  · have : (q - p).cross (q - p) = 0 := by apply V3.ext <;> simp [V3.cross] <;> ring
    rw [exactArea, this, V3.len_eq_zero.2 rfl, zero_div]
  · have : (q - p).cross (p - p) = 0 := by apply V3.ext <;> simp [V3.cross]
    rw [exactArea, this, V3.len_eq_zero.2 rfl, zero_div]

theorem area_degenerate (p q : V3) : Fp.triangleArea p q q = 0 ∧ Fp.triangleArea p q p = 0 := by
  constructor
  · refine triangleArea_zero _ ?_
    apply V3.ext <;> simp [Fp.crossProduct, Fp.sub, Fp.mul, mul_comm, rnd_zero]
  · refine triangleArea_zero _ ?_
    apply V3.ext <;> simp [Fp.crossProduct, Fp.vectorBetween, Fp.sub, Fp.mul, rnd_zero]

end FlatTriangle

open FlatTriangle in
/-- The full property fails: the flat triangle does not contain its second corner. -/
theorem C163_disproof : ¬ C163_full := by
  intro hfull
  have hT : ∀ p q r, IsTriangleArea p q r (exactArea p q r) := isTriangleArea_cross
  have hfan : total exactArea (fan [0, c1, c2]) = 268435328 / 2 ^ 27 * (134217729 / 2 ^ 37) / 2 := by
    simp [fan, total, exact_first]
  have haround : total exactArea (around [0, c1, c2] c1) = total exactArea (fan [0, c1, c2]) := by
    rw [hfan]
    simp [around, total, List.rotate, (exact_degenerate _ _).1, (exact_degenerate _ _).2, exact_second]
  have h0 : 0 < total exactArea (fan [0, c1, c2]) := by rw [hfan]; norm_num
  obtain ⟨b, hb, hb'⟩ := hfull [0, c1, c2] exactArea hT (by simp) (by
    intro p hp
    simp only [List.mem_cons, List.not_mem_nil, or_false] at hp
    rcases hp with rfl | rfl | rfl
    · simp [rnd_zero]
    · exact ⟨rnd_w, rnd_zero, rnd_zero⟩
    · refine ⟨?_, rnd_h, rnd_zero⟩
      change Fp.rnd (-(268435451 / 2 ^ 27)) = -(268435451 / 2 ^ 27)
      rw [rnd_neg, rnd_a]) h0 c1 (by simp) haround
  have hP : total sides (fan [0, c1, c2]) ≤ 4.1 := by
    have d1 : Spec.dist 0 c1 ≤ 2 := by
      unfold Spec.dist c1
      rw [Real.sqrt_le_iff]
      norm_num
    have d2 : Spec.dist 0 c2 ≤ 2.05 := by
      unfold Spec.dist c2
      rw [Real.sqrt_le_iff]
      norm_num
    have : total sides (fan [0, c1, c2]) = Spec.dist 0 c1 * Spec.dist 0 c2 := by simp [fan, total, sides]
    rw [this]
    have d0 : 0 ≤ Spec.dist 0 c2 := Real.sqrt_nonneg _
    have d0' : 0 ≤ Spec.dist 0 c1 := Real.sqrt_nonneg _
    refine (mul_le_mul d1 d2 d0 (by norm_num)).trans (by norm_num)
  obtain ⟨c, hc, hx, hy, hz⟩ := C162_center [0, c1, c2] (by simp) exactArea hT 2 (by
    intro p hp
    simp only [List.mem_cons, List.not_mem_nil, or_false] at hp
    rcases hp with rfl | rfl | rfl
    · simp
    · norm_num [c1, abs_of_pos]
    · norm_num [c2, abs_of_pos]) h0 (by
      rw [hfan]
      have := mul_le_mul_of_nonneg_left hP (show (0 : ℝ) ≤ (([0, c1, c2] : List V3).length + 11) / 2 ^ 51 by positivity)
      refine this.trans ?_
      norm_num)
  have hbound : (([0, c1, c2] : List V3).length + 11 : ℝ) / 2 ^ 51 * 2 *
      (total sides (fan [0, c1, c2]) / total exactArea (fan [0, c1, c2])) ≤ 1 / 10 ^ 9 := by
    have : total sides (fan [0, c1, c2]) / total exactArea (fan [0, c1, c2]) ≤ 5000 := by
      rw [div_le_iff₀ h0, hfan]
      refine hP.trans (by norm_num)
    refine (mul_le_mul_of_nonneg_left this (by positivity)).trans ?_
    norm_num
  have tx : total (fun p q r => (p.x + q.x + r.x) / 3 * exactArea p q r) (fan [0, c1, c2]) /
      total exactArea (fan [0, c1, c2]) = -(123 / 2 ^ 27) / 3 := by
    have : total (fun p q r => (p.x + q.x + r.x) / 3 * exactArea p q r) (fan [0, c1, c2]) =
        -(123 / 2 ^ 27) / 3 * exactArea 0 c1 c2 := by
      simp [fan, total]; norm_num [c1, c2]
    rw [this, exact_first, hfan, mul_div_assoc, div_self (by norm_num), mul_one]
  have ty : total (fun p q r => (p.y + q.y + r.y) / 3 * exactArea p q r) (fan [0, c1, c2]) /
      total exactArea (fan [0, c1, c2]) = 134217729 / 2 ^ 37 / 3 := by
    have : total (fun p q r => (p.y + q.y + r.y) / 3 * exactArea p q r) (fan [0, c1, c2]) =
        134217729 / 2 ^ 37 / 3 * exactArea 0 c1 c2 := by
      simp [fan, total]; norm_num [c1, c2]
    rw [this, exact_first, hfan, mul_div_assoc, div_self (by norm_num), mul_one]
  have tz : total (fun p q r => (p.z + q.z + r.z) / 3 * exactArea p q r) (fan [0, c1, c2]) /
      total exactArea (fan [0, c1, c2]) = 0 := by
    have : total (fun p q r => (p.z + q.z + r.z) / 3 * exactArea p q r) (fan [0, c1, c2]) = 0 := by
      simp [fan, total, c1, c2]
    rw [this, zero_div]
  have hx' := (hx _ tx.symm).trans hbound
  have hy' := (hy _ ty.symm).trans hbound
  have hz' := (hz _ tz.symm).trans hbound
  -- the tolerance
  have hlen : Fp.length (Fp.vectorBetween 0 c) ≤ 3.5 / 10 ^ 4 := by
    have h1 : Fp.length (Fp.vectorBetween 0 c) ≤ Spec.dist 0 c + 1 / 2 ^ 50 * Spec.dist 0 c := by
      have := (abs_le.1 (C116_distance 0 c).1).2
      rw [Fp.distPointPoint] at this
      linarith
    have h2 : Spec.dist 0 c ≤ 3.4 / 10 ^ 4 := by
      obtain ⟨x1, x2⟩ := abs_le.1 hx'
      obtain ⟨y1, y2⟩ := abs_le.1 hy'
      obtain ⟨z1, z2⟩ := abs_le.1 hz'
      norm_num at x1 x2 y1 y2 z1 z2
      unfold Spec.dist
      rw [Real.sqrt_le_iff]
      refine ⟨by norm_num, ?_⟩
      have ax : c.x ^ 2 ≤ (1 / 10 ^ 6) ^ 2 := sq_le_sq' (by norm_num; linarith) (by norm_num; linarith)
      have ay : c.y ^ 2 ≤ (3.3 / 10 ^ 4) ^ 2 := sq_le_sq' (by norm_num; linarith) (by norm_num; linarith)
      have az : c.z ^ 2 ≤ (1 / 10 ^ 6) ^ 2 := sq_le_sq' (by norm_num; linarith) (by norm_num; linarith)
      simp only [V3.zero_x, V3.zero_y, V3.zero_z]
      norm_num at ax ay az ⊢
      linarith
    norm_num at h1 h2 ⊢
    linarith
  have l0 : 0 ≤ Fp.length (Fp.vectorBetween 0 c) := (close_length _).1
  rw [Fp.polygonContainsDefault, hc] at hb
  change Outcome.val (Fp.polygonConvexContains [0, c1, c2] c1 _ true) = _ at hb
  injection hb with hb
  rw [← hb] at hb'
  have hcmp := hb'.2
  have hA : (Fp.polygonSums [0, c1, c2]).2 = 9007195026882528 / 2 ^ 63 := by
    have : (Fp.polygonSums [0, c1, c2]).2 = Fp.add 0 (Fp.triangleArea 0 c1 c2) := rfl
    rw [this, area_first, Fp.add, zero_add]
    exact rnd_dyadic 9007195026882528 63 (by norm_num)
  have hB : Fp.subAreas [0, c1, c2] c1 = 9007195026882527 / 2 ^ 63 := by
    have : Fp.subAreas [0, c1, c2] c1 = Fp.add (Fp.add (Fp.add 0 (Fp.triangleArea 0 c1 c1)) (Fp.triangleArea c1 c2 c1))
        (Fp.triangleArea c2 0 c1) := rfl
    rw [this, (area_degenerate _ _).1, (area_degenerate _ _).2, area_second]
    simp only [Fp.add, add_zero, zero_add, rnd_zero]
    exact rnd_dyadic 9007195026882527 63 (by norm_num)
  have hsub : Fp.sub ((9007195026882528 : ℝ) / 2 ^ 63) (9007195026882527 / 2 ^ 63) = 1 / 2 ^ 63 := by
    rw [Fp.sub, show (9007195026882528 : ℝ) / 2 ^ 63 - 9007195026882527 / 2 ^ 63 = 1 / 2 ^ 63 by norm_num]
    exact rnd_dyadic 1 63 (by norm_num)
  rw [hA, hB, hsub, abs_of_pos (by norm_num)] at hcmp
  have hconf := confusion_bounds.2
  have conf0 : 0 ≤ Fp.confusion := le_trans (by norm_num) confusion_bounds.1
  have m1 : Fp.confusion * Fp.length (Fp.vectorBetween 0 c) ≤ 1.001 / 10 ^ 7 * (3.5 / 10 ^ 4) :=
    mul_le_mul hconf hlen l0 (by norm_num)
  have g0 : 0 ≤ Fp.confusion * Fp.length (Fp.vectorBetween 0 c) := mul_nonneg conf0 l0
  have m2 := rnd_error_num (Fp.confusion * Fp.length (Fp.vectorBetween 0 c))
  rw [abs_of_nonneg g0] at m2
  obtain ⟨eps, heps⟩ : ∃ e, e = Fp.mul Fp.confusion (Fp.length (Fp.vectorBetween 0 c)) := ⟨_, rfl⟩
  have eps1 : eps ≤ 4 / 10 ^ 11 := by
    rw [heps, Fp.mul]
    have := (abs_le.1 m2).2
    norm_num at this m1 ⊢
    linarith
  have eps0 : 0 ≤ eps := by rw [heps]; exact rnd_nonneg g0
  change 1 / 2 ^ 63 < Fp.mul (Fp.mul Fp.confusion (Fp.length (Fp.vectorBetween 0 c)))
    (Fp.mul Fp.confusion (Fp.length (Fp.vectorBetween 0 c))) at hcmp
  rw [← heps, Fp.mul] at hcmp
  have m3 := (abs_le.1 (rnd_error_num (eps * eps))).2
  rw [abs_of_nonneg (mul_self_nonneg eps)] at m3
  have m4 : eps * eps ≤ 4 / 10 ^ 11 * (4 / 10 ^ 11) := mul_le_mul eps1 eps1 eps0 (by norm_num)
  norm_num at hcmp m3 m4
  linarith

/-- The hypotheses of `C163_triangle` for points that are contained hold for an inner point of a right triangle and the tolerance
1e-3, those of `C163_polygon_partial` for the same triangle as a polygon. -/
example : ∃ T : V3 → V3 → V3 → ℝ, (∀ p q r, IsTriangleArea p q r (T p q r)) ∧
    let p0 : V3 := ⟨0, 0, 0⟩
    let p1 : V3 := ⟨1, 0, 0⟩
    let p2 : V3 := ⟨0, 1, 0⟩
    let p : V3 := ⟨1 / 4, 1 / 4, 0⟩
    |T p0 p1 p2 - (T p0 p1 p + T p1 p2 p + T p2 p0 p)| +
      11 / 2 ^ 52 * (sides p0 p1 p2 + (sides p0 p1 p + sides p1 p2 p + sides p2 p0 p)) <
      (1 - 1 / 2 ^ 52) * (1 / 10 ^ 3) ^ 2 ∧
    fan [p0, p1, p2] = [(p0, p1, p2)] ∧ around [p0, p1, p2] p = [(p0, p1, p), (p1, p2, p), (p2, p0, p)] := by
  refine ⟨FlatTriangle.exactArea, isTriangleArea_cross, ?_, by simp [fan], by simp [around, List.rotate]⟩
  have far : ∀ a b : V3, |a.x - b.x| ≤ 1 → |a.y - b.y| ≤ 1 → |a.z - b.z| ≤ 1 → Spec.dist a b ≤ 2 := by
    intro a b h1 h2 h3
    unfold Spec.dist
    rw [Real.sqrt_le_iff]
    have := sq_le_one_iff_abs_le_one _ |>.2 h1
    have := sq_le_one_iff_abs_le_one _ |>.2 h2
    have := sq_le_one_iff_abs_le_one _ |>.2 h3
    constructor <;> linarith
  have hs : ∀ a b c : V3, Spec.dist a b ≤ 2 → Spec.dist a c ≤ 2 → sides a b c ≤ 4 := by
    intro a b c h1 h2
    exact (mul_le_mul h1 h2 (Real.sqrt_nonneg _) (by norm_num)).trans (by norm_num)
  have hlen : ∀ z : ℝ, 0 ≤ z → (⟨0, 0, z⟩ : V3).len = z := by
    intro z hz
    simp only [V3.len, V3.sqLen, mul_zero, zero_add]
    exact Real.sqrt_mul_self hz
  have t0 : FlatTriangle.exactArea ⟨0, 0, 0⟩ ⟨1, 0, 0⟩ ⟨0, 1, 0⟩ = 1 / 2 := by
    have : ((⟨1, 0, 0⟩ - ⟨0, 0, 0⟩ : V3).cross (⟨0, 1, 0⟩ - ⟨0, 0, 0⟩)) = ⟨0, 0, 1⟩ := by
      apply V3.ext <;> norm_num [V3.cross]
    rw [FlatTriangle.exactArea, this, hlen _ (by norm_num)]
  have t1 : FlatTriangle.exactArea ⟨0, 0, 0⟩ ⟨1, 0, 0⟩ ⟨1 / 4, 1 / 4, 0⟩ = 1 / 8 := by
    have : ((⟨1, 0, 0⟩ - ⟨0, 0, 0⟩ : V3).cross (⟨1 / 4, 1 / 4, 0⟩ - ⟨0, 0, 0⟩)) = ⟨0, 0, 1 / 4⟩ := by
      apply V3.ext <;> norm_num [V3.cross]
    rw [FlatTriangle.exactArea, this, hlen _ (by norm_num)]; norm_num
  have t2 : FlatTriangle.exactArea ⟨1, 0, 0⟩ ⟨0, 1, 0⟩ ⟨1 / 4, 1 / 4, 0⟩ = 1 / 4 := by
    have : ((⟨0, 1, 0⟩ - ⟨1, 0, 0⟩ : V3).cross (⟨1 / 4, 1 / 4, 0⟩ - ⟨1, 0, 0⟩)) = ⟨0, 0, 1 / 2⟩ := by
      apply V3.ext <;> norm_num [V3.cross]
    rw [FlatTriangle.exactArea, this, hlen _ (by norm_num)]; norm_num
  have t3 : FlatTriangle.exactArea ⟨0, 1, 0⟩ ⟨0, 0, 0⟩ ⟨1 / 4, 1 / 4, 0⟩ = 1 / 8 := by
    have : ((⟨0, 0, 0⟩ - ⟨0, 1, 0⟩ : V3).cross (⟨1 / 4, 1 / 4, 0⟩ - ⟨0, 1, 0⟩)) = ⟨0, 0, 1 / 4⟩ := by
      apply V3.ext <;> norm_num [V3.cross]
    rw [FlatTriangle.exactArea, this, hlen _ (by norm_num)]; norm_num
  have s0 : sides ⟨0, 0, 0⟩ ⟨1, 0, 0⟩ ⟨0, 1, 0⟩ ≤ 4 := hs _ _ _ (far _ _ (by norm_num) (by norm_num) (by norm_num)) (far _ _ (by norm_num) (by norm_num) (by norm_num))
  have s1 : sides ⟨0, 0, 0⟩ ⟨1, 0, 0⟩ ⟨1 / 4, 1 / 4, 0⟩ ≤ 4 := hs _ _ _ (far _ _ (by norm_num) (by norm_num) (by norm_num)) (far _ _ (by norm_num [abs_le]) (by norm_num [abs_le]) (by norm_num))
  have s2 : sides ⟨1, 0, 0⟩ ⟨0, 1, 0⟩ ⟨1 / 4, 1 / 4, 0⟩ ≤ 4 := hs _ _ _ (far _ _ (by norm_num) (by norm_num) (by norm_num)) (far _ _ (by norm_num [abs_le]) (by norm_num [abs_le]) (by norm_num))
  have s3 : sides ⟨0, 1, 0⟩ ⟨0, 0, 0⟩ ⟨1 / 4, 1 / 4, 0⟩ ≤ 4 := hs _ _ _ (far _ _ (by norm_num) (by norm_num) (by norm_num)) (far _ _ (by norm_num [abs_le]) (by norm_num [abs_le]) (by norm_num))
  simp only [t0, t1, t2, t3]
  norm_num at s0 s1 s2 s3 ⊢
  linarith

/-- **Rejected queries.**  Polygons that are found not to be convex raise an exception, with and without a tolerance, and so
does the construction of a polygon with less than three corners. -/
theorem C163_rejects (cs : List V3) (p : V3) (eps : ℝ) (check : Bool) :
    Fp.polygonContains false cs p eps check = .thrown "contains() query for non-convex polygons" ∧
    Fp.polygonContainsDefault false cs p check = .thrown "contains() query for non-convex polygons" ∧
    (cs.length < 3 → Fp.polygonArea cs = .thrown "At least 3 corners are required!" ∧
      Fp.polygonCenter cs = .thrown "At least 3 corners are required!") := by
  refine ⟨rfl, ?_, fun h => ⟨by rw [Fp.polygonArea, if_pos h], by rw [Fp.polygonCenter, if_pos h]⟩⟩
  unfold Fp.polygonContainsDefault
  cases Fp.polygonCenter cs <;> rfl

/-- **Degenerate polygons.**  A polygon whose corners are all the same has the area zero, its centre is NaN, and it contains no
point with the default tolerance. -/
theorem C163_degenerate (cs : List V3) (h3 : 3 ≤ cs.length) (q : V3) (hq : ∀ c ∈ cs, c = q) (p : V3) (check : Bool) :
    Fp.polygonArea cs = .val 0 ∧ Fp.polygonCenter cs = .nan ∧ Fp.polygonContainsDefault true cs p check = .val False := by
  have hs : total sides (fan cs) = 0 := by
    unfold total
    apply List.sum_eq_zero
    intro x hx
    obtain ⟨t, ht, rfl⟩ := List.mem_map.1 hx
    have h := fan_corners cs t ht
    rw [hq _ h.1, hq _ h.2.1, hq _ h.2.2]
    simp [sides, Spec.dist]
  have e := err_areas (fan cs) FlatTriangle.exactArea isTriangleArea_cross
  rw [hs] at e
  have h0 : (Fp.polygonSums cs).2 = 0 := by
    rw [Fp.polygonSums, triangulate_eq_fan cs h3, (foldl_polygonStep (fan cs) (0, 0)).2.2.2]
    have h1 := e.1
    have h2 := e.2
    rw [mul_zero] at h1
    have h3 := abs_nonpos_iff.1 h1
    have h4 := abs_nonpos_iff.1 h2
    linarith
  have hc : Fp.polygonCenter cs = .nan := by
    rw [Fp.polygonCenter, if_neg (by omega), Fp.divide, if_pos h0]
  refine ⟨by rw [Fp.polygonArea, if_neg (by omega), h0], hc, ?_⟩
  rw [Fp.polygonContainsDefault, hc]
  rfl

example : ∀ c ∈ ([⟨1, 2, 3⟩, ⟨1, 2, 3⟩, ⟨1, 2, 3⟩] : List V3), c = ⟨1, 2, 3⟩ := by simp

/-- **Defaults.**  Without the last argument, points are checked to be on the plane. -/
theorem C163_default_check (cs : List V3) (p0 p1 p2 p : V3) (eps : ℝ) (b : Prop)
    (h : Fp.polygonContains true cs p eps = .val b) (hb : b) (ht : Fp.triangleContains p0 p1 p2 p eps) :
    (∃ pl, Fp.planeOfPoints (cs.getD 0 0) (cs.getD 1 0) (cs.getD 2 0) = .val pl ∧ Fp.planeContains pl p eps) ∧
    ∃ n, Fp.mkDirection (Fp.crossProduct (Fp.vectorBetween p0 p1) (Fp.vectorBetween p0 p2)) = .val n ∧
      |Fp.scalarProduct (Fp.vectorBetween p0 p) n| < eps := by
  have h' : Fp.polygonConvexContains cs p eps true = b := Outcome.val.inj h
  rw [← h'] at hb
  exact ⟨hb.1 rfl, ht.1 rfl⟩

end Props
