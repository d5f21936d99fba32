import Verif.Model.Geometry.Planar
import Verif.Spec.Planar
import Verif.Props.Plane
import Mathlib.Algebra.Order.BigOperators.Group.Finset

/-!
# Lemmas on planar figures
-/

namespace Lemmas
open Verif Frackit Props

theorem det_eq (n u v : V3) : Spec.det n u v = n.dot (u.cross v) := by
  simp [Spec.det, V3.dot, V3.cross]; ring

theorem turn_eq (n a b c : V3) : Spec.turn n a b c = n.dot ((b - a).cross (c - a)) := by
  unfold Spec.turn; rw [det_eq]; rfl

/-- Antisymmetric part: contribution of an edge seen from the origin. -/
theorem turn_expand (n a b p : V3) :
    Spec.turn n a b p = Spec.det n a b + Spec.det n b p - Spec.det n a p := by
  simp [Spec.turn, Spec.det]; ring

theorem turn_rotate (n a b c : V3) : Spec.turn n a b c = Spec.turn n b c a := by
  simp [Spec.turn, Spec.det]; ring

theorem turn_self_left (n a b : V3) : Spec.turn n a b a = 0 := by
  simp [Spec.turn, Spec.det]

theorem turn_self_right (n a b : V3) : Spec.turn n a b b = 0 := by
  simp [Spec.turn, Spec.det]; ring

theorem turn_neg (n a b c : V3) : Spec.turn (-n) a b c = - Spec.turn n a b c := by
  simp [Spec.turn, Spec.det]; ring

/-- In-plane vectors have a cross product along the normal. -/
theorem cross_inplane {n u v : V3} (hn : Spec.IsUnit n) (hu : n.dot u = 0) (hv : n.dot v = 0) :
    u.cross v = (n.dot (u.cross v)) • n := by
  have h1 := (Spec.isUnit_iff n).1 hn
  unfold V3.sqLen at h1
  unfold V3.dot at *
  obtain ⟨nx, ny, nz⟩ := n
  obtain ⟨ux, uy, uz⟩ := u
  obtain ⟨vx, vy, vz⟩ := v
  simp only at *
  ext <;> simp only [V3.cross, V3.smul_x, V3.smul_y, V3.smul_z]
  · linear_combination (-(uy * vz - uz * vy)) * h1 - (nz * vy - ny * vz) * hu - (ny * uz - nz * uy) * hv
  · linear_combination (-(uz * vx - ux * vz)) * h1 - (nx * vz - nz * vx) * hu - (nz * ux - nx * uz) * hv
  · linear_combination (-(ux * vy - uy * vx)) * h1 - (ny * vx - nx * vy) * hu - (nx * uy - ny * ux) * hv

theorem len_cross_inplane {n u v : V3} (hn : Spec.IsUnit n) (hu : n.dot u = 0) (hv : n.dot v = 0) :
    (u.cross v).len = |n.dot (u.cross v)| := by
  conv_lhs => rw [cross_inplane hn hu hv]
  have h1 := (Spec.isUnit_iff n).1 hn
  rw [V3.len_smul, V3.len, h1, Real.sqrt_one, mul_one]

theorem sub_inplane {n q a b : V3} (ha : Spec.OnPlane q n a) (hb : Spec.OnPlane q n b) :
    n.dot (b - a) = 0 := by
  rw [Spec.onPlane_iff] at *
  have : b - a = (b - q) - (a - q) := by module
  rw [this, V3.dot_sub, ha, hb, sub_zero]

/-- Area of a triangle with corners in a plane. -/
theorem area_inplane {n q a b c : V3} (hn : Spec.IsUnit n) (ha : Spec.OnPlane q n a)
    (hb : Spec.OnPlane q n b) (hc : Spec.OnPlane q n c) :
    (Triangle.make a b c).area = 1 / 2 * |Spec.turn n a b c| := by
  unfold Triangle.make
  simp only
  rw [len_cross_inplane hn (sub_inplane ha hb) (sub_inplane ha hc), turn_eq]
  norm_num

theorem turn_sum3 (n a b c p : V3) :
    Spec.turn n a b p + Spec.turn n b c p + Spec.turn n c a p = Spec.turn n a b c := by
  simp [Spec.turn, Spec.det]; ring

/-! ## Cyclic sums -/

/-- Cyclic sum over the edges of a polygon as computed by the loops of the code. -/
noncomputable def cyc (N : ℕ) (c : ℕ → V3) (f : V3 → V3 → ℝ) : ℝ :=
  (∑ i ∈ Finset.range (N - 1), f (c i) (c (i + 1))) + f (c (N - 1)) (c 0)

theorem cyc_turn (N : ℕ) (c : ℕ → V3) (n p : V3) :
    cyc N c (fun a b => Spec.turn n a b p) = cyc N c (fun a b => Spec.det n a b) := by
  unfold cyc
  simp only [turn_expand]
  have h : ∀ m, ∑ i ∈ Finset.range m, (Spec.det n (c i) (c (i + 1)) + Spec.det n (c (i + 1)) p
      - Spec.det n (c i) p) = (∑ i ∈ Finset.range m, Spec.det n (c i) (c (i + 1)))
        + Spec.det n (c m) p - Spec.det n (c 0) p := by
    intro m
    induction m with
    | zero => simp
    | succ k ih => rw [Finset.sum_range_succ, Finset.sum_range_succ, ih]; ring
  rw [h]; ring

/-- Edges of the specification are the index pairs of the code. -/
theorem mem_polyEdges (cs : List V3) (e : V3 × V3) (hne : cs ≠ []) :
    e ∈ Spec.polyEdges cs ↔
      (∃ i, i < cs.length - 1 ∧ e = (cs.getD i 0, cs.getD (i + 1) 0)) ∨
      e = (cs.getD (cs.length - 1) 0, cs.getD 0 0) := by
  obtain ⟨a, l, rfl⟩ := List.exists_cons_of_ne_nil hne
  have hlen : (a :: l).length = l.length + 1 := rfl
  unfold Spec.polyEdges
  simp only [List.tail_cons, List.take_succ_cons, List.take_zero]
  rw [List.mem_iff_getElem]
  constructor
  · rintro ⟨i, hi, rfl⟩
    simp only [List.length_zip, List.length_append, List.length_cons, List.length_nil] at hi
    have hi' : i < l.length + 1 := by omega
    rw [List.getElem_zip]
    by_cases h : i < l.length
    · left
      refine ⟨i, by simpa using h, ?_⟩
      have h1 : i < (a :: l).length := by simp; omega
      simp [h, List.getD_eq_getElem?_getD]
      exact (List.getElem?_eq_getElem h1).symm ▸ rfl
    · right
      have : i = l.length := by omega
      subst this
      simp [List.getD_eq_getElem?_getD]
  · rintro (⟨i, hi, rfl⟩ | rfl)
    · have hi2 : i < l.length := by simpa using hi
      refine ⟨i, by simp; omega, ?_⟩
      rw [List.getElem_zip]
      have h1 : i < (a :: l).length := by simp; omega
      simp [hi2, List.getD_eq_getElem?_getD]
      exact (List.getElem?_eq_getElem h1).symm ▸ rfl
    · refine ⟨l.length, by simp, ?_⟩
      rw [List.getElem_zip]
      simp [List.getD_eq_getElem?_getD]

theorem getD_mem {cs : List V3} {i : ℕ} (h : i < cs.length) : cs.getD i 0 ∈ cs := by
  rw [List.getD_eq_getElem?_getD, List.getElem?_eq_getElem h]
  exact List.getElem_mem h

/-! ## Expansion of in-plane vectors -/

theorem inplane_expand {n u v w : V3} (hn : Spec.IsUnit n) (hu : n.dot u = 0) (hv : n.dot v = 0)
    (hw : n.dot w = 0) :
    (n.dot (u.cross v)) • w = (n.dot (w.cross v)) • u + (n.dot (u.cross w)) • v := by
  have id1 : (n.dot (u.cross v)) • w = (w.dot (u.cross v)) • n
      + (n.dot (w.cross v)) • u + (n.dot (u.cross w)) • v := by
    ext <;> simp [V3.dot, V3.cross] <;> ring
  have id2 : w.dot (u.cross v) = 0 := by
    rw [cross_inplane hn hu hv, V3.dot_smul, V3.dot_comm w n, hw, mul_zero]
  rw [id1, id2]; module

/-- A vector orthogonal to two independent in-plane vectors is orthogonal to the whole plane. -/
theorem dot_inplane_zero {n m u v w : V3} (hn : Spec.IsUnit n) (hu : n.dot u = 0) (hv : n.dot v = 0)
    (hw : n.dot w = 0) (huv : n.dot (u.cross v) ≠ 0) (mu : m.dot u = 0) (mv : m.dot v = 0) :
    m.dot w = 0 := by
  have := congrArg (fun t => m.dot t) (inplane_expand hn hu hv hw)
  simp only [V3.dot_smul, V3.dot_add, mu, mv, mul_zero, add_zero] at this
  exact (mul_eq_zero.1 this).resolve_left huv

/-! ## Lists of edges -/

theorem polyEdges_eq (cs : List V3) (hne : cs ≠ []) :
    Spec.polyEdges cs = (List.range (cs.length - 1)).map (fun i => (cs.getD i 0, cs.getD (i + 1) 0))
      ++ [(cs.getD (cs.length - 1) 0, cs.getD 0 0)] := by
  obtain ⟨a, l, rfl⟩ := List.exists_cons_of_ne_nil hne
  show (a :: l).zip ((a :: l).tail ++ (a :: l).take 1) = _
  apply List.ext_getElem
  · simp
  · intro i h1 h2
    have hi : i < l.length + 1 := by simpa using h1
    rw [List.getElem_zip]
    by_cases h : i < l.length
    · have h3 : i < (a :: l).length := by simp; omega
      simp [h, List.getD_eq_getElem?_getD]
      exact (List.getElem?_eq_getElem h3).symm ▸ rfl
    · have : i = l.length := by omega
      subst this
      simp [List.getD_eq_getElem?_getD]

theorem sum_map_range (n : ℕ) (f : ℕ → ℝ) :
    ((List.range n).map f).sum = ∑ i ∈ Finset.range n, f i := by
  induction n with
  | zero => simp
  | succ k ih => rw [List.range_succ, Finset.sum_range_succ]; simp [ih]

theorem sum_polyEdges (cs : List V3) (hne : cs ≠ []) (f : V3 → V3 → ℝ) :
    ((Spec.polyEdges cs).map fun e => f e.1 e.2).sum = cyc cs.length (fun i => cs.getD i 0) f := by
  rw [polyEdges_eq cs hne]
  simp only [List.map_append, List.map_map, List.sum_append, List.map_cons, List.map_nil,
    List.sum_cons, List.sum_nil, add_zero]
  unfold cyc
  rw [← sum_map_range]; rfl

theorem shoelace_eq (n : V3) (cs : List V3) (hne : cs ≠ []) :
    Spec.shoelace n cs = cyc cs.length (fun i => cs.getD i 0) (fun a b => Spec.det n a b) :=
  sum_polyEdges cs hne _

/-- The cyclic sum of signed sub-triangle areas does not depend on the point. -/
theorem sum_turn_eq_shoelace (n : V3) (cs : List V3) (hne : cs ≠ []) (p : V3) :
    cyc cs.length (fun i => cs.getD i 0) (fun a b => Spec.turn n a b p) = Spec.shoelace n cs := by
  rw [cyc_turn, shoelace_eq n cs hne]

/-- The signed areas of the fan of triangles add up to the shoelace area. -/
theorem fan_eq_shoelace (n : V3) (cs : List V3) (h3 : 3 ≤ cs.length) :
    ∑ j ∈ Finset.range (cs.length - 2),
      Spec.turn n (cs.getD 0 0) (cs.getD (j + 1) 0) (cs.getD (j + 2) 0) = Spec.shoelace n cs := by
  have hne : cs ≠ [] := by rintro rfl; simp at h3
  rw [← sum_turn_eq_shoelace n cs hne (cs.getD 0 0)]
  unfold cyc
  beta_reduce
  rw [turn_self_right, add_zero]
  obtain ⟨k, hk⟩ : ∃ k, cs.length - 1 = k + 1 := ⟨cs.length - 2, by omega⟩
  have hk2 : cs.length - 2 = k := by omega
  rw [hk, hk2, Finset.sum_range_succ', turn_self_left, add_zero]
  apply Finset.sum_congr rfl
  intro j _
  rw [turn_rotate n (cs.getD 0 0)]

/-! ## Convex combinations -/

/-- A linear functional of a weighted sum. -/
theorem combo_dot (m : V3) (a : ℝ) : ∀ (w : List ℝ) (cs : List V3), w.length = cs.length →
    m.dot ⟨(List.zipWith (fun r c => r * c.x) w cs).sum,
      (List.zipWith (fun r c => r * c.y) w cs).sum,
      (List.zipWith (fun r c => r * c.z) w cs).sum⟩ - w.sum * a
      = (List.zipWith (fun r c => r * (m.dot c - a)) w cs).sum
  | [], [], _ => by simp [V3.dot]
  | r :: w, c :: cs, h => by
      have ih := combo_dot m a w cs (by simpa using h)
      simp only [List.zipWith_cons_cons, List.sum_cons]
      rw [← ih]
      simp only [V3.dot]; ring

theorem zipWith_sum_nonneg (f : V3 → ℝ) : ∀ (w : List ℝ) (cs : List V3), (∀ r ∈ w, 0 ≤ r) →
    (∀ c ∈ cs, 0 ≤ f c) → 0 ≤ (List.zipWith (fun r c => r * f c) w cs).sum
  | [], _, _, _ => by simp
  | _ :: _, [], _, _ => by simp
  | r :: w, c :: cs, hw, hc => by
      simp only [List.zipWith_cons_cons, List.sum_cons]
      have ih := zipWith_sum_nonneg f w cs (fun x hx => hw x (by simp [hx]))
        (fun x hx => hc x (by simp [hx]))
      have h1 : 0 ≤ r * f c := mul_nonneg (hw r (by simp)) (hc c (by simp))
      linarith

/-- The signed area is affine in the last point. -/
theorem turn_affine (n a b p : V3) :
    Spec.turn n a b p = (n.cross (b - a)).dot p - (n.cross (b - a)).dot a := by
  simp [Spec.turn, Spec.det, V3.dot, V3.cross]; ring

theorem hull_nonneg {m : V3} {a : ℝ} {cs : List V3} {p : V3} (h : Spec.InHull cs p)
    (hc : ∀ c ∈ cs, 0 ≤ m.dot c - a) : 0 ≤ m.dot p - a := by
  obtain ⟨w, hl, hw, hs, hx, hy, hz⟩ := h
  have e : p = ⟨(List.zipWith (fun r c => r * c.x) w cs).sum,
      (List.zipWith (fun r c => r * c.y) w cs).sum,
      (List.zipWith (fun r c => r * c.z) w cs).sum⟩ := by ext <;> assumption
  have := combo_dot m a w cs hl
  rw [hs, one_mul, ← e] at this
  rw [this]
  exact zipWith_sum_nonneg (fun c => m.dot c - a) w cs hw hc

/-- Convex combinations of the corners of a convex polygon are points of the polygon. -/
theorem hull_inPolygon {n q : V3} {cs : List V3} {p : V3} (hpl : Spec.PlanarPolygon n q cs)
    (hcv : Spec.ConvexPolygon n cs) (h : Spec.InHull cs p) : Spec.InPolygon n q cs p := by
  constructor
  · rw [Spec.onPlane_iff, V3.dot_sub]
    have h1 : 0 ≤ n.dot p - n.dot q := hull_nonneg h (fun c hc => by
      have := (Spec.onPlane_iff _ _ _).1 (hpl c hc)
      rw [V3.dot_sub] at this; linarith)
    have h2 : 0 ≤ (-n).dot p - (-n).dot q := hull_nonneg h (fun c hc => by
      have := (Spec.onPlane_iff _ _ _).1 (hpl c hc)
      rw [V3.dot_sub] at this; rw [V3.neg_dot, V3.neg_dot]; linarith)
    rw [V3.neg_dot, V3.neg_dot] at h2
    linarith
  · intro e he
    rw [turn_affine]
    exact hull_nonneg h (fun c hc => by rw [← turn_affine]; exact hcv e he c hc)

end Lemmas
