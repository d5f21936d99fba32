import Verif.Lemmas.PolygonMeasure
import Verif.Props.Magnitude
import Verif.Props.Polygon
import Verif.Props.Quadrilateral

/-!
# Areas of polygons and quadrilaterals (C23)
-/

namespace Props
open Verif Frackit Lemmas MeasureTheory

theorem localPoint_of_plane {c u v n p : V3} (hf : Spec.RightHandedOrthonormal u v n) (hp : Spec.OnPlane c n p) :
    p = Spec.localPoint c u v ((p - c).dot u) ((p - c).dot v) := by
  have hv : ValidElliptical ⟨c, u, v, n, 1, 1⟩ := ⟨hf, one_pos, one_pos⟩
  exact expand_frame hv p (by rw [V3.dot_comm]; exact (Spec.onPlane_iff _ _ _).1 hp)

theorem turn_local {c u v n : V3} (hf : Spec.RightHandedOrthonormal u v n) (x0 y0 x1 y1 x2 y2 : ℝ) :
    Spec.turn n (Spec.localPoint c u v x0 y0) (Spec.localPoint c u v x1 y1) (Spec.localPoint c u v x2 y2)
      = (x1 - x0) * (y2 - y0) - (x2 - x0) * (y1 - y0) := by
  have hd := hf.2.2.2.2.2.2
  simp only [Spec.det] at hd
  simp only [Spec.turn, Spec.det, Spec.localPoint]
  linear_combination ((x1 - x0) * (y2 - y0) - (x2 - x0) * (y1 - y0)) * hd

/-- Convex combinations of three corners are convex combinations of the corners. -/
theorem hull_of_three {cs : List V3} {i j k : ℕ} (hi : i < cs.length) (hj : j < cs.length) (hk : k < cs.length)
    (hij : i < j) (hjk : j < k) {p : V3} (h : Spec.InTriangle (cs.getD i 0) (cs.getD j 0) (cs.getD k 0) p) :
    Spec.InHull cs p := by
  obtain ⟨r, s, t, hr, hs, ht, hsum, hx, hy, hz⟩ := h
  have key : ∀ (cs : List V3) (f : V3 → ℝ) (a : ℕ → ℝ),
      (List.zipWith (fun r c => r * f c) ((List.range cs.length).map a) cs).sum
        = ∑ m ∈ Finset.range cs.length, a m * f (cs.getD m 0) := by
    intro cs f a
    induction cs generalizing a with
    | nil => simp
    | cons c cs ih =>
      rw [List.length_cons, List.range_succ_eq_map, List.map_cons, List.zipWith_cons_cons, List.sum_cons,
        List.map_map, ih (a ∘ Nat.succ), Finset.sum_range_succ']
      simp [add_comm]
  set a : ℕ → ℝ := fun m => (if m = i then r else 0) + (if m = j then s else 0) + (if m = k then t else 0) with ha
  have sum3 : ∀ g : ℕ → ℝ, ∑ m ∈ Finset.range cs.length, a m * g m = r * g i + s * g j + t * g k := by
    intro g
    simp only [ha, add_mul, ite_mul, zero_mul, Finset.sum_add_distrib, Finset.sum_ite_eq', Finset.mem_range, hi, hj,
      hk, if_true]
  refine ⟨(List.range cs.length).map a, by simp, ?_, ?_, ?_, ?_, ?_⟩
  · intro w hw
    obtain ⟨m, _, rfl⟩ := List.mem_map.1 hw
    simp only [ha]
    split_ifs <;> linarith
  · rw [sum_map_range]
    have := sum3 fun _ => 1
    simp only [mul_one] at this
    rw [this]; exact hsum
  · rw [key cs V3.x a, sum3 fun m => (cs.getD m 0).x]; exact hx
  · rw [key cs V3.y a, sum3 fun m => (cs.getD m 0).y]; exact hy
  · rw [key cs V3.z a, sum3 fun m => (cs.getD m 0).z]; exact hz

/-- Area of the convex hull of the corners of a convex polygon. -/
theorem area_hull {c u v n : V3} {cs : List V3} (hf : Spec.RightHandedOrthonormal u v n)
    (hpl : Spec.PlanarPolygon n c cs) (hcv : Spec.ConvexPolygon n cs) (hnd : cs.Nodup) (h3 : 3 ≤ cs.length) :
    0 ≤ Spec.shoelace n cs ∧
    Spec.area c u v (Spec.InHull cs) = ENNReal.ofReal (1 / 2 * Spec.shoelace n cs) := by
  have hne : cs ≠ [] := by rintro rfl; simp at h3
  set x : ℕ → ℝ := fun i => (cs.getD i 0 - c).dot u with hx
  set y : ℕ → ℝ := fun i => (cs.getD i 0 - c).dot v with hy
  have hp : ∀ i < cs.length, cs.getD i 0 = Spec.localPoint c u v (x i) (y i) := fun i hi =>
    localPoint_of_plane hf (hpl _ (getD_mem hi))
  have ht : ∀ i j k, i < cs.length → j < cs.length → k < cs.length →
      Spec.turn n (cs.getD i 0) (cs.getD j 0) (cs.getD k 0) = orient x y i j k := by
    intro i j k hi hj hk
    rw [hp i hi, hp j hj, hp k hk, turn_local hf]
    rfl
  have htw : ∀ i j (w : Fin 2 → ℝ), i < cs.length → j < cs.length →
      Spec.turn n (cs.getD i 0) (cs.getD j 0) (Spec.localPoint c u v (w 0) (w 1)) = orientAt x y i j w := by
    intro i j w hi hj
    rw [hp i hi, hp j hj, turn_local hf]
    rfl
  set N := cs.length - 1 with hN
  have hc : ConvexPoints x y N := by
    refine ⟨fun i hi k hk => ?_, fun k hk => ?_⟩
    · rw [← ht i (i + 1) k (by omega) (by omega) (by omega)]
      exact hcv _ (edge_mem hne (by omega)) _ (getD_mem (by omega))
    · rw [← ht N 0 k (by omega) (by omega) (by omega)]
      exact hcv _ (last_edge_mem hne) _ (getD_mem (by omega))
  have hd : DistinctPoints x y N := by
    intro i hi j hj hxx hyy
    have : cs.getD i 0 = cs.getD j 0 := by rw [hp i (by omega), hp j (by omega), hxx, hyy]
    have gi : ∀ m (hm : m < cs.length), cs.getD m 0 = cs[m] := fun m hm => by simp [List.getD_eq_getElem?_getD, hm]
    rw [gi i (by omega), gi j (by omega)] at this
    exact (hnd.getElem_inj_iff).1 this
  have hsh : Spec.shoelace n cs = ∑ j ∈ Finset.Ico 1 N, orient x y 0 j (j + 1) := by
    rw [← fan_eq_shoelace n cs h3, Finset.sum_Ico_eq_sum_range]
    rw [show N - 1 = cs.length - 2 by omega]
    apply Finset.sum_congr rfl
    intro j hj
    have hj' := Finset.mem_range.1 hj
    rw [ht 0 (j + 1) (j + 2) (by omega) (by omega) (by omega)]
    congr 1 <;> omega
  constructor
  · rw [hsh]
    apply Finset.sum_nonneg
    intro j hj
    have hj' := Finset.mem_Ico.1 hj
    exact fan_order hc hd (j + 1) (by omega) j (by omega)
  · rw [hsh]
    unfold Spec.area
    apply volume_polygon (by omega) hc hd
    · rintro j hj1 hj2 w ⟨r, s, t, hr, hs, htt, hsum, h0, h1⟩
      show Spec.InHull cs (Spec.localPoint c u v (w 0) (w 1))
      apply hull_of_three (i := 0) (j := j) (k := j + 1) (by omega) (by omega) (by omega) (by omega) (by omega)
      rw [hp 0 (by omega), hp j (by omega), hp (j + 1) (by omega)]
      refine ⟨r, s, t, hr, hs, htt, hsum, ?_, ?_, ?_⟩
      · simp only [Spec.localPoint, h0, h1]; linear_combination -c.x * hsum
      · simp only [Spec.localPoint, h0, h1]; linear_combination -c.y * hsum
      · simp only [Spec.localPoint, h0, h1]; linear_combination -c.z * hsum
    · intro w hw
      obtain ⟨_, hin⟩ := hull_inPolygon hpl hcv hw
      refine ⟨fun i hi => ?_, ?_⟩
      · rw [← htw i (i + 1) w (by omega) (by omega)]
        exact hin _ (edge_mem hne (by omega))
      · rw [← htw N 0 w (by omega) (by omega)]
        exact hin _ (last_edge_mem hne)

/-- Convex polygons with any number of corners: the area of the set of their points. -/
theorem C23_polygon (c u v n : V3) (cs : List V3) (pg : Polygon) (hf : Spec.RightHandedOrthonormal u v n)
    (hpl : Spec.PlanarPolygon n c cs) (hcv : Spec.ConvexPolygon n cs) (hnd : cs.Nodup)
    (hm : Polygon.make cs = .val pg) :
    ∃ m, computeMagnitude (.polygon pg) = .val m ∧ 0 ≤ m ∧
      Spec.area c u v (Spec.InHull cs) = ENNReal.ofReal m := by
  obtain ⟨h3, _⟩ := polygon_make_val hm
  obtain ⟨h0, ha⟩ := area_hull hf hpl hcv hnd h3
  exact ⟨1 / 2 * Spec.shoelace n cs, C21_area n c cs pg hf.2.2.1 hpl hcv hm, by positivity, ha⟩

/-- Convex quadrilaterals: the area of the set of their points. -/
theorem C23_quadrilateral (c u v n p0 p1 p2 p3 : V3) (hf : Spec.RightHandedOrthonormal u v n)
    (hpl : Spec.PlanarPolygon n c [p0, p1, p3, p2]) (hcv : Spec.ConvexPolygon n [p0, p1, p3, p2])
    (hnd : [p0, p1, p3, p2].Nodup) :
    ∃ m, computeMagnitude (.quadrilateral (Quadrilateral.make p0 p1 p2 p3)) = .val m ∧ 0 ≤ m ∧
      Spec.area c u v (Spec.InHull [p0, p1, p3, p2]) = ENNReal.ofReal m := by
  obtain ⟨h0, ha⟩ := area_hull hf hpl hcv hnd (by simp)
  refine ⟨_, rfl, ?_, ?_⟩
  · exact add_nonneg (area_nonneg _ _ _) (area_nonneg _ _ _)
  · rw [ha, ← fan_area hf.2.2.1 hpl hcv (by simp)]
    congr 1
    simp [triangulate]
    rfl

/-- The square of `square5'` satisfies the hypotheses: its area is 4. -/
example : Spec.area ⟨0, 0, 0⟩ ⟨1, 0, 0⟩ ⟨0, 1, 0⟩ (Spec.InHull [⟨0, 0, 0⟩, ⟨2, 0, 0⟩, ⟨2, 2, 0⟩, ⟨0, 2, 0⟩])
    = ENNReal.ofReal 4 := by
  have hpl : Spec.PlanarPolygon ⟨0, 0, 1⟩ ⟨0, 0, 0⟩ [⟨0, 0, 0⟩, ⟨2, 0, 0⟩, ⟨2, 2, 0⟩, ⟨0, 2, 0⟩] :=
    planar_z0 _ (by simp)
  have hcv : Spec.ConvexPolygon ⟨0, 0, 1⟩ [⟨0, 0, 0⟩, ⟨2, 0, 0⟩, ⟨2, 2, 0⟩, ⟨0, 2, 0⟩] := by
    unfold Spec.ConvexPolygon
    simp only [Spec.polyEdges, List.tail_cons, List.take_succ_cons, List.take_zero, List.cons_append,
      List.nil_append, List.zip_cons_cons, List.zip_nil_right, List.forall_mem_cons, List.not_mem_nil, false_imp_iff,
      implies_true, and_true]
    norm_num [Spec.turn, Spec.det]
  obtain ⟨m, hm, _, ha⟩ := C23_quadrilateral ⟨0, 0, 0⟩ ⟨1, 0, 0⟩ ⟨0, 1, 0⟩ ⟨0, 0, 1⟩ ⟨0, 0, 0⟩ ⟨2, 0, 0⟩ ⟨0, 2, 0⟩
    ⟨2, 2, 0⟩ (by norm_num [Spec.RightHandedOrthonormal, Spec.IsUnit, Spec.Orthogonal, Spec.inner, Spec.det]) hpl hcv
    (by simp)
  rw [ha]
  congr 1
  have e : m = (Quadrilateral.make ⟨0, 0, 0⟩ ⟨2, 0, 0⟩ ⟨0, 2, 0⟩ ⟨2, 2, 0⟩).area := by
    simpa [computeMagnitude, AnyGeometry.dimension, computeArea] using hm.symm
  have o : ∀ p ∈ ([⟨0, 0, 0⟩, ⟨2, 0, 0⟩, ⟨2, 2, 0⟩, ⟨0, 2, 0⟩] : List V3), Spec.OnPlane ⟨0, 0, 0⟩ ⟨0, 0, 1⟩ p := hpl
  rw [e]
  unfold Quadrilateral.make
  simp only
  rw [area_inplane unit_z (o _ (by simp)) (o _ (by simp)) (o _ (by simp)),
    area_inplane unit_z (o _ (by simp)) (o _ (by simp)) (o _ (by simp))]
  norm_num [Spec.turn, Spec.det]

end Props
