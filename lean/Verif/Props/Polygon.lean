import Verif.Props.Quadrilateral
import Mathlib.Tactic.IntervalCases

/-!
# Polygons (C20, C21, C22)
-/

namespace Props
open Verif Frackit Lemmas

/-! ## Evaluation of the constructor -/

/-- Edge vector `i` of a polygon. -/
noncomputable def edgeVec (cs : List V3) (i : ℕ) : V3 :=
  cs.getD ((i + 1) % cs.length) 0 - cs.getD i 0

/-- No two consecutive corners coincide. -/
def ProperEdges (cs : List V3) : Prop :=
  ∀ i < cs.length, cs.getD i 0 ≠ cs.getD ((i + 1) % cs.length) 0

theorem edgeDir_eq {cs : List V3} (h : ProperEdges cs) {i : ℕ} (hi : i < cs.length) :
    ∃ r : ℝ, 0 < r ∧ polygonEdgeDir cs i = r • edgeVec cs i := by
  have hne : edgeVec cs i ≠ 0 := by
    intro e
    exact h i hi (sub_eq_zero.1 e).symm
  refine ⟨(edgeVec cs i).len⁻¹, inv_pos.2 (V3.len_pos.2 hne), ?_⟩
  show (edgeVec cs i).sdiv (edgeVec cs i).len = _
  rw [V3.sdiv_eq]

theorem cross_smul_smul (r s : ℝ) (a b : V3) : (r • a).cross (s • b) = (r * s) • a.cross b := by
  ext <;> simp [V3.cross] <;> ring

/-- The constructor succeeds for polygons without zero-length edges; normalising the edge vectors
does not matter for the convexity flag. -/
theorem polygon_make {cs : List V3} (h3 : 3 ≤ cs.length) (hp : ProperEdges cs) :
    ∃ pg, Polygon.make cs = .val pg ∧ pg.corners = cs ∧
      pg.plane = Plane.ofPoints (cs.getD 0 0) (cs.getD 1 0) (cs.getD 2 0) ∧
      pg.area_ = ((triangulate cs).map (·.area)).sum ∧
      pg.center = (if ((triangulate cs).map (·.area)).sum = 0 then .nan else
        .val (((triangulate cs).map fun t : Triangle => t.area • t.center).sum.sdiv
          ((triangulate cs).map (·.area)).sum)) ∧
      (pg.isConvex ↔ ∀ i, 1 ≤ i → i < cs.length - 1 →
        0 ≤ ((edgeVec cs i).cross (edgeVec cs (i + 1))).dot
          ((edgeVec cs (cs.length - 1)).cross (edgeVec cs 0))) := by
  have hno : ¬ ∃ i < cs.length, (polygonEdge cs i).source = (polygonEdge cs i).target := by
    rintro ⟨i, hi, e⟩
    exact hp i hi e
  unfold Polygon.make
  rw [if_neg (by omega)]
  unfold polygonConvexity
  rw [if_neg hno]
  refine ⟨_, rfl, rfl, rfl, rfl, rfl, ?_⟩
  simp only [not_lt]
  refine forall_congr' fun i => forall_congr' fun h1 => forall_congr' fun h2 => ?_
  obtain ⟨r1, p1, e1⟩ := edgeDir_eq hp (i := i) (by omega)
  obtain ⟨r2, p2, e2⟩ := edgeDir_eq hp (i := i + 1) (by omega)
  obtain ⟨r3, p3, e3⟩ := edgeDir_eq hp (i := cs.length - 1) (by omega)
  obtain ⟨r4, p4, e4⟩ := edgeDir_eq hp (i := 0) (by omega)
  rw [e1, e2, e3, e4, cross_smul_smul, cross_smul_smul, V3.dot_smul, V3.smul_dot, ← mul_assoc,
    mul_nonneg_iff_of_pos_left (by positivity)]

theorem polygon_make_val {cs : List V3} {pg : Polygon} (h : Polygon.make cs = .val pg) :
    3 ≤ cs.length ∧ ProperEdges cs := by
  unfold Polygon.make at h
  split at h
  · cases h
  · refine ⟨by omega, ?_⟩
    intro i hi e
    unfold polygonConvexity at h
    rw [if_pos ⟨i, hi, e⟩] at h
    cases h

/-- The edge vectors around corner `i`. -/
theorem turn_of_edges {n q : V3} {cs : List V3} (hn : Spec.IsUnit n)
    (hpl : Spec.PlanarPolygon n q cs) (h3 : 3 ≤ cs.length) {i : ℕ} (h1 : 1 ≤ i)
    (h2 : i < cs.length - 1) :
    ((edgeVec cs i).cross (edgeVec cs (i + 1))).dot
      ((edgeVec cs (cs.length - 1)).cross (edgeVec cs 0))
      = Spec.cornerTurn n cs (i + 1) * Spec.cornerTurn n cs 0 := by
  have o : ∀ j, j < cs.length → Spec.OnPlane q n (cs.getD j 0) := fun j hj => hpl _ (getD_mem hj)
  unfold edgeVec Spec.cornerTurn
  have m1 : (i + 1) % cs.length = i + 1 := Nat.mod_eq_of_lt (by omega)
  have m2 : (cs.length - 1 + 1) % cs.length = 0 := by
    rw [Nat.sub_add_cancel (by omega)]; exact Nat.mod_self _
  have m3 : (0 + 1) % cs.length = 1 := Nat.mod_eq_of_lt (by omega)
  have m4 : (i + 1 + cs.length - 1) % cs.length = i := by
    rw [show i + 1 + cs.length - 1 = i + cs.length by omega, Nat.add_mod_right]
    exact Nat.mod_eq_of_lt (by omega)
  have m5 : (0 + cs.length - 1) % cs.length = cs.length - 1 := by
    rw [Nat.zero_add]; exact Nat.mod_eq_of_lt (by omega)
  have m6 : (i + 1 + 1) % cs.length < cs.length := Nat.mod_lt _ (by omega)
  rw [m1, m2, m3, m4, m5]
  exact quad_cross hn (o _ (by omega)) (o _ (by omega)) (o _ m6) (o _ (by omega)) (o _ (by omega))
    (o _ (by omega))

/-- The flag in terms of the turns of the boundary. -/
theorem polygon_flag_iff {n q : V3} {cs : List V3} {pg : Polygon} (hn : Spec.IsUnit n)
    (hpl : Spec.PlanarPolygon n q cs) (hm : Polygon.make cs = .val pg) :
    pg.isConvex ↔ ∀ i, 2 ≤ i → i < cs.length →
      0 ≤ Spec.cornerTurn n cs 0 * Spec.cornerTurn n cs i := by
  obtain ⟨h3, hp⟩ := polygon_make_val hm
  obtain ⟨pg', hm', _, _, _, _, hflag⟩ := polygon_make h3 hp
  rw [hm] at hm'
  cases hm'
  rw [hflag]
  constructor
  · intro h i h2 hi
    obtain ⟨k, rfl⟩ : ∃ k, i = k + 1 := ⟨i - 1, by omega⟩
    have := h k (by omega) (by omega)
    rw [turn_of_edges hn hpl h3 (by omega) (by omega)] at this
    linarith
  · intro h i h1 hi
    rw [turn_of_edges hn hpl h3 h1 hi, mul_comm]
    exact h (i + 1) (by omega) (by omega)

/-! ## C20 Polygon convexity flag is correct -/

/-- The property claimed: a polygon flagged as convex turns the same way at each of its corners. -/
def PolygonConvexFlagSound : Prop :=
  ∀ (n q : V3) (cs : List V3) (pg : Polygon), Spec.IsUnit n → Spec.PlanarPolygon n q cs →
    Polygon.make cs = .val pg → pg.isConvex → Spec.TurnsSameWay n cs

theorem planar_z0 (cs : List V3) (h : ∀ c ∈ cs, c.z = 0) :
    Spec.PlanarPolygon ⟨0, 0, 1⟩ ⟨0, 0, 0⟩ cs := by
  intro c hc
  simp [Spec.OnPlane, h c hc]

theorem unit_z : Spec.IsUnit ⟨0, 0, 1⟩ := by norm_num [Spec.IsUnit, Spec.norm]

/-- The dart with its reflex corner at index 1. -/
noncomputable def dart : List V3 := [⟨0, 0, 0⟩, ⟨2, 1, 0⟩, ⟨4, 0, 0⟩, ⟨2, 4, 0⟩]

theorem dart_proper : ProperEdges dart := by
  intro i hi
  have : i < 4 := hi
  interval_cases i <;> simp [dart]

theorem dart_planar : Spec.PlanarPolygon ⟨0, 0, 1⟩ ⟨0, 0, 0⟩ dart :=
  planar_z0 _ (by simp [dart])

theorem dart_turns : Spec.cornerTurn ⟨0, 0, 1⟩ dart 0 = 6 ∧ Spec.cornerTurn ⟨0, 0, 1⟩ dart 1 = -4 ∧
    Spec.cornerTurn ⟨0, 0, 1⟩ dart 2 = 6 ∧ Spec.cornerTurn ⟨0, 0, 1⟩ dart 3 = 16 := by
  norm_num [Spec.cornerTurn, dart, Spec.turn, Spec.det]

theorem dart_flag {pg : Polygon} (hm : Polygon.make dart = .val pg) : pg.isConvex := by
  rw [polygon_flag_iff unit_z dart_planar hm]
  obtain ⟨t0, t1, t2, t3⟩ := dart_turns
  intro i h2 hi
  have hi4 : i < 4 := hi
  interval_cases i
  · rw [t0, t2]; norm_num
  · rw [t0, t3]; norm_num

/-- **The code violates the property**: corner 1 is never compared.  The concave polygon
`(0,0) (2,1) (4,0) (2,4)` is flagged as convex although it turns the other way at `(2,1)`. -/
theorem C20_disproof : ¬ PolygonConvexFlagSound := by
  intro h
  obtain ⟨pg, hm, _⟩ := polygon_make (cs := dart) (by simp [dart]) dart_proper
  obtain ⟨t0, t1, _, _⟩ := dart_turns
  rcases h _ _ dart pg unit_z dart_planar hm (dart_flag hm) with h | h
  · have := h 1 (by simp [dart]); rw [t1] at this; norm_num at this
  · have := h 0 (by simp [dart]); rw [t0] at this; norm_num at this

/-- Consequence: `area()` of that polygon returns `10` instead of raising an error, while the
enclosed area is `6`. -/
theorem C20_wrong_area : ∃ pg, Polygon.make dart = .val pg ∧ pg.area = .val 10 ∧
    1 / 2 * Spec.shoelace ⟨0, 0, 1⟩ dart = 6 := by
  obtain ⟨pg, hm, _, _, harea, _⟩ := polygon_make (cs := dart) (by simp [dart]) dart_proper
  refine ⟨pg, hm, ?_, ?_⟩
  · unfold Polygon.area
    rw [if_pos (dart_flag hm), harea]
    congr 1
    have hpl := dart_planar
    have e : triangulate dart = [Triangle.make ⟨0, 0, 0⟩ ⟨2, 1, 0⟩ ⟨4, 0, 0⟩,
        Triangle.make ⟨0, 0, 0⟩ ⟨4, 0, 0⟩ ⟨2, 4, 0⟩] := by
      simp [triangulate, dart]
    rw [e]
    simp only [List.map_cons, List.map_nil, List.sum_cons, List.sum_nil]
    rw [area_inplane unit_z (hpl _ (by simp [dart])) (hpl _ (by simp [dart]))
        (hpl _ (by simp [dart])),
      area_inplane unit_z (hpl _ (by simp [dart])) (hpl _ (by simp [dart]))
        (hpl _ (by simp [dart]))]
    norm_num [Spec.turn, Spec.det]
  · norm_num [Spec.shoelace, Spec.polyEdges, Spec.det, dart]

/-- Partial result (what the flag does decide): the flag is set exactly if no corner *other than
corner 1* turns against corner 0.  Missing: corner 1. -/
theorem C20_flag_decides_partial (n q : V3) (cs : List V3) (pg : Polygon) (hn : Spec.IsUnit n)
    (hpl : Spec.PlanarPolygon n q cs) (hm : Polygon.make cs = .val pg) :
    pg.isConvex ↔ ∀ i, 2 ≤ i → i < cs.length →
      0 ≤ Spec.cornerTurn n cs 0 * Spec.cornerTurn n cs i :=
  polygon_flag_iff hn hpl hm

/-- Consequently the claim holds for polygons whose first two corners turn the same way. -/
theorem C20_flag_sound_partial (n q : V3) (cs : List V3) (pg : Polygon) (hn : Spec.IsUnit n)
    (hpl : Spec.PlanarPolygon n q cs) (hm : Polygon.make cs = .val pg) (hc : pg.isConvex)
    (h01 : 0 ≤ Spec.cornerTurn n cs 0 * Spec.cornerTurn n cs 1)
    (h0 : Spec.cornerTurn n cs 0 ≠ 0) : Spec.TurnsSameWay n cs := by
  have hf := (polygon_flag_iff hn hpl hm).1 hc
  have hall : ∀ i < cs.length, 0 ≤ Spec.cornerTurn n cs 0 * Spec.cornerTurn n cs i := by
    intro i hi
    rcases Nat.lt_or_ge i 2 with h | h
    · interval_cases i
      · exact mul_self_nonneg _
      · exact h01
    · exact hf i h hi
  rcases lt_or_gt_of_ne h0 with h | h
  · right; intro i hi; exact (nonneg_mul_neg h).1 (hall i hi)
  · left; intro i hi; exact (mul_nonneg_iff_of_pos_left h).1 (hall i hi)

theorem cornerTurn_nonneg {n : V3} {cs : List V3} (h3 : 3 ≤ cs.length)
    (hcv : Spec.ConvexPolygon n cs) {i : ℕ} (hi : i < cs.length) : 0 ≤ Spec.cornerTurn n cs i := by
  have hne : cs ≠ [] := by rintro rfl; simp at h3
  unfold Spec.cornerTurn
  apply hcv (cs.getD ((i + cs.length - 1) % cs.length) 0, cs.getD i 0)
  · rw [mem_polyEdges _ _ hne]
    rcases Nat.eq_zero_or_pos i with rfl | hp
    · right
      rw [Nat.zero_add, Nat.mod_eq_of_lt (by omega)]
    · left
      refine ⟨i - 1, by omega, ?_⟩
      rw [show i + cs.length - 1 = (i - 1) + cs.length by omega, Nat.add_mod_right,
        Nat.mod_eq_of_lt (by omega), Nat.sub_add_cancel hp]
  · exact getD_mem (Nat.mod_lt _ (by omega))

/-- The converse direction holds: a convex polygon (with either orientation) is always flagged as
convex, whatever corner comes first. -/
theorem C20_convex_is_flagged (n q : V3) (cs : List V3) (pg : Polygon) (hn : Spec.IsUnit n)
    (hpl : Spec.PlanarPolygon n q cs) (hm : Polygon.make cs = .val pg)
    (hcv : Spec.ConvexPolygon n cs) : pg.isConvex := by
  rw [polygon_flag_iff hn hpl hm]
  obtain ⟨h3, _⟩ := polygon_make_val hm
  intro i _ hi
  exact mul_nonneg (cornerTurn_nonneg h3 hcv (by omega)) (cornerTurn_nonneg h3 hcv hi)

/-- The pentagram over the pentagon `(4,0) (1,4) (-3,2) (-3,-2) (1,-4)`. -/
noncomputable def pentagram : List V3 :=
  [⟨4, 0, 0⟩, ⟨-3, 2, 0⟩, ⟨1, -4, 0⟩, ⟨1, 4, 0⟩, ⟨-3, -2, 0⟩]

/-- Even if all corners turn the same way the polygon need not be convex: the self-intersecting
pentagram is flagged as convex. -/
theorem C20_pentagram_flagged : ∃ pg, Polygon.make pentagram = .val pg ∧ pg.isConvex ∧
    Spec.TurnsSameWay ⟨0, 0, 1⟩ pentagram ∧ ¬ Spec.ConvexPolygon ⟨0, 0, 1⟩ pentagram := by
  have hpr : ProperEdges pentagram := by
    intro i hi
    have : i < 5 := hi
    interval_cases i <;> norm_num [pentagram]
  obtain ⟨pg, hm, _⟩ := polygon_make (cs := pentagram) (by simp [pentagram]) hpr
  have hpl : Spec.PlanarPolygon ⟨0, 0, 1⟩ ⟨0, 0, 0⟩ pentagram := planar_z0 _ (by simp [pentagram])
  have t : ∀ i < 5, 0 < Spec.cornerTurn ⟨0, 0, 1⟩ pentagram i := by
    intro i hi
    interval_cases i <;> norm_num [Spec.cornerTurn, pentagram, Spec.turn, Spec.det]
  refine ⟨pg, hm, ?_, Or.inl fun i hi => (t i hi).le, ?_⟩
  · rw [polygon_flag_iff unit_z hpl hm]
    intro i _ hi
    exact mul_nonneg (t 0 (by norm_num)).le (t i hi).le
  · intro h
    have := h (⟨4, 0, 0⟩, ⟨-3, 2, 0⟩) (by simp [pentagram, Spec.polyEdges]) ⟨1, 4, 0⟩
      (by simp [pentagram])
    norm_num [Spec.turn, Spec.det] at this

/-! ## C21 Polygon triangulation, area and centre -/

/-- Construction with fewer than three corners is rejected. -/
theorem C21_few_corners_rejected (cs : List V3) (h : cs.length < 3) :
    (Polygon.make cs).isThrown := by
  unfold Polygon.make
  rw [if_pos h]; trivial

/-- The fan triangulation of `n ≥ 3` corners has `n - 2` triangles; triangle `i` has the corners
`0`, `i + 1` and `i + 2` of the polygon. -/
theorem C21_triangulation (cs : List V3) (h3 : 3 ≤ cs.length) :
    (triangulate cs).length = cs.length - 2 ∧
    ∀ i < cs.length - 2, ∃ t, (triangulate cs)[i]? = some t ∧
      some t.c0 = cs[0]? ∧ some t.c1 = cs[i + 1]? ∧ some t.c2 = cs[i + 2]? := by
  have g : ∀ j < cs.length, some (cs.getD j 0) = cs[j]? := by
    intro j hj
    rw [List.getD_eq_getElem?_getD, List.getElem?_eq_getElem hj]; rfl
  constructor
  · simp only [triangulate, List.length_cons, List.length_map, List.length_range']; omega
  · intro i hi
    rcases Nat.eq_zero_or_pos i with rfl | hp
    · exact ⟨_, rfl, g 0 (by omega), g 1 (by omega), g 2 (by omega)⟩
    · refine ⟨Triangle.make (cs.getD 0 0) (cs.getD (i + 1) 0) (cs.getD (i + 2) 0), ?_,
        g 0 (by omega), g (i + 1) (by omega), g (i + 2) (by omega)⟩
      obtain ⟨k, rfl⟩ : ∃ k, i = k + 1 := ⟨i - 1, by omega⟩
      unfold triangulate
      rw [List.getElem?_cons_succ, List.getElem?_map, List.getElem?_range' (by omega)]
      simp only [Option.map_some, one_mul]
      congr 2 <;> congr 1 <;> omega

/-- The list of fan triangles, uniformly indexed. -/
theorem triangulate_eq (cs : List V3) (h3 : 3 ≤ cs.length) :
    triangulate cs = (List.range (cs.length - 2)).map fun j =>
      Triangle.make (cs.getD 0 0) (cs.getD (j + 1) 0) (cs.getD (j + 2) 0) := by
  unfold triangulate
  rw [show cs.length - 2 = (cs.length - 1 - 2) + 1 by omega, List.range_succ_eq_map,
    List.range'_eq_map_range]
  simp only [List.map_cons, List.map_map]
  congr 1
  apply List.map_congr_left
  intro j _
  simp only [Function.comp, Nat.succ_eq_add_one]
  congr 2 <;> omega

theorem fan_turn_nonneg {n : V3} {cs : List V3} (h3 : 3 ≤ cs.length)
    (hcv : Spec.ConvexPolygon n cs) {j : ℕ} (hj : j < cs.length - 2) :
    0 ≤ Spec.turn n (cs.getD 0 0) (cs.getD (j + 1) 0) (cs.getD (j + 2) 0) := by
  have hne : cs ≠ [] := by rintro rfl; simp at h3
  rw [turn_rotate]
  apply hcv (cs.getD (j + 1) 0, cs.getD (j + 2) 0)
  · rw [mem_polyEdges _ _ hne]
    exact Or.inl ⟨j + 1, by omega, rfl⟩
  · exact getD_mem (by omega)

theorem fan_area {n q : V3} {cs : List V3} (hn : Spec.IsUnit n) (hpl : Spec.PlanarPolygon n q cs)
    (hcv : Spec.ConvexPolygon n cs) (h3 : 3 ≤ cs.length) :
    ((triangulate cs).map (·.area)).sum = 1 / 2 * Spec.shoelace n cs := by
  rw [triangulate_eq cs h3, List.map_map, sum_map_range, ← fan_eq_shoelace n cs h3, Finset.mul_sum]
  apply Finset.sum_congr rfl
  intro j hj
  have hj' := Finset.mem_range.1 hj
  simp only [Function.comp]
  rw [area_inplane hn (hpl _ (getD_mem (by omega))) (hpl _ (getD_mem (by omega)))
    (hpl _ (getD_mem (by omega))), abs_of_nonneg (fan_turn_nonneg h3 hcv hj')]

/-- For a convex planar polygon with any number of corners, `area()` returns the shoelace area. -/
theorem C21_area (n q : V3) (cs : List V3) (pg : Polygon) (hn : Spec.IsUnit n)
    (hpl : Spec.PlanarPolygon n q cs) (hcv : Spec.ConvexPolygon n cs)
    (hm : Polygon.make cs = .val pg) :
    pg.area = .val (1 / 2 * Spec.shoelace n cs) := by
  obtain ⟨h3, hp⟩ := polygon_make_val hm
  obtain ⟨pg', hm', _, _, harea, _, _⟩ := polygon_make h3 hp
  rw [hm] at hm'
  cases hm'
  unfold Polygon.area
  rw [if_pos (C20_convex_is_flagged n q cs pg hn hpl hm hcv), harea, fan_area hn hpl hcv h3]

theorem sum_dot (m : V3) (l : List V3) : m.dot l.sum = (l.map fun v => m.dot v).sum := by
  induction l with
  | nil => simp [V3.dot]
  | cons a l ih => rw [List.sum_cons, V3.dot_add, ih]; simp

theorem area_nonneg (a b c : V3) : 0 ≤ (Triangle.make a b c).area := by
  show 0 ≤ 0.5 * _
  have := V3.len_nonneg ((b - a).cross (c - a))
  positivity

/-- Half spaces containing all corners contain the weighted centre. -/
theorem centre_halfspace {m : V3} {a : ℝ} {cs : List V3} (h3 : 3 ≤ cs.length)
    (hc : ∀ c ∈ cs, 0 ≤ m.dot c - a) (hA : 0 < ((triangulate cs).map (·.area)).sum) :
    0 ≤ m.dot (((triangulate cs).map fun t : Triangle => t.area • t.center).sum.sdiv
      ((triangulate cs).map (·.area)).sum) - a := by
  set A := ((triangulate cs).map (·.area)).sum with hAdef
  have hkey : 0 ≤ m.dot ((triangulate cs).map fun t : Triangle => t.area • t.center).sum - A * a := by
    rw [hAdef, sum_dot, triangulate_eq cs h3, List.map_map, List.map_map, List.map_map,
      sum_map_range, sum_map_range, Finset.sum_mul, ← Finset.sum_sub_distrib]
    apply Finset.sum_nonneg
    intro j hj
    have hj' := Finset.mem_range.1 hj
    simp only [Function.comp, V3.dot_smul]
    rw [← mul_sub]
    apply mul_nonneg (area_nonneg _ _ _)
    have c0 := hc _ (getD_mem (cs := cs) (i := 0) (by omega))
    have c1 := hc _ (getD_mem (cs := cs) (i := j + 1) (by omega))
    have c2 := hc _ (getD_mem (cs := cs) (i := j + 2) (by omega))
    have : m.dot (Triangle.make (cs.getD 0 0) (cs.getD (j + 1) 0) (cs.getD (j + 2) 0)).center
        = 1 / 3 * (m.dot (cs.getD 0 0) + m.dot (cs.getD (j + 1) 0) + m.dot (cs.getD (j + 2) 0)) := by
      simp only [Triangle.make, V3.dot]; ring
    rw [this]; linarith
  rw [V3.sdiv_eq, V3.dot_smul]
  have : A⁻¹ * m.dot ((triangulate cs).map fun t : Triangle => t.area • t.center).sum - a
      = A⁻¹ * (m.dot ((triangulate cs).map fun t : Triangle => t.area • t.center).sum - A * a) := by
    field_simp
  rw [this]
  exact mul_nonneg (inv_nonneg.2 hA.le) hkey

/-- For a convex planar polygon of non-zero area the centre is valid and lies within the polygon. -/
theorem C21_centre_within (n q : V3) (cs : List V3) (pg : Polygon) (hn : Spec.IsUnit n)
    (hpl : Spec.PlanarPolygon n q cs) (hcv : Spec.ConvexPolygon n cs)
    (hA : Spec.shoelace n cs ≠ 0) (hm : Polygon.make cs = .val pg) :
    ∃ c, pg.center = .val c ∧ Spec.InPolygon n q cs c := by
  obtain ⟨h3, hp⟩ := polygon_make_val hm
  obtain ⟨pg', hm', _, _, harea, hcen, _⟩ := polygon_make h3 hp
  rw [hm] at hm'
  cases hm'
  have hfa := fan_area hn hpl hcv h3
  have hge : 0 ≤ ((triangulate cs).map (·.area)).sum := by
    rw [triangulate_eq cs h3, List.map_map, sum_map_range]
    exact Finset.sum_nonneg fun j _ => area_nonneg _ _ _
  have hne : ((triangulate cs).map (·.area)).sum ≠ 0 := by
    rw [hfa]; simpa using hA
  have hpos := lt_of_le_of_ne hge hne.symm
  refine ⟨_, by rw [hcen, if_neg hne], ?_, ?_⟩
  · rw [Spec.onPlane_iff, V3.dot_sub]
    have h1 := centre_halfspace (m := n) (a := n.dot q) h3 (fun c hc => by
      have := (Spec.onPlane_iff _ _ _).1 (hpl c hc)
      rw [V3.dot_sub] at this; linarith) hpos
    have h2 := centre_halfspace (m := -n) (a := -n.dot q) h3 (fun c hc => by
      have := (Spec.onPlane_iff _ _ _).1 (hpl c hc)
      rw [V3.dot_sub] at this; rw [V3.neg_dot]; linarith) hpos
    rw [V3.neg_dot] at h2
    linarith
  · intro e he
    rw [turn_affine]
    exact centre_halfspace h3 (fun c hc => by rw [← turn_affine]; exact hcv e he c hc) hpos

/-! ## C22 Polygon containment accepts all points of the polygon -/

/-- The property claimed for a polygon: all points of a convex polygon are contained. -/
def PolygonContainsItsPoints : Prop :=
  ∀ (n q : V3) (cs : List V3) (pg : Polygon) (p : V3) (eps : ℝ), Spec.IsUnit n →
    Spec.PlanarPolygon n q cs → Spec.ConvexPolygon n cs → Spec.shoelace n cs ≠ 0 →
    Polygon.make cs = .val pg → 0 < eps → Spec.InPolygon n q cs p →
    ∃ r : Prop, pg.contains p eps = .val r ∧ r

theorem edge_mem {cs : List V3} (hne : cs ≠ []) {i : ℕ} (hi : i < cs.length - 1) :
    (cs.getD i 0, cs.getD (i + 1) 0) ∈ Spec.polyEdges cs :=
  (mem_polyEdges _ _ hne).2 (Or.inl ⟨i, hi, rfl⟩)

theorem last_edge_mem {cs : List V3} (hne : cs ≠ []) :
    (cs.getD (cs.length - 1) 0, cs.getD 0 0) ∈ Spec.polyEdges cs :=
  (mem_polyEdges _ _ hne).2 (Or.inr rfl)

/-- Sub-triangle areas as seen from a point in the plane. -/
theorem subTriangle_eq {n q : V3} {cs : List V3} {p : V3} (hn : Spec.IsUnit n)
    (hpl : Spec.PlanarPolygon n q cs) (hp : Spec.OnPlane q n p) (h3 : 3 ≤ cs.length) :
    subTriangleAreas cs p
      = 1 / 2 * cyc cs.length (fun i => cs.getD i 0) (fun a b => |Spec.turn n a b p|) := by
  unfold subTriangleAreas cyc
  rw [mul_add, Finset.mul_sum]
  congr 1
  · apply Finset.sum_congr rfl
    intro j hj
    have hj' := Finset.mem_range.1 hj
    rw [area_inplane hn (hpl _ (getD_mem (by omega))) (hpl _ (getD_mem (by omega))) hp]
  · rw [area_inplane hn (hpl _ (getD_mem (by omega))) (hpl _ (getD_mem (by omega))) hp]

/-- Points of a convex polygon whose first three corners are not on a line are contained, for every
positive tolerance, whether or not the plane check is requested. -/
theorem C22_points_contained_partial (n q : V3) (cs : List V3) (pg : Polygon) (p : V3) (eps : ℝ)
    (check : Bool) (hn : Spec.IsUnit n) (hpl : Spec.PlanarPolygon n q cs)
    (hcv : Spec.ConvexPolygon n cs) (hm : Polygon.make cs = .val pg)
    (h012 : Spec.cornerTurn n cs 1 ≠ 0) (he : 0 < eps) (hp : Spec.InPolygon n q cs p) :
    ∃ r : Prop, pg.contains p eps check = .val r ∧ r := by
  obtain ⟨h3, hpr⟩ := polygon_make_val hm
  have hne : cs ≠ [] := by rintro rfl; simp at h3
  obtain ⟨pg', hm', hcs, hplane, harea, hcen, _⟩ := polygon_make h3 hpr
  rw [hm] at hm'
  cases hm'
  obtain ⟨hpp, hin⟩ := hp
  refine ⟨pg.convexContains p eps check, ?_, fun _ => ?_, ?_⟩
  · unfold Polygon.contains
    rw [if_pos (C20_convex_is_flagged n q cs pg hn hpl hm hcv)]
  · have ht : Spec.turn n (cs.getD 0 0) (cs.getD 1 0) (cs.getD 2 0) ≠ 0 := by
      have e : Spec.cornerTurn n cs 1 = Spec.turn n (cs.getD 0 0) (cs.getD 1 0) (cs.getD 2 0) := by
        unfold Spec.cornerTurn
        rw [show 1 + cs.length - 1 = cs.length by omega, Nat.mod_self, Nat.mod_eq_of_lt (by omega)]
      rwa [e] at h012
    obtain ⟨pl, hv, hon⟩ := plane_of_corners hn (hpl _ (getD_mem (by omega)))
      (hpl _ (getD_mem (by omega))) (hpl _ (getD_mem (by omega))) ht
    rw [hplane, hv]
    exact planeContains_of_onPlane he ((hon p).2 hpp)
  · rw [harea, hcs, fan_area hn hpl hcv h3, subTriangle_eq hn hpl hpp h3,
      ← sum_turn_eq_shoelace n cs hne p]
    have : cyc cs.length (fun i => cs.getD i 0) (fun a b => |Spec.turn n a b p|)
        = cyc cs.length (fun i => cs.getD i 0) (fun a b => Spec.turn n a b p) := by
      unfold cyc
      congr 1
      · apply Finset.sum_congr rfl
        intro j hj
        exact abs_of_nonneg (hin _ (edge_mem hne (Finset.mem_range.1 hj)))
      · exact abs_of_nonneg (hin _ (last_edge_mem hne))
    rw [this, sub_self, abs_zero]; positivity

/-- In particular every convex combination of the corners is contained. -/
theorem C22_hull_contained_partial (n q : V3) (cs : List V3) (pg : Polygon) (p : V3) (eps : ℝ)
    (check : Bool) (hn : Spec.IsUnit n) (hpl : Spec.PlanarPolygon n q cs)
    (hcv : Spec.ConvexPolygon n cs) (hm : Polygon.make cs = .val pg)
    (h012 : Spec.cornerTurn n cs 1 ≠ 0) (he : 0 < eps) (hp : Spec.InHull cs p) :
    ∃ r : Prop, pg.contains p eps check = .val r ∧ r :=
  C22_points_contained_partial n q cs pg p eps check hn hpl hcv hm h012 he
    (hull_inPolygon hpl hcv hp)

/-- Conversely a point accepted for every positive tolerance is a point of the convex polygon. -/
theorem C22_accepted_in_polygon (n q : V3) (cs : List V3) (pg : Polygon) (p : V3)
    (hn : Spec.IsUnit n) (hpl : Spec.PlanarPolygon n q cs)
    (hcv : Spec.ConvexPolygon n cs) (hm : Polygon.make cs = .val pg)
    (hacc : ∀ eps, 0 < eps → ∃ r : Prop, pg.contains p eps = .val r ∧ r) :
    Spec.InPolygon n q cs p := by
  obtain ⟨h3, hpr⟩ := polygon_make_val hm
  have hne : cs ≠ [] := by rintro rfl; simp at h3
  obtain ⟨pg', hm', hcs, hplane, harea, hcen, _⟩ := polygon_make h3 hpr
  rw [hm] at hm'
  cases hm'
  have hflag := C20_convex_is_flagged n q cs pg hn hpl hm hcv
  have hacc' : ∀ eps, 0 < eps → pg.convexContains p eps true := by
    intro eps he
    obtain ⟨r, hr, hr2⟩ := hacc eps he
    unfold Polygon.contains at hr
    rw [if_pos hflag] at hr
    cases hr
    exact hr2
  have hpp : Spec.OnPlane q n p := by
    by_cases ht : Spec.turn n (cs.getD 0 0) (cs.getD 1 0) (cs.getD 2 0) = 0
    · -- the plane is invalid: nothing is accepted
      exfalso
      have h := (hacc' 1 one_pos).1 rfl
      have hcol : Spec.Collinear (cs.getD 0 0) (cs.getD 1 0) (cs.getD 2 0) := by
        rw [collinear_iff_cross]
        rw [turn_eq] at ht
        have := cross_inplane hn (sub_inplane (hpl _ (getD_mem (cs := cs) (i := 0) (by omega)))
          (hpl _ (getD_mem (cs := cs) (i := 1) (by omega))))
          (sub_inplane (hpl _ (getD_mem (cs := cs) (i := 0) (by omega)))
          (hpl _ (getD_mem (cs := cs) (i := 2) (by omega))))
        rw [this, ht, zero_smul]
      rw [hplane, C03_plane_from_collinear_points _ _ _ hcol] at h
      exact h
    · obtain ⟨pl, hv, hon⟩ := plane_of_corners hn (hpl _ (getD_mem (by omega)))
        (hpl _ (getD_mem (by omega))) (hpl _ (getD_mem (by omega))) ht
      refine (hon p).1 (onPlane_of_planeContains fun eps he => ?_)
      have h := (hacc' eps he).1 rfl
      rwa [hplane, hv] at h
  have harea2 := eq_of_abs_lt_sq (fun eps he => (hacc' eps he).2)
  rw [harea, hcs, fan_area hn hpl hcv h3, subTriangle_eq hn hpl hpp h3,
    ← sum_turn_eq_shoelace n cs hne p] at harea2
  have hsum : cyc cs.length (fun i => cs.getD i 0) (fun a b => |Spec.turn n a b p| - Spec.turn n a b p)
      = 0 := by
    have : cyc cs.length (fun i => cs.getD i 0) (fun a b => |Spec.turn n a b p| - Spec.turn n a b p)
      = cyc cs.length (fun i => cs.getD i 0) (fun a b => |Spec.turn n a b p|)
        - cyc cs.length (fun i => cs.getD i 0) (fun a b => Spec.turn n a b p) := by
      unfold cyc; rw [Finset.sum_sub_distrib]; ring
    rw [this]; linarith
  have nn : ∀ a b, 0 ≤ |Spec.turn n a b p| - Spec.turn n a b p := fun a b =>
    sub_nonneg.2 (le_abs_self _)
  unfold cyc at hsum
  have hs0 : 0 ≤ ∑ i ∈ Finset.range (cs.length - 1), (|Spec.turn n (cs.getD i 0) (cs.getD (i + 1) 0) p|
      - Spec.turn n (cs.getD i 0) (cs.getD (i + 1) 0) p) := Finset.sum_nonneg fun i _ => nn _ _
  have hl0 := nn (cs.getD (cs.length - 1) 0) (cs.getD 0 0)
  refine ⟨hpp, fun e he => ?_⟩
  rw [mem_polyEdges _ _ hne] at he
  rw [← abs_eq_self]
  rcases he with ⟨i, hi, rfl⟩ | rfl
  · have hz := (Finset.sum_eq_zero_iff_of_nonneg (fun i _ => nn (cs.getD i 0) (cs.getD (i + 1) 0))).1
      (show ∑ i ∈ Finset.range (cs.length - 1), (|Spec.turn n (cs.getD i 0) (cs.getD (i + 1) 0) p|
      - Spec.turn n (cs.getD i 0) (cs.getD (i + 1) 0) p) = 0 by linarith) i (Finset.mem_range.2 hi)
    linarith
  · simp only at hsum ⊢
    linarith

/-- `contains()`, with and without a tolerance, and `area()` of a polygon flagged non-convex raise an error. -/
theorem C22_nonconvex_rejected (pg : Polygon) (h : ¬ pg.isConvex) (p : V3) (eps : ℝ) (check : Bool) :
    (pg.contains p eps check).isThrown ∧ (pg.containsDefault p check).isThrown ∧ pg.area.isThrown := by
  have hc : ∀ e, (pg.contains p e check).isThrown := by
    intro e
    unfold Polygon.contains
    rw [if_neg h]
    trivial
  refine ⟨hc _, ?_, ?_⟩
  · unfold Polygon.containsDefault
    split
    · exact hc _
    · rw [if_neg h]
      trivial
  · unfold Polygon.area
    rw [if_neg h]
    trivial

/-- A square with an additional corner on its first edge. -/
noncomputable def square5 : List V3 := [⟨0, 0, 0⟩, ⟨1, 0, 0⟩, ⟨2, 0, 0⟩, ⟨2, 2, 0⟩, ⟨0, 2, 0⟩]

theorem square5_convex : Spec.ConvexPolygon ⟨0, 0, 1⟩ square5 := by
  unfold Spec.ConvexPolygon
  have : Spec.polyEdges square5 = [(⟨0, 0, 0⟩, ⟨1, 0, 0⟩), (⟨1, 0, 0⟩, ⟨2, 0, 0⟩),
    (⟨2, 0, 0⟩, ⟨2, 2, 0⟩), (⟨2, 2, 0⟩, ⟨0, 2, 0⟩), (⟨0, 2, 0⟩, ⟨0, 0, 0⟩)] := rfl
  rw [this]
  unfold square5
  simp only [List.forall_mem_cons, List.not_mem_nil, false_imp_iff, implies_true, and_true]
  norm_num [Spec.turn, Spec.det]

theorem square5_proper : ProperEdges square5 := by
  intro i hi
  have : i < 5 := hi
  interval_cases i <;> norm_num [square5]

/-- **The code violates the property** if the first three corners are on a common line: the
supporting plane is invalid and not even the centre of a square is contained. -/
theorem C22_disproof : ¬ PolygonContainsItsPoints := by
  intro h
  obtain ⟨pg, hm, hcs, hplane, _⟩ := polygon_make (cs := square5) (by simp [square5]) square5_proper
  have hpl : Spec.PlanarPolygon ⟨0, 0, 1⟩ ⟨0, 0, 0⟩ square5 := planar_z0 _ (by simp [square5])
  obtain ⟨r, hr, hr2⟩ := h _ _ square5 pg ⟨1, 1, 0⟩ 1 unit_z hpl square5_convex
    (by norm_num [Spec.shoelace, Spec.polyEdges, Spec.det, square5]) hm one_pos (by
      refine ⟨by norm_num [Spec.OnPlane, Spec.inner], ?_⟩
      have : Spec.polyEdges square5 = [(⟨0, 0, 0⟩, ⟨1, 0, 0⟩), (⟨1, 0, 0⟩, ⟨2, 0, 0⟩),
        (⟨2, 0, 0⟩, ⟨2, 2, 0⟩), (⟨2, 2, 0⟩, ⟨0, 2, 0⟩), (⟨0, 2, 0⟩, ⟨0, 0, 0⟩)] := rfl
      rw [this]
      simp only [List.forall_mem_cons, List.not_mem_nil, false_imp_iff, implies_true, and_true]
      norm_num [Spec.turn, Spec.det])
  unfold Polygon.contains at hr
  rw [if_pos (C20_convex_is_flagged _ _ _ pg unit_z hpl hm square5_convex)] at hr
  cases hr
  have h1 := hr2.1 rfl
  have hcol : Spec.Collinear (square5.getD 0 0) (square5.getD 1 0) (square5.getD 2 0) := by
    rw [collinear_iff_cross]
    simp [square5, V3.cross]
    rfl
  rw [hplane, C03_plane_from_collinear_points _ _ _ hcol] at h1
  exact h1

/-- Non-trivial instance for C21 and C22: the same square starting from another corner. -/
noncomputable def square5' : List V3 := [⟨1, 0, 0⟩, ⟨2, 0, 0⟩, ⟨2, 2, 0⟩, ⟨0, 2, 0⟩, ⟨0, 0, 0⟩]

example : Spec.IsUnit ⟨0, 0, 1⟩ ∧ Spec.PlanarPolygon ⟨0, 0, 1⟩ ⟨0, 0, 0⟩ square5' ∧
    Spec.ConvexPolygon ⟨0, 0, 1⟩ square5' ∧ Spec.cornerTurn ⟨0, 0, 1⟩ square5' 1 ≠ 0 ∧
    Spec.shoelace ⟨0, 0, 1⟩ square5' = 8 ∧ (∃ pg, Polygon.make square5' = .val pg) ∧
    Spec.InHull square5' ⟨1, 1, 0⟩ := by
  refine ⟨unit_z, planar_z0 _ (by simp [square5']), ?_, ?_, ?_, ?_, ?_⟩
  · unfold Spec.ConvexPolygon
    have : Spec.polyEdges square5' = [(⟨1, 0, 0⟩, ⟨2, 0, 0⟩), (⟨2, 0, 0⟩, ⟨2, 2, 0⟩),
      (⟨2, 2, 0⟩, ⟨0, 2, 0⟩), (⟨0, 2, 0⟩, ⟨0, 0, 0⟩), (⟨0, 0, 0⟩, ⟨1, 0, 0⟩)] := rfl
    rw [this]
    unfold square5'
    simp only [List.forall_mem_cons, List.not_mem_nil, false_imp_iff, implies_true, and_true]
    norm_num [Spec.turn, Spec.det]
  · norm_num [Spec.cornerTurn, square5', Spec.turn, Spec.det]
  · norm_num [Spec.shoelace, Spec.polyEdges, Spec.det, square5']
  · have hpr : ProperEdges square5' := by
      intro i hi
      have : i < 5 := hi
      interval_cases i <;> norm_num [square5']
    obtain ⟨pg, hm, _⟩ := polygon_make (cs := square5') (by simp [square5']) hpr
    exact ⟨pg, hm⟩
  · refine ⟨[0, 1 / 4, 1 / 4, 1 / 4, 1 / 4], rfl, ?_, ?_, ?_, ?_, ?_⟩ <;> norm_num [square5']

end Props
