import Verif.Model.Geometry.Box
import Verif.Model.Geometry.Cylinder
import Verif.Props.Ellipse

/-!
# Containment queries do not depend on the unit of length and the origin (C71)
-/

namespace Props
open Verif Frackit

/-- Change of the unit of length and of the origin. -/
def sim (k : ℝ) (v p : V3) : V3 := k • p + v

/-- Segments, boxes, ellipses etc. in the new coordinates; directions are not affected. -/
def simSegment (k : ℝ) (v : V3) (s : Segment) : Segment := ⟨sim k v s.source, sim k v s.target⟩
def simBox (k : ℝ) (v : V3) (b : Box) : Box :=
  ⟨k * b.xMin + v.x, k * b.xMax + v.x, k * b.yMin + v.y, k * b.yMax + v.y, k * b.zMin + v.z,
    k * b.zMax + v.z⟩
def simElliptical (k : ℝ) (v : V3) (e : Elliptical) : Elliptical :=
  ⟨sim k v e.center, e.major, e.minor, e.normal, k * e.majLen, k * e.minLen⟩
def simSphere (k : ℝ) (v : V3) (s : Sphere) : Sphere := ⟨sim k v s.center, k * s.radius⟩
def simCylinder (k : ℝ) (v : V3) (c : Cylinder) : Cylinder :=
  { c with height := k * c.height, top := simElliptical k v c.top, bottom := simElliptical k v c.bottom }
def simSurface (k : ℝ) (v : V3) (c : CylinderSurface) : CylinderSurface :=
  ⟨k * c.height, simElliptical k v c.top, simElliptical k v c.bottom⟩

def simHollow (k : ℝ) (v : V3) (c : HollowCylinder) : HollowCylinder :=
  ⟨simElliptical k v c.bottomInner, simElliptical k v c.topInner, k * c.outerRadius, k * c.height⟩

variable {k : ℝ} {v : V3}

theorem sim_sub (k : ℝ) (v p q : V3) : sim k v p - sim k v q = k • (p - q) := by
  unfold sim; module

theorem mkDirection_smul (hk : 0 < k) (w : V3) : mkDirection (k • w) = mkDirection w := by
  unfold mkDirection
  rw [V3.len_smul, abs_of_pos hk]
  by_cases h : w.len = 0
  · rw [if_pos h, if_pos (by rw [h, mul_zero])]
  · rw [if_neg h, if_neg (mul_ne_zero hk.ne' h)]
    congr 1
    ext <;> simp [V3.sdiv] <;> field_simp

theorem sq_scale (hk : 0 < k) (a eps : ℝ) : k ^ 2 * a < k * eps * (k * eps) ↔ a < eps * eps := by
  rw [show k * eps * (k * eps) = k ^ 2 * (eps * eps) by ring]
  exact mul_lt_mul_iff_right₀ (by positivity)

theorem len_scale (hk : 0 < k) (w : V3) : (k • w).len = k * w.len := by
  rw [V3.len_smul, abs_of_pos hk]

theorem abs_scale (hk : 0 < k) (x eps : ℝ) : |k * x| < k * eps ↔ |x| < eps := by
  rw [abs_mul, abs_of_pos hk]
  exact mul_lt_mul_iff_right₀ hk

theorem projection_sim (s d p : V3) :
    Line.projection ⟨sim k v s, d⟩ (sim k v p) = sim k v (Line.projection ⟨s, d⟩ p) := by
  unfold Line.projection
  simp only [sim_sub, V3.dot_smul]
  unfold sim
  module

theorem supportingLine_sim (hk : 0 < k) (s : Segment) : (simSegment k v s).supportingLine =
    s.supportingLine >>= fun l => .val ⟨sim k v l.supp, l.dir⟩ := by
  unfold Segment.supportingLine Segment.direction simSegment
  simp only [sim_sub, mkDirection_smul hk]
  cases mkDirection (s.target - s.source) <;> rfl

/-- Segments, for a tolerance in the unit of length and for the default tolerance. -/
theorem C71_segment (s : Segment) (p : V3) (eps : ℝ) (b : Bool) (hk : 0 < k) :
    ((simSegment k v s).contains (sim k v p) (k * eps) b ↔ s.contains p eps b) ∧
    ((simSegment k v s).containsDefault (sim k v p) b ↔ s.containsDefault p b) := by
  have main : ∀ eps, (simSegment k v s).contains (sim k v p) (k * eps) b ↔ s.contains p eps b := by
    intro eps
    unfold Segment.contains
    rw [supportingLine_sim hk]
    simp only [simSegment, sim_sub, V3.sqLen_smul, sq_scale hk]
    cases h : s.supportingLine with
    | val l =>
      simp only [Outcome.val_bind, Line.contains, projection_sim, sim_sub, V3.sqLen_smul, sq_scale hk,
        V3.dot_smul]
      have hneg : ∀ x : ℝ, k * x < 0 ↔ x < 0 := fun x => by
        constructor
        · intro h; by_contra hx; push Not at hx; nlinarith
        · intro h; nlinarith
      simp only [hneg]
    | thrown e => rfl
    | nan => rfl
    | ub => rfl
  refine ⟨main eps, ?_⟩
  unfold Segment.containsDefault
  rw [← main]
  have : (simSegment k v s).length = k * s.length := by
    simp only [Segment.length, simSegment, sim_sub, len_scale hk]
  rw [this, show confusion * (k * s.length) = k * (confusion * s.length) by ring]

/-- Boxes. -/
theorem C71_box (b : Box) (p : V3) (eps : ℝ) (hk : 0 < k) :
    ((simBox k v b).contains (sim k v p) (k * eps) ↔ b.contains p eps) ∧
    ((simBox k v b).containsDefault (sim k v p) ↔ b.containsDefault p) := by
  have main : ∀ eps, (simBox k v b).contains (sim k v p) (k * eps) ↔ b.contains p eps := by
    intro eps
    have h1 : ∀ x m w : ℝ, k * x + w > k * m + w - k * eps ↔ x > m - eps := fun x m w => by
      constructor <;> intro h <;> nlinarith
    have h2 : ∀ x m w : ℝ, k * x + w < k * m + w + k * eps ↔ x < m + eps := fun x m w => by
      constructor <;> intro h <;> nlinarith
    unfold Box.contains simBox sim
    simp only [V3.add_x, V3.add_y, V3.add_z, V3.smul_x, V3.smul_y, V3.smul_z, h1, h2]
  refine ⟨main eps, ?_⟩
  unfold Box.containsDefault
  rw [← main]
  have : (simBox k v b).defaultEps = k * b.defaultEps := by
    unfold Box.defaultEps simBox
    rw [show ((⟨k * b.xMax + v.x, k * b.yMax + v.y, k * b.zMax + v.z⟩ : V3) -
      ⟨k * b.xMin + v.x, k * b.yMin + v.y, k * b.zMin + v.z⟩) =
      k • ((⟨b.xMax, b.yMax, b.zMax⟩ : V3) - ⟨b.xMin, b.yMin, b.zMin⟩) by
        ext <;> simp <;> ring, len_scale hk]
    ring
  rw [this]

/-- Circles. -/
theorem C71_circle (c : Elliptical) (p : V3) (eps : ℝ) (hk : 0 < k) :
    (Circle.contains (simElliptical k v c) (sim k v p) (k * eps) ↔ Circle.contains c p eps) ∧
    (Circle.containsDefault (simElliptical k v c) (sim k v p) ↔ Circle.containsDefault c p) := by
  have main : ∀ eps, Circle.contains (simElliptical k v c) (sim k v p) (k * eps) ↔
      Circle.contains c p eps := by
    intro eps
    unfold Circle.contains Plane.contains
    simp only [Elliptical.supportingPlane, Plane.ofBasis, simElliptical, sim_sub, V3.smul_dot, abs_scale hk,
      len_scale hk, ← mul_sub]
  refine ⟨main eps, ?_⟩
  unfold Circle.containsDefault
  rw [← main]
  simp only [simElliptical]
  rw [show confusion * (k * c.majLen) = k * (confusion * c.majLen) by ring]

/-- Spheres. -/
theorem C71_sphere (s : Sphere) (p : V3) (eps : ℝ) (hk : 0 < k) :
    ((simSphere k v s).contains (sim k v p) (k * eps) ↔ s.contains p eps) ∧
    ((simSphere k v s).containsDefault (sim k v p) ↔ s.containsDefault p) := by
  have main : ∀ eps, (simSphere k v s).contains (sim k v p) (k * eps) ↔ s.contains p eps := by
    intro eps
    unfold Sphere.contains simSphere
    simp only [sim_sub, V3.sqLen_smul]
    rw [← sq_scale hk ((p - s.center).sqLen - s.radius * s.radius) eps]
    rw [show k ^ 2 * (p - s.center).sqLen - k * s.radius * (k * s.radius) =
      k ^ 2 * ((p - s.center).sqLen - s.radius * s.radius) by ring]
  refine ⟨main eps, ?_⟩
  unfold Sphere.containsDefault
  rw [← main]
  simp only [simSphere]
  rw [mul_assoc]

/-! ### Cylinders -/

theorem holds_sim (hk : 0 < k) (s : Segment) (P Q : Line → Prop)
    (h : ∀ l, P ⟨sim k v l.supp, l.dir⟩ ↔ Q l) :
    holdsIfVal (simSegment k v s).supportingLine P ↔ holdsIfVal s.supportingLine Q := by
  rw [supportingLine_sim hk]
  cases s.supportingLine with
  | val l => exact h l
  | thrown e => rfl
  | nan => rfl
  | ub => rfl

theorem le_scale (hk : 0 < k) (a r eps : ℝ) :
    k ^ 2 * a ≤ k * r * (k * r) + k * eps * (k * eps) ↔ a ≤ r * r + eps * eps := by
  rw [show k * r * (k * r) + k * eps * (k * eps) = k ^ 2 * (r * r + eps * eps) by ring]
  exact mul_le_mul_iff_right₀ (by positivity)

theorem ge_scale (hk : 0 < k) (a r eps : ℝ) :
    k ^ 2 * a ≥ k * r * (k * r) - k * eps * (k * eps) ↔ a ≥ r * r - eps * eps := by
  rw [show k * r * (k * r) - k * eps * (k * eps) = k ^ 2 * (r * r - eps * eps) by ring]
  exact mul_le_mul_iff_right₀ (by positivity)

/-- Cylinders. -/
theorem C71_cylinder (c : Cylinder) (p : V3) (eps : ℝ) (hk : 0 < k) :
    ((simCylinder k v c).contains (sim k v p) (k * eps) ↔ c.contains p eps) ∧
    ((simCylinder k v c).containsDefault (sim k v p) ↔ c.containsDefault p) := by
  have main : ∀ eps, (simCylinder k v c).contains (sim k v p) (k * eps) ↔ c.contains p eps := by
    intro eps
    unfold Cylinder.contains
    apply holds_sim hk c.centerSegment
    intro l
    simp only [projection_sim]
    have h1 := (C71_segment (k := k) (v := v) c.centerSegment (Line.projection l p) eps true hk).1
    apply and_congr h1
    rw [sim_sub, V3.sqLen_smul]
    exact le_scale hk _ _ _
  refine ⟨main eps, ?_⟩
  unfold Cylinder.containsDefault
  rw [← main]
  simp only [simCylinder, Cylinder.radius, simElliptical]
  rw [show confusion * 0.5 * (k * c.bottom.majLen + k * c.height) =
    k * (confusion * 0.5 * (c.bottom.majLen + c.height)) by ring]

/-- Cylinder surfaces. -/
theorem C71_surface (c : CylinderSurface) (p : V3) (eps : ℝ) (hk : 0 < k) :
    ((simSurface k v c).contains (sim k v p) (k * eps) ↔ c.contains p eps) ∧
    ((simSurface k v c).containsDefault (sim k v p) ↔ c.containsDefault p) := by
  have main : ∀ eps, (simSurface k v c).contains (sim k v p) (k * eps) ↔ c.contains p eps := by
    intro eps
    unfold CylinderSurface.contains
    apply holds_sim hk c.centerSegment
    intro l
    simp only [projection_sim]
    have h1 := (C71_segment (k := k) (v := v) c.centerSegment (Line.projection l p) eps true hk).1
    apply and_congr h1
    rw [sim_sub, len_scale hk]
    simp only [simSurface, CylinderSurface.radius, simElliptical]
    rw [← mul_sub]
    exact abs_scale hk _ _
  refine ⟨main eps, ?_⟩
  unfold CylinderSurface.containsDefault
  rw [← main]
  simp only [simSurface, CylinderSurface.radius, simElliptical]
  rw [show confusion * 0.5 * (k * c.bottom.majLen + k * c.height) =
    k * (confusion * 0.5 * (c.bottom.majLen + c.height)) by ring]

/-- Hollow cylinders. -/
theorem C71_hollow (c : HollowCylinder) (p : V3) (eps : ℝ) (hk : 0 < k) :
    ((simHollow k v c).contains (sim k v p) (k * eps) ↔ c.contains p eps) ∧
    ((simHollow k v c).containsDefault (sim k v p) ↔ c.containsDefault p) := by
  have main : ∀ eps, (simHollow k v c).contains (sim k v p) (k * eps) ↔ c.contains p eps := by
    intro eps
    unfold HollowCylinder.contains
    apply holds_sim hk c.centerSegment
    intro l
    simp only [projection_sim]
    have h1 := (C71_segment (k := k) (v := v) c.centerSegment (Line.projection l p) eps true hk).1
    apply and_congr h1
    rw [sim_sub, V3.sqLen_smul]
    exact and_congr (le_scale hk _ _ _) (ge_scale hk _ _ _)
  refine ⟨main eps, ?_⟩
  unfold HollowCylinder.containsDefault
  rw [← main]
  simp only [simHollow]
  rw [show confusion * 0.5 * (k * c.outerRadius + k * c.height) =
    k * (confusion * 0.5 * (c.outerRadius + c.height)) by ring]

/-- Example: the unit cube and one of its points, with lengths in another unit and the origin moved. -/
example : (simBox 1000 ⟨7, 8, 9⟩ ⟨0, 1, 0, 1, 0, 1⟩).contains ⟨1007, 508, 9⟩ 1 := by
  have h := (C71_box (k := 1000) (v := ⟨7, 8, 9⟩) ⟨0, 1, 0, 1, 0, 1⟩ ⟨1, 1 / 2, 0⟩ (1 / 1000) (by norm_num)).1
  rw [show sim 1000 ⟨7, 8, 9⟩ ⟨1, 1 / 2, 0⟩ = ⟨1007, 508, 9⟩ by ext <;> norm_num [sim],
    show (1000 : ℝ) * (1 / 1000) = 1 by norm_num] at h
  rw [h]
  norm_num [Box.contains]

/-! ### Planar figures -/

theorem ofPoints_sim (hk : 0 < k) (a b c p : V3) (eps : ℝ) :
    planeContains (Plane.ofPoints (sim k v a) (sim k v b) (sim k v c)) (sim k v p) (k * eps) ↔
      planeContains (Plane.ofPoints a b c) p eps := by
  unfold Plane.ofPoints
  simp only [sim_sub, mkDirection_smul hk]
  cases mkDirection (b - a) with
  | val d =>
    simp only [Outcome.val_bind]
    have : d.cross (k • (c - a)) = k • d.cross (c - a) := by
      ext <;> simp [V3.cross] <;> ring
    rw [this, mkDirection_smul hk]
    cases mkDirection (d.cross (c - a)) with
    | val n =>
      simp only [Outcome.val_bind]
      cases mkDirection (n.cross d) with
      | val m =>
        simp only [Outcome.val_bind, Outcome.pure_eq, planeContains, Plane.contains, sim_sub, V3.smul_dot,
          abs_scale hk]
      | _ => rfl
    | _ => rfl
  | _ => rfl

theorem area_sim (hk : 0 < k) (a b c : V3) :
    (Triangle.make (sim k v a) (sim k v b) (sim k v c)).area = k ^ 2 * (Triangle.make a b c).area := by
  unfold Triangle.make
  simp only [sim_sub]
  rw [show (k • (b - a)).cross (k • (c - a)) = (k ^ 2) • (b - a).cross (c - a) by
    ext <;> simp [V3.cross] <;> ring, len_scale (by positivity)]
  ring

theorem area_scale (hk : 0 < k) (a b eps : ℝ) :
    |k ^ 2 * a - k ^ 2 * b| < k * eps * (k * eps) ↔ |a - b| < eps * eps := by
  rw [← mul_sub, show k * eps * (k * eps) = k ^ 2 * (eps * eps) by ring]
  exact abs_scale (by positivity) _ _

/-- Quadrilaterals. -/
theorem C71_quadrilateral (p0 p1 p2 p3 p : V3) (eps : ℝ) (b : Bool) (hk : 0 < k) :
    ((Quadrilateral.make (sim k v p0) (sim k v p1) (sim k v p2) (sim k v p3)).contains (sim k v p)
      (k * eps) b ↔ (Quadrilateral.make p0 p1 p2 p3).contains p eps b) ∧
    ((Quadrilateral.make (sim k v p0) (sim k v p1) (sim k v p2) (sim k v p3)).containsDefault (sim k v p) b ↔
      (Quadrilateral.make p0 p1 p2 p3).containsDefault p b) := by
  have main : ∀ eps, (Quadrilateral.make (sim k v p0) (sim k v p1) (sim k v p2) (sim k v p3)).contains
      (sim k v p) (k * eps) b ↔ (Quadrilateral.make p0 p1 p2 p3).contains p eps b := by
    intro eps
    unfold Quadrilateral.contains
    apply and_congr
    · rw [show (Quadrilateral.make (sim k v p0) (sim k v p1) (sim k v p2) (sim k v p3)).plane =
        Plane.ofPoints (sim k v p0) (sim k v p1) (sim k v p2) from rfl]
      rw [ofPoints_sim hk]
      rfl
    · simp only [Quadrilateral.make, area_sim hk, ← mul_add]
      exact area_scale hk _ _ _
  refine ⟨main eps, ?_⟩
  unfold Quadrilateral.containsDefault
  rw [← main]
  simp only [Quadrilateral.make, sim_sub, len_scale hk]
  rw [show confusion * (k * (p3 - p0).len) = k * (confusion * (p3 - p0).len) by ring]

/-- Triangles, for a tolerance in the unit of length. -/
theorem C71_triangle (p0 p1 p2 p : V3) (eps : ℝ) (b : Bool) (hk : 0 < k) :
    (Triangle.make (sim k v p0) (sim k v p1) (sim k v p2)).contains (sim k v p) (k * eps) b ↔
      (Triangle.make p0 p1 p2).contains p eps b := by
  unfold Triangle.contains
  apply and_congr
  · apply imp_congr_right
    intro _
    unfold Triangle.supportingPlane
    have hn : (Triangle.make (sim k v p0) (sim k v p1) (sim k v p2)).normal = (Triangle.make p0 p1 p2).normal := by
      simp only [Triangle.make, sim_sub]
      rw [show (k • (p1 - p0)).cross (k • (p2 - p0)) = (k ^ 2) • (p1 - p0).cross (p2 - p0) by
        ext <;> simp [V3.cross] <;> ring, mkDirection_smul (by positivity)]
    rw [hn]
    cases (Triangle.make p0 p1 p2).normal with
    | val n =>
      simp only [Outcome.val_bind, Plane.ofNormal]
      cases mkDirection (makeOrthogonalVector n) with
      | val d =>
        simp only [Outcome.val_bind]
        cases mkDirection (n.cross d) with
        | val m =>
          simp only [Outcome.val_bind, Outcome.pure_eq, planeContains, Plane.contains]
          rw [show (Triangle.make (sim k v p0) (sim k v p1) (sim k v p2)).c0 = sim k v p0 from rfl, sim_sub,
            V3.smul_dot, abs_scale hk]
          rfl
        | _ => rfl
      | _ => rfl
    | _ => rfl
  · simp only [area_sim hk]
    rw [show (Triangle.make (sim k v p0) (sim k v p1) (sim k v p2)).c0 = sim k v p0 from rfl,
      show (Triangle.make (sim k v p0) (sim k v p1) (sim k v p2)).c1 = sim k v p1 from rfl,
      show (Triangle.make (sim k v p0) (sim k v p1) (sim k v p2)).c2 = sim k v p2 from rfl]
    simp only [area_sim hk, ← mul_add]
    exact area_scale hk _ _ _

theorem getD_sim (cs : List V3) (i : ℕ) (hi : i < cs.length) :
    (cs.map (sim k v)).getD i 0 = sim k v (cs.getD i 0) := by
  simp [List.getD, hi]

theorem edgeDir_sim (hk : 0 < k) (cs : List V3) (i : ℕ) (hi : i < cs.length) :
    polygonEdgeDir (cs.map (sim k v)) i = polygonEdgeDir cs i := by
  have h2 : (i + 1) % cs.length < cs.length := Nat.mod_lt _ (by omega)
  unfold polygonEdgeDir polygonEdge
  simp only [List.length_map, getD_sim cs i hi, getD_sim cs _ h2, sim_sub, len_scale hk]
  ext <;> simp [V3.sdiv] <;> field_simp

theorem sim_inj (hk : 0 < k) {p q : V3} (h : sim k v p = sim k v q) : p = q := by
  have := congrArg (fun w => (1 / k) • (w - v)) h
  simp only [sim, add_sub_cancel_right] at this
  rwa [smul_smul, smul_smul, one_div_mul_cancel hk.ne', one_smul, one_smul] at this

theorem convexity_sim (hk : 0 < k) (cs : List V3) (h3 : 3 ≤ cs.length) :
    polygonConvexity (cs.map (sim k v)) = polygonConvexity cs := by
  unfold polygonConvexity
  have hdeg : (∃ i < (cs.map (sim k v)).length, (polygonEdge (cs.map (sim k v)) i).source =
      (polygonEdge (cs.map (sim k v)) i).target) ↔
      ∃ i < cs.length, (polygonEdge cs i).source = (polygonEdge cs i).target := by
    rw [List.length_map]
    constructor
    · rintro ⟨i, hi, h⟩
      refine ⟨i, hi, ?_⟩
      have h2 : (i + 1) % cs.length < cs.length := Nat.mod_lt _ (by omega)
      unfold polygonEdge at h ⊢
      simp only [List.length_map, getD_sim cs i hi, getD_sim cs _ h2] at h
      exact sim_inj hk h
    · rintro ⟨i, hi, h⟩
      refine ⟨i, hi, ?_⟩
      have h2 : (i + 1) % cs.length < cs.length := Nat.mod_lt _ (by omega)
      unfold polygonEdge at h ⊢
      simp only [List.length_map, getD_sim cs i hi, getD_sim cs _ h2]
      exact congrArg _ h
  by_cases hd : ∃ i < cs.length, (polygonEdge cs i).source = (polygonEdge cs i).target
  · simp only [if_pos hd, if_pos (hdeg.2 hd)]
  · simp only [if_neg hd, if_neg (fun h => hd (hdeg.1 h)), List.length_map]
    congr 1
    apply propext
    apply forall_congr'
    intro i
    apply imp_congr_right
    intro h1
    apply imp_congr_right
    intro h2
    rw [edgeDir_sim hk cs _ (by omega), edgeDir_sim hk cs _ (by omega), edgeDir_sim hk cs _ (by omega),
      edgeDir_sim hk cs _ (by omega)]

theorem triangulate_sim (cs : List V3) (h3 : 3 ≤ cs.length) :
    ∃ ts : List (V3 × V3 × V3), triangulate cs = ts.map (fun t => Triangle.make t.1 t.2.1 t.2.2) ∧
      triangulate (cs.map (sim k v)) =
        ts.map (fun t => Triangle.make (sim k v t.1) (sim k v t.2.1) (sim k v t.2.2)) := by
  refine ⟨(cs.getD 0 0, cs.getD 1 0, cs.getD 2 0) ::
    (List.range' 2 (cs.length - 1 - 2)).map fun i => (cs.getD 0 0, cs.getD i 0, cs.getD (i + 1) 0), ?_, ?_⟩
  · simp [triangulate]
  · unfold triangulate
    simp only [List.map_cons, List.map_map, List.length_map, getD_sim cs 0 (by omega),
      getD_sim cs 1 (by omega), getD_sim cs 2 (by omega)]
    congr 1
    apply List.map_congr_left
    intro i hi
    rw [List.mem_range'_1] at hi
    simp only [Function.comp]
    rw [getD_sim cs i (by omega), getD_sim cs (i + 1) (by omega)]

theorem center_sim (a b c : V3) :
    (Triangle.make (sim k v a) (sim k v b) (sim k v c)).center = sim k v (Triangle.make a b c).center := by
  unfold Triangle.make sim
  ext <;> simp <;> ring

theorem subAreas_sim (hk : 0 < k) (cs : List V3) (h3 : 3 ≤ cs.length) (p : V3) :
    subTriangleAreas (cs.map (sim k v)) (sim k v p) = k ^ 2 * subTriangleAreas cs p := by
  unfold subTriangleAreas
  rw [mul_add, Finset.mul_sum, List.length_map, getD_sim cs _ (by omega), getD_sim cs _ (by omega),
    area_sim hk]
  congr 1
  apply Finset.sum_congr rfl
  intro i hi
  rw [Finset.mem_range] at hi
  rw [getD_sim cs _ (by omega), getD_sim cs _ (by omega), area_sim hk]

/-- Polygons: construction, containment for a tolerance in the unit of length and for the default
tolerance.  The results include the exception thrown for non-convex polygons. -/
theorem C71_polygon (cs : List V3) (pg : Polygon) (hm : Polygon.make cs = .val pg) (hk : 0 < k) :
    ∃ pg', Polygon.make (cs.map (sim k v)) = .val pg' ∧ pg'.isConvex = pg.isConvex ∧
      (∀ p eps b, pg'.contains (sim k v p) (k * eps) b = pg.contains p eps b) ∧
      (∀ p b, pg'.containsDefault (sim k v p) b = pg.containsDefault p b) := by
  unfold Polygon.make at hm
  split_ifs at hm with h3
  have h3 : 3 ≤ cs.length := by omega
  obtain ⟨conv, hconv, hm⟩ := Outcome.bind_eq_val.1 hm
  obtain ⟨ts, ht1, ht2⟩ := triangulate_sim (k := k) (v := v) cs h3
  set A := ((triangulate cs).map (·.area)).sum with hA
  have hA' : ((triangulate (cs.map (sim k v))).map (·.area)).sum = k ^ 2 * A := by
    rw [hA, ht1, ht2, List.map_map, List.map_map, ← List.sum_map_mul_left]
    congr 1
    apply List.map_congr_left
    intro t _
    exact area_sim hk _ _ _
  set S := ((triangulate cs).map fun t => t.area • t.center).sum with hS
  have hS' : ((triangulate (cs.map (sim k v))).map fun t => t.area • t.center).sum =
      (k ^ 2) • (k • S + A • v) := by
    rw [hS, hA, ht1, ht2, List.map_map, List.map_map, List.map_map]
    clear ht1 ht2
    induction ts with
    | nil => simp
    | cons t r ih =>
      simp only [List.map_cons, List.sum_cons, Function.comp] at ih ⊢
      rw [ih, area_sim hk, center_sim]
      unfold sim
      module
  have hmk : Polygon.make (cs.map (sim k v)) = .val
      { corners := cs.map (sim k v)
        plane := Plane.ofPoints (sim k v (cs.getD 0 0)) (sim k v (cs.getD 1 0)) (sim k v (cs.getD 2 0))
        center := if A = 0 then .nan else .val (sim k v (S.sdiv A))
        area_ := k ^ 2 * A
        isConvex := conv } := by
    unfold Polygon.make
    rw [if_neg (by rw [List.length_map]; omega), convexity_sim hk cs h3, hconv, Outcome.val_bind]
    simp only [hA', hS', getD_sim cs 0 (by omega), getD_sim cs 1 (by omega), getD_sim cs 2 (by omega),
      Outcome.pure_eq]
    congr 2
    by_cases h0 : A = 0
    · rw [if_pos h0, if_pos (by rw [h0, mul_zero])]
    · rw [if_neg h0, if_neg (mul_ne_zero (by positivity) h0)]
      congr 1
      ext <;> simp [V3.sdiv, sim] <;> field_simp
  simp only [Outcome.pure_eq, Outcome.val.injEq] at hm
  have hcont : ∀ p eps b, Polygon.contains
      { corners := cs.map (sim k v)
        plane := Plane.ofPoints (sim k v (cs.getD 0 0)) (sim k v (cs.getD 1 0)) (sim k v (cs.getD 2 0))
        center := if A = 0 then .nan else .val (sim k v (S.sdiv A))
        area_ := k ^ 2 * A
        isConvex := conv } (sim k v p) (k * eps) b = pg.contains p eps b := by
    intro p eps b
    unfold Polygon.contains
    subst hm
    by_cases hc : conv
    · simp only [if_pos hc]
      congr 1
      apply propext
      unfold Polygon.convexContains
      apply and_congr
      · simp only [ofPoints_sim hk]
      · simp only [subAreas_sim hk cs h3]
        exact area_scale hk _ _ _
    · simp only [if_neg hc]
  refine ⟨_, hmk, by rw [← hm], hcont, ?_⟩
  intro p b
  unfold Polygon.containsDefault
  have hpc : pg.center = if A = 0 then .nan else .val (S.sdiv A) := by rw [← hm]
  have hpi : pg.isConvex = conv := by rw [← hm]
  have hpcs : pg.corners = cs := by rw [← hm]
  by_cases h0 : A = 0
  · simp only [hpc, if_pos h0]
    by_cases hc : conv
    · rw [if_pos hc, if_pos (by rw [hpi]; exact hc)]
    · rw [if_neg hc, if_neg (by rw [hpi]; exact hc)]
  · simp only [hpc, if_neg h0]
    rw [← hcont, hpcs, getD_sim cs 0 (by omega), sim_sub, len_scale hk, ← mul_assoc, ← mul_assoc,
      mul_comm confusion k]
    simp only [if_neg h0]

/-! ### Disks and ellipses -/

/-- Full claim for disks: the answer does not depend on the unit of length. -/
def C71_disk_full : Prop :=
  ∀ (d : Elliptical) (p : V3) (k : ℝ), 0 < k → ValidElliptical d →
    (Disk.containsDefault (simElliptical k 0 d) (sim k 0 p) ↔ Disk.containsDefault d p)

/-- The same for ellipses. -/
def C71_ellipse_full : Prop :=
  ∀ (e : Elliptical) (p : V3) (k : ℝ), 0 < k → ValidElliptical e →
    (Ellipse.containsDefault (simElliptical k 0 e) (sim k 0 p) ↔ Ellipse.containsDefault e p)

theorem unit_circle_valid : ValidElliptical ⟨⟨0, 0, 0⟩, ⟨1, 0, 0⟩, ⟨0, 1, 0⟩, ⟨0, 0, 1⟩, 1, 1⟩ := by
  refine ⟨⟨?_, ?_, ?_, ?_, ?_, ?_, ?_⟩, by norm_num, by norm_num⟩ <;>
    norm_num [Spec.IsUnit, Spec.Orthogonal, Spec.inner, Spec.det]

/-- Both claims fail: the default tolerance is an absolute distance for the check on the plane.  A point
half that distance above the plane is contained if the unit is the metre, and not if it is the
centimetre. -/
theorem C71_disk_disproof : ¬ C71_disk_full := by
  intro h
  have h1 := (h ⟨⟨0, 0, 0⟩, ⟨1, 0, 0⟩, ⟨0, 1, 0⟩, ⟨0, 0, 1⟩, 1, 1⟩ ⟨0, 0, confusion / 2⟩ 100 (by norm_num)
    unit_circle_valid).2 (by
      have := confusion_pos
      refine ⟨fun _ => ?_, by norm_num, by norm_num, ?_⟩
      · simp only [Plane.contains, Elliptical.supportingPlane, Plane.ofBasis, V3.dot, V3.sub_x, V3.sub_y,
          V3.sub_z]
        rw [abs_lt]; constructor <;> linarith
      · simp only [V3.dot, V3.sub_x, V3.sub_y, V3.sub_z]
        norm_num
        positivity)
  have h2 := h1.1 rfl
  have := confusion_pos
  simp only [Plane.contains, Elliptical.supportingPlane, Plane.ofBasis, simElliptical, sim_sub, V3.dot,
    V3.sub_x, V3.sub_y, V3.sub_z, V3.smul_x, V3.smul_y, V3.smul_z, abs_lt] at h2
  linarith [h2.2]

theorem C71_ellipse_disproof : ¬ C71_ellipse_full := by
  intro h
  have h1 := (h ⟨⟨0, 0, 0⟩, ⟨1, 0, 0⟩, ⟨0, 1, 0⟩, ⟨0, 0, 1⟩, 1, 1⟩ ⟨1, 0, confusion / 2⟩ 100 (by norm_num)
    unit_circle_valid).2 (by
      have := confusion_pos
      refine ⟨fun _ => ?_, by norm_num, by norm_num, ?_⟩
      · simp only [Plane.contains, Elliptical.supportingPlane, Plane.ofBasis, V3.dot, V3.sub_x, V3.sub_y,
          V3.sub_z]
        rw [abs_lt]; constructor <;> linarith
      · simp only [V3.dot, V3.sub_x, V3.sub_y, V3.sub_z]
        norm_num
        positivity)
  have h2 := h1.1 rfl
  have := confusion_pos
  simp only [Plane.contains, Elliptical.supportingPlane, Plane.ofBasis, simElliptical, sim_sub, V3.dot,
    V3.sub_x, V3.sub_y, V3.sub_z, V3.smul_x, V3.smul_y, V3.smul_z, abs_lt] at h2
  linarith [h2.2]

/-- What holds: for points known to be in the plane (the check is skipped) or exactly in the plane, the
answer does not depend on the unit and origin.  Missing: points slightly outside of the plane. -/
theorem C71_disk_partial (d : Elliptical) (p : V3) (eps : ℝ) (hk : 0 < k) :
    (Disk.contains (simElliptical k v d) (sim k v p) eps false ↔ Disk.contains d p eps false) ∧
    (Ellipse.contains (simElliptical k v d) (sim k v p) eps false ↔ Ellipse.contains d p eps false) ∧
    ((p - d.center).dot d.normal = 0 → 
      (Disk.containsDefault (simElliptical k v d) (sim k v p) ↔ Disk.containsDefault d p) ∧
      (Ellipse.containsDefault (simElliptical k v d) (sim k v p) ↔ Ellipse.containsDefault d p)) := by
  have hz : ∀ a : ℝ, k * a * (k * a) ≠ 0 ↔ a * a ≠ 0 := fun a => by
    rw [show k * a * (k * a) = k ^ 2 * (a * a) by ring, mul_ne_zero_iff]
    exact and_iff_right (by positivity)
  have hq : ∀ x a : ℝ, k * x * (k * x) / (k * a * (k * a)) = x * x / (a * a) := fun x a => by
    rw [show k * a * (k * a) = k ^ 2 * (a * a) by ring, show k * x * (k * x) = k ^ 2 * (x * x) by ring]
    exact mul_div_mul_left _ _ (by positivity)
  have h1 : ∀ eps, Disk.contains (simElliptical k v d) (sim k v p) eps false ↔
      Disk.contains d p eps false := by
    intro eps
    simp only [Disk.contains, simElliptical, sim_sub, V3.smul_dot, hz, hq, Bool.false_eq_true,
      false_imp_iff, true_and]
  have h2 : ∀ eps, Ellipse.contains (simElliptical k v d) (sim k v p) eps false ↔
      Ellipse.contains d p eps false := by
    intro eps
    simp only [Ellipse.contains, simElliptical, sim_sub, V3.smul_dot, hz, hq, Bool.false_eq_true,
      false_imp_iff, true_and]
  refine ⟨h1 eps, h2 eps, fun hp => ?_⟩
  have pl : d.supportingPlane.contains p confusion := by
    simp only [Plane.contains, Elliptical.supportingPlane, Plane.ofBasis, hp, abs_zero, confusion_pos]
  have pl' : (simElliptical k v d).supportingPlane.contains (sim k v p) confusion := by
    simp only [Plane.contains, Elliptical.supportingPlane, Plane.ofBasis, simElliptical, sim_sub,
      V3.smul_dot, hp, mul_zero, abs_zero, confusion_pos]
  constructor
  · have a1 : ∀ (d : Elliptical) p, d.supportingPlane.contains p confusion →
        (Disk.containsDefault d p ↔ Disk.contains d p confusion false) := by
      intro d p h
      simp only [Disk.containsDefault, Disk.contains, h, implies_true, true_and]
    rw [a1 _ _ pl, a1 _ _ pl']
    exact h1 _
  · have a1 : ∀ (d : Elliptical) p, d.supportingPlane.contains p confusion →
        (Ellipse.containsDefault d p ↔ Ellipse.contains d p confusion false) := by
      intro d p h
      simp only [Ellipse.containsDefault, Ellipse.contains, h, implies_true, true_and]
    rw [a1 _ _ pl, a1 _ _ pl']
    exact h2 _

end Props
