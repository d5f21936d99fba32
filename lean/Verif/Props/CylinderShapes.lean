import Verif.Props.IntersectionLists
import Verif.Props.PlanarPlanar
import Mathlib.Tactic.IntervalCases

/-!
# C52 for the geometries a cylinder surface is intersected with

Disks, convex quadrilaterals and convex polygons: the algorithms call the common algorithm with a
geometry and a characteristic length for which the general theorem applies.
-/

namespace Props
open Verif Frackit

/-- Every ellipse, and the ellipse of every arc, consists of exactly the common points of the plane
through `q` with normal `n` and the infinitely extended cylinder; there are no segments. -/
def SectionResult (c : CylinderSurface) (q n : V3) (gs : List IsGeom) : Prop :=
  (∀ s, .segment s ∉ gs) ∧
  ∀ e, (.ellipse e ∈ gs ∨ ∃ a, .arc a ∈ gs ∧ a.ellipse = e) →
    ∀ p, Spec.OnEllipse e.center e.major e.minor e.majLen e.minLen p ↔
      Spec.OnPlane q n p ∧ Spec.OnInfCylinder c.bottom.center c.bottom.normal c.radius p

/-- A plane inclined to the axis, or exactly orthogonal to it. -/
def CutsAxis (c : CylinderSurface) (n : V3) : Prop :=
  (n = c.bottom.normal ∨ n = -c.bottom.normal) ∨
    ¬ gpIsParallel n c.bottom.normal angular ∧ ¬ gpIsNormal n c.bottom.normal angular

theorem ofPoints_unit {a b c : V3} {pl : Plane} (h : Plane.ofPoints a b c = .val pl) :
    Spec.IsUnit pl.normal := by
  by_cases hc : Spec.Collinear a b c
  · rw [C03_plane_from_collinear_points a b c hc] at h; cases h
  · obtain ⟨pl', h', hf, _⟩ := C03_plane_from_points a b c hc
    rw [h] at h'
    rw [Outcome.val.inj h']; exact hf.2.2.1

theorem quadFace_parts {q : Quadrilateral} {ops : ShapeOps} {f : FaceGeom}
    (h : quadFace q ops = .val f) : q.plane = .val f.plane ∧ q.center = .val f.center := by
  unfold quadFace at h
  obtain ⟨pl, hpl, h⟩ := Outcome.bind_eq_val.1 h
  obtain ⟨c, hc, h⟩ := Outcome.bind_eq_val.1 h
  simp only [Outcome.pure_eq, Outcome.val.injEq] at h
  rw [hc, hpl, ← h]; exact ⟨rfl, rfl⟩

theorem polygonFace_parts {pg : Polygon} {ops : ShapeOps} {f : FaceGeom}
    (h : polygonFace pg ops = .val f) : pg.plane = .val f.plane ∧ pg.center = .val f.center := by
  unfold polygonFace at h
  obtain ⟨pl, hpl, h⟩ := Outcome.bind_eq_val.1 h
  obtain ⟨c, hc, h⟩ := Outcome.bind_eq_val.1 h
  simp only [Outcome.pure_eq, Outcome.val.injEq] at h
  rw [hc, hpl, ← h]; exact ⟨rfl, rfl⟩

theorem onPlane_of_halfspaces {q n x : V3} {cs : List V3} (h : ∀ c ∈ cs, Spec.OnPlane q n c)
    (hs : ∀ (m : V3) (a : ℝ), (∀ c ∈ cs, 0 ≤ m.dot c - a) → 0 ≤ m.dot x - a) : Spec.OnPlane q n x := by
  have h1 := hs n (n.dot q) (by
    intro c hc
    have := (Spec.onPlane_iff _ _ _).1 (h c hc)
    rw [V3.dot_sub] at this; linarith)
  have h2 := hs (-n) (-n.dot q) (by
    intro c hc
    have := (Spec.onPlane_iff _ _ _).1 (h c hc)
    rw [V3.dot_sub] at this; rw [V3.neg_dot]; linarith)
  rw [V3.neg_dot] at h2
  rw [Spec.onPlane_iff, V3.dot_sub]; linarith

/-- Cylinder surface and disk. -/
theorem C52_disk (K : Kernel) (c : CylinderSurface) (d : Elliptical) (shape : ShapeOps)
    (ops : CylPlanarOps) (eps : ℝ) (gs : List IsGeom) (hc : ValidSurface c) (hd : ValidElliptical d)
    (he : 0 < eps) (hdir : CutsAxis c d.normal)
    (hK : ExactPlaneLine K d.supportingPlane ⟨c.bottom.center, c.bottom.normal⟩)
    (h : intersectCylinderDisk K c d shape ops eps = .val gs) :
    SectionResult c d.center d.normal gs :=
  C52_results K c (diskFace d shape) ops (diskCharLength d) eps gs hc
    ⟨hd.frame.2.2.1, by
      show Spec.OnPlane d.center d.normal d.center
      rw [Spec.onPlane_iff]; simp⟩
    hd.maj_pos he hdir hK h

theorem cylQuad_pos {p0 p1 p2 p3 c : V3} (hc : (Quadrilateral.make p0 p1 p2 p3).center = .val c) :
    0 < cylQuadCharLength (Quadrilateral.make p0 p1 p2 p3) := by
  refine quad_center_pos hc ?_
  obtain ⟨_, h⟩ := foldl_max_ge (fun e : Segment => e.squaredLength)
    (quadEdges (Quadrilateral.make p0 p1 p2 p3)) 0
  have hseg : ∀ s : Segment, s ∈ quadEdges (Quadrilateral.make p0 p1 p2 p3) →
      Spec.dist s.source s.target ≤ cylQuadCharLength (Quadrilateral.make p0 p1 p2 p3) := by
    intro s hs
    rw [Spec.dist_comm, Spec.dist_eq_len]
    unfold V3.len cylQuadCharLength
    exact Real.sqrt_le_sqrt (h s hs)
  exact ⟨hseg ⟨_, _⟩ (by simp [quadEdges]), hseg ⟨_, _⟩ (by simp [quadEdges]),
    hseg ⟨_, _⟩ (by simp [quadEdges]), hseg ⟨_, _⟩ (by simp [quadEdges])⟩

/-- Cylinder surface and quadrilateral; quadrilaterals which are not convex are refused. -/
theorem C52_quadrilateral (K : Kernel) (c : CylinderSurface) (p0 p1 p2 p3 : V3) (shape : ShapeOps)
    (ops : CylPlanarOps) (f : FaceGeom) (eps : ℝ) (hc : ValidSurface c)
    (hf : quadFace (Quadrilateral.make p0 p1 p2 p3) shape = .val f)
    (hplanar : ∀ x ∈ [p0, p1, p2, p3], Spec.OnPlane f.plane.supp f.plane.normal x)
    (he : 0 < eps) (hdir : CutsAxis c f.plane.normal)
    (hK : ExactPlaneLine K f.plane ⟨c.bottom.center, c.bottom.normal⟩) :
    (¬ (Quadrilateral.make p0 p1 p2 p3).isConvex →
      ∃ m, intersectCylinderQuad K c (Quadrilateral.make p0 p1 p2 p3) shape ops eps = .thrown m) ∧
    ∀ gs, intersectCylinderQuad K c (Quadrilateral.make p0 p1 p2 p3) shape ops eps = .val gs →
      SectionResult c f.plane.supp f.plane.normal gs := by
  obtain ⟨hpl, hcen⟩ := quadFace_parts hf
  refine ⟨fun hn => ⟨_, by unfold intersectCylinderQuad; rw [if_pos hn]⟩, ?_⟩
  intro gs h
  unfold intersectCylinderQuad at h
  by_cases hconv : ¬ (Quadrilateral.make p0 p1 p2 p3).isConvex
  · rw [if_pos hconv] at h; cases h
  rw [if_neg hconv, hf, Outcome.val_bind] at h
  exact C52_results K c f ops _ eps gs hc
    ⟨ofPoints_unit hpl, onPlane_of_halfspaces hplanar (quad_center_halfspace hcen)⟩
    (cylQuad_pos hcen) he hdir hK h

theorem polygon_center_halfspace {cs : List V3} {pg : Polygon} {x : V3}
    (hm : Polygon.make cs = .val pg) (hc : pg.center = .val x) (m : V3) (a : ℝ)
    (h : ∀ c ∈ cs, 0 ≤ m.dot c - a) : 0 ≤ m.dot x - a := by
  obtain ⟨h3, hpe⟩ := polygon_make_val hm
  obtain ⟨pg', hm', _, _, _, hcen, _⟩ := polygon_make h3 hpe
  have e : pg = pg' := by rw [hm] at hm'; exact Outcome.val.inj hm'
  rw [← e, hc] at hcen
  by_cases hA : ((triangulate cs).map (·.area)).sum = 0
  · rw [if_pos hA] at hcen; cases hcen
  rw [if_neg hA] at hcen
  rw [Outcome.val.inj hcen]
  refine centre_halfspace h3 h (lt_of_le_of_ne ?_ (Ne.symm hA))
  refine List.sum_nonneg ?_
  intro y hy
  obtain ⟨t, ht, rfl⟩ := List.mem_map.1 hy
  rw [triangulate_eq cs h3] at ht
  obtain ⟨i, _, rfl⟩ := List.mem_map.1 ht
  exact area_nonneg _ _ _

/-- Cylinder surface and polygon; polygons which are not convex are refused. -/
theorem C52_polygon (K : Kernel) (c : CylinderSurface) (cs : List V3) (pg : Polygon) (shape : ShapeOps)
    (ops : CylPlanarOps) (f : FaceGeom) (eps : ℝ) (hc : ValidSurface c)
    (hm : Polygon.make cs = .val pg) (hf : polygonFace pg shape = .val f)
    (hplanar : ∀ x ∈ cs, Spec.OnPlane f.plane.supp f.plane.normal x)
    (he : 0 < eps) (hdir : CutsAxis c f.plane.normal)
    (hK : ExactPlaneLine K f.plane ⟨c.bottom.center, c.bottom.normal⟩) :
    (¬ pg.isConvex → ∃ m, intersectCylinderPolygon K c pg shape ops eps = .thrown m) ∧
    ∀ gs, intersectCylinderPolygon K c pg shape ops eps = .val gs →
      SectionResult c f.plane.supp f.plane.normal gs := by
  obtain ⟨hpl, hcen⟩ := polygonFace_parts hf
  refine ⟨fun hn => ⟨_, by unfold intersectCylinderPolygon; rw [if_pos hn]⟩, ?_⟩
  intro gs h
  unfold intersectCylinderPolygon at h
  by_cases hconv : ¬ pg.isConvex
  · rw [if_pos hconv] at h; cases h
  rw [if_neg hconv, hf, Outcome.val_bind, polygon_corners hm] at h
  obtain ⟨h3, hpe⟩ := polygon_make_val hm
  obtain ⟨pg', hm', _, hplane, _⟩ := polygon_make h3 hpe
  have e : pg = pg' := by rw [hm] at hm'; exact Outcome.val.inj hm'
  rw [← e, hpl] at hplane
  obtain ⟨_, g1⟩ := foldl_max_ge (fun v : V3 => 2 * (⟨f.center, v⟩ : Segment).squaredLength) cs 0
  have hL : 0 < cylPolygonCharLength cs f.center := by
    refine Real.sqrt_pos.2 (polygon_scale_pos hm (c := f.center) ?_)
    intro v hv
    have h1 := g1 v hv
    have h2 := V3.sqLen_nonneg (v - f.center)
    simp only [Segment.squaredLength] at h1 ⊢
    linarith
  exact C52_results K c f ops _ eps gs hc
    ⟨ofPoints_unit hplane.symm, onPlane_of_halfspaces hplanar (polygon_center_halfspace hm hcen)⟩
    hL he hdir hK h

/-- The hypotheses of `C52_disk` hold for the disk of radius two in the plane of the bottom of the unit
cylinder, of which the kernel finds the whole circle. -/
example : ∃ e, intersectCylinderDisk originKernel unitSurface
    ⟨0, ⟨1, 0, 0⟩, ⟨0, 1, 0⟩, ⟨0, 0, 1⟩, 2, 2⟩ ⟨fun _ _ => [], fun _ _ => []⟩
    ⟨true, [], [], [⟨true, 0, 0, []⟩]⟩ 1 = .val [.ellipse e] := by
  obtain ⟨e, h, _⟩ := C52_orthogonal originKernel unitSurface
    (diskFace ⟨0, ⟨1, 0, 0⟩, ⟨0, 1, 0⟩, ⟨0, 0, 1⟩, 2, 2⟩ ⟨fun _ _ => [], fun _ _ => []⟩) 2 1
    unitSurface_valid (.inl rfl)
  refine ⟨e, ?_⟩
  unfold intersectCylinderDisk intersectCylinderPlanar
  rw [show diskCharLength ⟨0, ⟨1, 0, 0⟩, ⟨0, 1, 0⟩, ⟨0, 0, 1⟩, 2, 2⟩ = 2 from rfl, h]
  simp [containedLoop]

theorem ofPoints_flat : Plane.ofPoints 0 ⟨1, 0, 0⟩ ⟨0, 1, 0⟩
    = .val ⟨0, ⟨1, 0, 0⟩, ⟨0, 1, 0⟩, ⟨0, 0, 1⟩⟩ := by
  have hx : mkDirection (⟨1, 0, 0⟩ : V3) = .val ⟨1, 0, 0⟩ :=
    mkDirection_of_unit (by norm_num [Spec.IsUnit])
  have hy : mkDirection (⟨0, 1, 0⟩ : V3) = .val ⟨0, 1, 0⟩ :=
    mkDirection_of_unit (by norm_num [Spec.IsUnit])
  have hz : mkDirection (⟨0, 0, 1⟩ : V3) = .val ⟨0, 0, 1⟩ :=
    mkDirection_of_unit (by norm_num [Spec.IsUnit])
  unfold Plane.ofPoints
  rw [sub_zero, hx, Outcome.val_bind, sub_zero,
    show (⟨1, 0, 0⟩ : V3).cross ⟨0, 1, 0⟩ = ⟨0, 0, 1⟩ by ext <;> simp [V3.cross], hz, Outcome.val_bind,
    show (⟨0, 0, 1⟩ : V3).cross ⟨1, 0, 0⟩ = ⟨0, 1, 0⟩ by ext <;> simp [V3.cross], hy, Outcome.val_bind]
  rfl

/-- The hypotheses of `C52_quadrilateral` hold for the unit square in the plane of the bottom, and the
result is an arc or nothing, depending on the boolean operations. -/
example : ∃ f, quadFace (Quadrilateral.make 0 ⟨1, 0, 0⟩ ⟨0, 1, 0⟩ ⟨1, 1, 0⟩) ⟨fun _ _ => [], fun _ _ => []⟩
      = .val f ∧
    (∀ x ∈ [(0 : V3), ⟨1, 0, 0⟩, ⟨0, 1, 0⟩, ⟨1, 1, 0⟩], Spec.OnPlane f.plane.supp f.plane.normal x) ∧
    CutsAxis unitSurface f.plane.normal ∧
    ExactPlaneLine originKernel f.plane ⟨unitSurface.bottom.center, unitSurface.bottom.normal⟩ := by
  have hA : (Triangle.make (0 : V3) ⟨1, 0, 0⟩ ⟨1, 1, 0⟩).area
      + (Triangle.make (0 : V3) ⟨1, 1, 0⟩ ⟨0, 1, 0⟩).area ≠ 0 := by
    norm_num [Triangle.make, V3.cross, V3.len, V3.sqLen]
  unfold quadFace
  simp only [Quadrilateral.make, ofPoints_flat, Outcome.val_bind]
  rw [if_neg hA]
  refine ⟨_, rfl, ?_, .inl (.inl rfl), ⟨0, rfl, ?_, ⟨0, ?_⟩⟩⟩
  · intro x hx
    simp only [List.mem_cons, List.not_mem_nil, or_false] at hx
    rcases hx with rfl | rfl | rfl | rfl <;> simp [Spec.OnPlane]
  · simp [Spec.OnPlane]
  · simp [unitSurface, unitCircle]

/-- The hypotheses of `C52_polygon` hold for a triangle in the plane of the bottom. -/
example : ∃ pg f, Polygon.make [0, ⟨1, 0, 0⟩, ⟨0, 1, 0⟩] = .val pg ∧
    polygonFace pg ⟨fun _ _ => [], fun _ _ => []⟩ = .val f ∧
    (∀ x ∈ [(0 : V3), ⟨1, 0, 0⟩, ⟨0, 1, 0⟩], Spec.OnPlane f.plane.supp f.plane.normal x) ∧
    CutsAxis unitSurface f.plane.normal ∧
    ExactPlaneLine originKernel f.plane ⟨unitSurface.bottom.center, unitSurface.bottom.normal⟩ := by
  obtain ⟨pg, hm, _, hpl, _, hcen, _⟩ := polygon_make (cs := [(0 : V3), ⟨1, 0, 0⟩, ⟨0, 1, 0⟩])
    (by simp) (by
      intro i hi
      simp only [List.length_cons, List.length_nil] at hi
      interval_cases i <;> simp [V3.ext_iff])
  rw [show Plane.ofPoints (List.getD [(0 : V3), ⟨1, 0, 0⟩, ⟨0, 1, 0⟩] 0 0)
    (List.getD [(0 : V3), ⟨1, 0, 0⟩, ⟨0, 1, 0⟩] 1 0) (List.getD [(0 : V3), ⟨1, 0, 0⟩, ⟨0, 1, 0⟩] 2 0)
    = _ from ofPoints_flat] at hpl
  have hA : ((triangulate [(0 : V3), ⟨1, 0, 0⟩, ⟨0, 1, 0⟩]).map (·.area)).sum ≠ 0 := by
    norm_num [triangulate, Triangle.make, V3.cross, V3.len, V3.sqLen]
  rw [if_neg hA] at hcen
  refine ⟨pg, _, hm, by unfold polygonFace; rw [hpl, hcen]; rfl, ?_, .inl (.inl rfl), ⟨0, rfl, ?_, ⟨0, ?_⟩⟩⟩
  · intro x hx
    simp only [List.mem_cons, List.not_mem_nil, or_false] at hx
    rcases hx with rfl | rfl | rfl <;> simp [Spec.OnPlane]
  · simp [Spec.OnPlane]
  · simp [unitSurface, unitCircle]

end Props
