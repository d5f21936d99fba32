import Verif.Model.Magnitude.Contained
import Verif.Lemmas.Contained
import Verif.Props.Shapes
import Verif.Props.PolygonArea

/-!
# Properties of the magnitude of the part of a geometry in a domain
-/

namespace Props
open Verif Frackit Lemmas MeasureTheory

/-! ## C78 Contained magnitude -/

/-- The kernel divides the common part of a face in the given plane and another shape into faces, and
computes the area of the faces. -/
structure ExactFaces (C : CommonKernel) (c u v : V3) : Prop where
  common : ∀ A D eps R, A.kind = .face → A.points ⊆ Set.range (Spec.planePoint c u v) →
    Spec.Borel A.points → Spec.Borel D.points → C.common A D eps = some R →
    Spec.Parts (Spec.planePoint c u v) (A.points ∩ D.points) ((C.faces R).map (·.points))
  area : ∀ f eps loc, f.points ⊆ Set.range (Spec.planePoint c u v) →
    Spec.area c u v (· ∈ f.points) ≠ ⊤ → C.faceArea f eps loc = (Spec.area c u v (· ∈ f.points)).toReal

/-- The kernel divides the common part of an edge on the given line and another shape into edges, and
computes the length of the edges. -/
structure ExactEdges (C : CommonKernel) (a b : V3) : Prop where
  common : ∀ A D eps R, A.kind = .edge → A.points ⊆ Set.range (Spec.linePoint a b) →
    Spec.Borel A.points → Spec.Borel D.points → C.common A D eps = some R →
    Spec.Parts (Spec.linePoint a b) (A.points ∩ D.points) ((C.edges R).map (·.points))
  length : ∀ e, e.points ⊆ Set.range (Spec.linePoint a b) →
    Spec.lengthOn a b (· ∈ e.points) ≠ ⊤ → C.edgeLength e = (Spec.lengthOn a b (· ∈ e.points)).toReal

/-- A kernel that returns the common part as a single face. -/
noncomputable def idealFaces (c u v : V3) : CommonKernel where
  common A D _ := some ⟨.compound, A.points ∩ D.points, ∅⟩
  edges _ := []
  faces R := [⟨.face, R.points, ∅⟩]
  edgeLength _ := 0
  faceArea f _ _ := (Spec.area c u v (· ∈ f.points)).toReal

/-- A kernel that returns the common part as a single edge. -/
noncomputable def idealEdges (a b : V3) : CommonKernel where
  common A D _ := some ⟨.compound, A.points ∩ D.points, ∅⟩
  edges R := [⟨.edge, R.points, ∅⟩]
  faces _ := []
  edgeLength e := (Spec.lengthOn a b (· ∈ e.points)).toReal
  faceArea _ _ _ := 0

theorem parts_single {X : Type} [MeasureSpace X] (φ : X → V3) {S : Set V3} (h : Spec.Borel S) :
    Spec.Parts φ S [S] where
  borel := by simpa using h
  inside := by simp
  apart := by simp
  whole := by simp

/-- The assumptions on the kernel can be met. -/
theorem idealFaces_exact (c u v : V3) : ExactFaces (idealFaces c u v) c u v where
  common := by
    intro A D eps R _ _ hA hD hR
    cases hR
    exact parts_single _ (borel_inter hA hD)
  area _ _ _ _ _ := rfl

theorem idealEdges_exact (a b : V3) : ExactEdges (idealEdges a b) a b where
  common := by
    intro A D eps R _ _ hA hD hR
    cases hR
    exact parts_single _ (borel_inter hA hD)
  length _ _ _ := rfl

theorem foldl_add_sum {α : Type} (f : α → ℝ) (l : List α) (a : ℝ) :
    l.foldl (fun s x => s + f x) a = a + (l.map f).sum := by
  induction l generalizing a with
  | nil => simp
  | cons x t ih => simp only [List.foldl_cons, ih, List.map_cons, List.sum_cons]; ring

theorem toReal_sum {α : Type} (f : α → ENNReal) (l : List α) (h : ∀ x ∈ l, f x ≠ ⊤) :
    (l.map f).sum.toReal = (l.map fun x => (f x).toReal).sum ∧ (l.map f).sum ≠ ⊤ := by
  induction l with
  | nil => simp
  | cons x t ih =>
    obtain ⟨h1, h2⟩ := ih fun y hy => h y (.tail _ hy)
    have hx := h x (.head _)
    simp only [List.map_cons, List.sum_cons]
    exact ⟨by rw [ENNReal.toReal_add hx h2, h1], ENNReal.add_ne_top.2 ⟨hx, h2⟩⟩

theorem containedFaceArea_val {K : ShapeKernel} {C : CommonKernel} {g domain : DistArg} {a : Shape → ℝ}
    (h : containedFaceArea K C g domain = .val a) : ∃ eps loc, ∀ f, a f = C.faceArea f eps loc := by
  unfold containedFaceArea at h
  split at h
  · split at h
    · cases h; exact ⟨_, _, fun _ => rfl⟩
    · cases h
  · obtain ⟨eps, _, h⟩ := Outcome.bind_eq_val.1 h
    cases h; exact ⟨_, _, fun _ => rfl⟩
  · obtain ⟨eps, _, h⟩ := Outcome.bind_eq_val.1 h
    obtain ⟨ce, _, h⟩ := Outcome.bind_eq_val.1 h
    cases h; exact ⟨_, _, fun _ => rfl⟩
  · obtain ⟨eps, _, h⟩ := Outcome.bind_eq_val.1 h
    obtain ⟨ce, _, h⟩ := Outcome.bind_eq_val.1 h
    cases h; exact ⟨_, _, fun _ => rfl⟩
  · obtain ⟨eps, _, h⟩ := Outcome.bind_eq_val.1 h
    cases h; exact ⟨_, _, fun _ => rfl⟩
  · cases h

theorem doneOr_val {α : Type} {msg : String} {o : Option α} {a : α} (h : doneOr msg o = .val a) :
    o = some a := by
  cases o with
  | none => cases h
  | some b => cases h; rfl

theorem commonShape_val {K : ShapeKernel} {C : CommonKernel} {g domain : DistArg} {R : Shape}
    (h : commonShape K C g domain = .val R) :
    ∃ A D eps, getShape K g = .val A ∧ getShape K domain = .val D ∧ C.common A D eps = some R := by
  unfold commonShape at h
  obtain ⟨A, hA, h⟩ := Outcome.bind_eq_val.1 h
  obtain ⟨D, hD, h⟩ := Outcome.bind_eq_val.1 h
  obtain ⟨eps, _, h⟩ := Outcome.bind_eq_val.1 h
  exact ⟨A, D, eps, hA, hD, doneOr_val h⟩

theorem contained_two {K : ShapeKernel} {C : CommonKernel} {g domain : DistArg} {m : ℝ}
    (hg : g.dimension = some 2) (h : computeContainedMagnitude K C g domain = .val m) :
    ∃ R a, commonShape K C g domain = .val R ∧ containedFaceArea K C g domain = .val a ∧
      m = ((C.faces R).map a).sum := by
  unfold computeContainedMagnitude at h
  rw [hg] at h
  simp only at h
  split at h
  · cases h
  · obtain ⟨R, hR, h⟩ := Outcome.bind_eq_val.1 h
    obtain ⟨a, ha, h⟩ := Outcome.bind_eq_val.1 h
    refine ⟨R, a, hR, ha, ?_⟩
    split at h
    · rename_i he
      cases h
      rw [List.isEmpty_iff.1 he]; simp
    · cases h
      rw [foldl_add_sum]; simp

theorem contained_one {K : ShapeKernel} {C : CommonKernel} {g domain : DistArg} {m : ℝ}
    (hg : g.dimension = some 1) (h : computeContainedMagnitude K C g domain = .val m) :
    ∃ R, commonShape K C g domain = .val R ∧ m = ((C.edges R).map C.edgeLength).sum := by
  unfold computeContainedMagnitude at h
  rw [hg] at h
  simp only at h
  obtain ⟨R, hR, h⟩ := Outcome.bind_eq_val.1 h
  refine ⟨R, hR, ?_⟩
  split at h
  · rename_i he
    cases h
    rw [List.isEmpty_iff.1 he]; simp
  · cases h
    rw [foldl_add_sum]; simp

/-- The area of the part of a face in the plane. -/
theorem contained_area {K : ShapeKernel} {C : CommonKernel} {c u v : V3} (hC : ExactFaces C c u v)
    {g domain : DistArg} (hg : g.dimension = some 2) {A : Shape} (hA : getShape K g = .val A)
    (hk : A.kind = .face) (hpl : A.points ⊆ Set.range (Spec.planePoint c u v)) (hb : Spec.Borel A.points)
    (hfin : Spec.area c u v (· ∈ A.points) ≠ ⊤) {S : Set V3}
    (hS : ∀ D, getShape K domain = .val D → D.points = S) (hbD : Spec.Borel S) {m : ℝ}
    (h : computeContainedMagnitude K C g domain = .val m) :
    ENNReal.ofReal m = Spec.area c u v (fun p => p ∈ A.points ∧ p ∈ S) ∧ 0 ≤ m := by
  obtain ⟨R, a, hR, ha, hm⟩ := contained_two hg h
  obtain ⟨A', D, eps, hA', hD, hc⟩ := commonShape_val hR
  rw [hA] at hA'
  cases hA'
  obtain ⟨eps', loc, hf⟩ := containedFaceArea_val ha
  have hDS := hS D hD
  have hparts := hC.common A D eps R hk hpl hb (by rw [hDS]; exact hbD) hc
  have hsum := Parts.sum hparts (borel_plane c u v)
  have hle : ∀ f ∈ C.faces R, Spec.area c u v (· ∈ f.points) ≠ ⊤ := by
    intro f hfR
    refine ne_top_of_le_ne_top hfin (measure_mono ?_)
    intro w hw
    exact (hparts.inside _ (List.mem_map_of_mem hfR) hw).1
  have hval : ∀ f ∈ C.faces R, a f = (Spec.area c u v (· ∈ f.points)).toReal := by
    intro f hfR
    rw [hf]
    exact hC.area f _ _ (fun p hp => hpl (hparts.inside _ (List.mem_map_of_mem hfR) hp).1) (hle f hfR)
  obtain ⟨t1, t2⟩ := toReal_sum (fun f : Shape => Spec.area c u v (· ∈ f.points)) (C.faces R) hle
  have hm' : m = ((C.faces R).map fun f : Shape => Spec.area c u v (· ∈ f.points)).sum.toReal := by
    rw [hm, t1]
    congr 1
    exact List.map_congr_left hval
  refine ⟨?_, by rw [hm']; exact ENNReal.toReal_nonneg⟩
  rw [hm', ENNReal.ofReal_toReal t2]
  rw [List.map_map] at hsum
  have : Spec.area c u v (fun p => p ∈ A.points ∧ p ∈ S)
      = volume (Spec.planePoint c u v ⁻¹' (A.points ∩ D.points)) := by rw [hDS]; rfl
  rw [this, hsum]
  rfl

/-- The points of a planar figure are the points of the plane with the given coordinates. -/
def PlanarFigure (c u v : V3) : AnyGeometry → Prop
  | .disk d => ValidElliptical d ∧ c = d.center ∧ u = d.major ∧ v = d.minor
  | .quadrilateral q => q = Quadrilateral.make q.p0 q.p1 q.p2 q.p3 ∧ [q.p0, q.p1, q.p3, q.p2].Nodup ∧
      ∃ n, Spec.RightHandedOrthonormal u v n ∧ Spec.PlanarPolygon n c [q.p0, q.p1, q.p3, q.p2] ∧
        Spec.ConvexPolygon n [q.p0, q.p1, q.p3, q.p2]
  | .polygon pg => Polygon.make pg.corners = .val pg ∧ pg.corners.Nodup ∧
      ∃ n, Spec.RightHandedOrthonormal u v n ∧ Spec.PlanarPolygon n c pg.corners ∧
        Spec.ConvexPolygon n pg.corners
  | _ => False

theorem figure_facts {c u v : V3} {g : AnyGeometry} (hg : PlanarFigure c u v g) :
    ValidGeom g ∧ g.dimension = 2 ∧ pointsOf g ⊆ Set.range (Spec.planePoint c u v) ∧ Spec.Borel (pointsOf g) ∧
      ∃ M, computeMagnitude g = .val M ∧ 0 ≤ M ∧ Spec.area c u v (· ∈ pointsOf g) = ENNReal.ofReal M := by
  have hull : ∀ {n : V3} {cs : List V3}, Spec.RightHandedOrthonormal u v n → Spec.PlanarPolygon n c cs →
      Spec.ConvexPolygon n cs → {p | Spec.InHull cs p} ⊆ Set.range (Spec.planePoint c u v) := by
    intro n cs hf hpl hcv p hp
    have hon := (hull_inPolygon hpl hcv hp).1
    refine ⟨![(p - c).dot u, (p - c).dot v], ?_⟩
    exact (localPoint_of_plane hf hon).symm
  cases g with
  | disk d =>
    obtain ⟨hd, rfl, rfl, rfl⟩ := hg
    refine ⟨hd, rfl, ?_, borel_disk _ _ _ hd.maj_pos hd.min_pos, C23_disk d hd⟩
    rintro p ⟨x, y, _, rfl⟩
    exact ⟨![x, y], rfl⟩
  | quadrilateral q =>
    obtain ⟨hq, hnd, n, hf, hpl, hcv⟩ := hg
    refine ⟨⟨n, c, hf.2.2.1, hnd, hpl, hcv⟩, rfl, hull hf hpl hcv, borel_hull _, ?_⟩
    have := C23_quadrilateral c u v n q.p0 q.p1 q.p2 q.p3 hf hpl hcv hnd
    rw [← hq] at this
    exact this
  | polygon pg =>
    obtain ⟨hm, hnd, n, hf, hpl, hcv⟩ := hg
    refine ⟨⟨(polygon_make_val hm).1, n, c, hf.2.2.1, hnd, hpl, hcv⟩, rfl, hull hf hpl hcv, borel_hull _, ?_⟩
    exact C23_polygon c u v n pg.corners pg hf hpl hcv hnd hm
  | _ => exact hg.elim

/-- Points have contained magnitude zero. -/
theorem C78_point (K : ShapeKernel) (C : CommonKernel) (p : V3) (domain : DistArg) :
    computeContainedMagnitude K C (.geom (.point p)) domain = .val 0 := rfl

/-- So do vertices. -/
theorem C78_vertex (K : ShapeKernel) (C : CommonKernel) (s : Shape) (hs : s.kind = .vertex) (domain : DistArg) :
    computeContainedMagnitude K C (.shape s) domain = .val 0 := by
  simp [computeContainedMagnitude, DistArg.dimension, hs]

example : (⟨.vertex, {(0 : V3)}, ∅⟩ : Shape).kind = .vertex := rfl

/-- Disks, convex quadrilaterals and convex polygons: the area of the set of their points in the domain. -/
theorem C78_area (K : ShapeKernel) (hK : Faithful K) (C : CommonKernel) (c u v : V3) (hC : ExactFaces C c u v)
    (g : AnyGeometry) (hg : PlanarFigure c u v g) (domain : DistArg) (hdom : ValidArg domain)
    (hb : Spec.Borel (argPoints domain)) (m : ℝ)
    (h : computeContainedMagnitude K C (.geom g) domain = .val m) :
    ENNReal.ofReal m = Spec.area c u v (fun p => p ∈ pointsOf g ∧ p ∈ argPoints domain) ∧ 0 ≤ m := by
  obtain ⟨hv, h2, hpl, hbg, M, _, _, hM⟩ := figure_facts hg
  have hd2 : (DistArg.geom g).dimension = some 2 := by
    show some g.dimension = _; rw [h2]
  obtain ⟨R, _, hR, _⟩ := contained_two hd2 h
  obtain ⟨A, _, _, hA, _, _⟩ := commonShape_val hR
  obtain ⟨hp, hk⟩ := C72_shape_partial K hK g hv A hA
  have hkind : A.kind = .face := by
    rcases hk with ⟨e, _⟩ | ⟨e, _⟩ | ⟨_, e⟩ | ⟨e, _⟩
    · omega
    · omega
    · exact e
    · omega
  rw [← hp] at hpl hbg ⊢
  refine contained_area hC hd2 hA hkind hpl hbg ?_ (fun D hD => shape_points hK hdom hD) hb h
  rw [hp, hM]
  exact ENNReal.ofReal_ne_top

/-- The contained area is at most the area of the geometry, the area of the geometry if it is inside the
domain, and zero if it is outside. -/
theorem C78_bounds (K : ShapeKernel) (hK : Faithful K) (C : CommonKernel) (c u v : V3)
    (hC : ExactFaces C c u v) (g : AnyGeometry) (hg : PlanarFigure c u v g) (domain : DistArg)
    (hdom : ValidArg domain) (hb : Spec.Borel (argPoints domain)) (m M : ℝ)
    (h : computeContainedMagnitude K C (.geom g) domain = .val m) (hM : computeMagnitude g = .val M) :
    0 ≤ m ∧ m ≤ M ∧ (pointsOf g ⊆ argPoints domain → m = M) ∧
      ((∀ p ∈ pointsOf g, p ∉ argPoints domain) → m = 0) := by
  obtain ⟨h1, h0⟩ := C78_area K hK C c u v hC g hg domain hdom hb m h
  obtain ⟨_, _, _, _, M', hM', hM0, hMa⟩ := figure_facts hg
  rw [hM] at hM'
  cases hM'
  refine ⟨h0, ?_, fun hin => ?_, fun hout => ?_⟩
  · rw [← ENNReal.ofReal_le_ofReal_iff hM0, h1, ← hMa]
    exact measure_mono fun w hw => hw.1
  · have : ENNReal.ofReal m = ENNReal.ofReal M := by
      rw [h1, ← hMa]
      congr 1
      funext p
      exact propext ⟨fun hp => hp.1, fun hp => ⟨hp, hin hp⟩⟩
    exact (ENNReal.ofReal_eq_ofReal_iff h0 hM0).1 this
  · have : ENNReal.ofReal m = 0 := by
      rw [h1]
      have : (fun p => p ∈ pointsOf g ∧ p ∈ argPoints domain) = fun _ => False := by
        funext p
        exact propext ⟨fun hp => hout p hp.1 hp.2, False.elim⟩
      rw [this]
      unfold Spec.area
      simp
    exact le_antisymm (ENNReal.ofReal_eq_zero.1 this) h0

/-- The contained area does not decrease if the domain grows. -/
theorem C78_monotone (K : ShapeKernel) (hK : Faithful K) (C : CommonKernel) (c u v : V3)
    (hC : ExactFaces C c u v) (g : AnyGeometry) (hg : PlanarFigure c u v g) (d1 d2 : DistArg)
    (h1 : ValidArg d1) (h2 : ValidArg d2) (hb1 : Spec.Borel (argPoints d1)) (hb2 : Spec.Borel (argPoints d2))
    (hsub : argPoints d1 ⊆ argPoints d2) (m1 m2 : ℝ)
    (hm1 : computeContainedMagnitude K C (.geom g) d1 = .val m1)
    (hm2 : computeContainedMagnitude K C (.geom g) d2 = .val m2) : m1 ≤ m2 := by
  obtain ⟨e1, _⟩ := C78_area K hK C c u v hC g hg d1 h1 hb1 m1 hm1
  obtain ⟨e2, p2⟩ := C78_area K hK C c u v hC g hg d2 h2 hb2 m2 hm2
  rw [← ENNReal.ofReal_le_ofReal_iff p2, e1, e2]
  exact measure_mono fun w hw => ⟨hw.1, hsub hw.2⟩

/-- The areas contained in the two parts of a domain add up to the area contained in the domain, if the parts
share at most a set of zero area of the plane of the geometry. -/
theorem C78_additive (K : ShapeKernel) (hK : Faithful K) (C : CommonKernel) (c u v : V3)
    (hC : ExactFaces C c u v) (g : AnyGeometry) (hg : PlanarFigure c u v g) (d1 d2 d : DistArg)
    (h1 : ValidArg d1) (h2 : ValidArg d2) (h : ValidArg d) (hb1 : Spec.Borel (argPoints d1))
    (hb2 : Spec.Borel (argPoints d2)) (hb : Spec.Borel (argPoints d))
    (hun : ∀ p, p ∈ argPoints d ↔ p ∈ argPoints d1 ∨ p ∈ argPoints d2)
    (hov : Spec.area c u v (fun p => p ∈ argPoints d1 ∧ p ∈ argPoints d2) = 0) (m1 m2 m : ℝ)
    (hm1 : computeContainedMagnitude K C (.geom g) d1 = .val m1)
    (hm2 : computeContainedMagnitude K C (.geom g) d2 = .val m2)
    (hm : computeContainedMagnitude K C (.geom g) d = .val m) : m = m1 + m2 := by
  obtain ⟨e1, p1⟩ := C78_area K hK C c u v hC g hg d1 h1 hb1 m1 hm1
  obtain ⟨e2, p2⟩ := C78_area K hK C c u v hC g hg d2 h2 hb2 m2 hm2
  obtain ⟨e, p⟩ := C78_area K hK C c u v hC g hg d h hb m hm
  obtain ⟨_, _, _, hbg, _⟩ := figure_facts hg
  rw [← ENNReal.ofReal_eq_ofReal_iff p (add_nonneg p1 p2), ENNReal.ofReal_add p1 p2, e, e1, e2]
  show volume (Spec.planePoint c u v ⁻¹' (pointsOf g ∩ argPoints d))
    = volume (Spec.planePoint c u v ⁻¹' (pointsOf g ∩ argPoints d1))
      + volume (Spec.planePoint c u v ⁻¹' (pointsOf g ∩ argPoints d2))
  rw [← measure_union₀ (borel_plane c u v _ (borel_inter hbg hb2)).nullMeasurableSet]
  · congr 1
    ext w
    simp only [Set.mem_union, Set.mem_preimage, Set.mem_inter_iff, hun, and_or_left]
  · refine measure_mono_null ?_ hov
    rintro w ⟨hw1, hw2⟩
    exact ⟨hw1.2, hw2.2⟩

/-- Faces in a plane: the area of the set of their points in the domain. -/
theorem C78_face (K : ShapeKernel) (hK : Faithful K) (C : CommonKernel) (c u v : V3) (hC : ExactFaces C c u v)
    (f : Shape) (hf : f.kind = .face) (hpl : f.points ⊆ Set.range (Spec.planePoint c u v))
    (hbf : Spec.Borel f.points) (hfin : Spec.area c u v (· ∈ f.points) ≠ ⊤) (domain : DistArg)
    (hdom : ValidArg domain) (hb : Spec.Borel (argPoints domain)) (m : ℝ)
    (h : computeContainedMagnitude K C (.shape f) domain = .val m) :
    ENNReal.ofReal m = Spec.area c u v (fun p => p ∈ f.points ∧ p ∈ argPoints domain) ∧ 0 ≤ m := by
  refine contained_area (A := f) hC ?_ rfl hf hpl hbf hfin (fun D hD => shape_points hK hdom hD) hb h
  simp only [DistArg.dimension, hf]

/-- Segments: the length of the set of their points in the domain. -/
theorem C78_length (K : ShapeKernel) (hK : Faithful K) (C : CommonKernel) (s : Segment)
    (hC : ExactEdges C s.source s.target) (hs : s.source ≠ s.target) (domain : DistArg) (hdom : ValidArg domain)
    (hb : Spec.Borel (argPoints domain)) (m : ℝ)
    (h : computeContainedMagnitude K C (.geom (.segment s)) domain = .val m) :
    ENNReal.ofReal m = Spec.lengthOn s.source s.target
      (fun p => Spec.OnSegment s.source s.target p ∧ p ∈ argPoints domain) ∧ 0 ≤ m := by
  obtain ⟨R, hR, hm⟩ := contained_one rfl h
  obtain ⟨A, D, eps, hA, hD, hc⟩ := commonShape_val hR
  obtain ⟨hk, hp⟩ := hK.edge _ _ _ (doneOr_val (show doneOr _ (K.edge s.source s.target) = .val A from hA))
  have hline : A.points ⊆ Set.range (Spec.linePoint s.source s.target) := by
    rw [hp]
    rintro p ⟨t, _, _, hx, hy, hz⟩
    exact ⟨t, (V3.ext hx hy hz).symm⟩
  have hDS := shape_points hK hdom hD
  have hparts := hC.common A D eps R hk hline (by rw [hp]; exact borel_segment _ _) (by rw [hDS]; exact hb) hc
  have hsum := Parts.sum hparts (borel_line _ _)
  have hle : ∀ e ∈ C.edges R, Spec.lengthOn s.source s.target (· ∈ e.points) ≠ ⊤ := by
    intro e he
    refine ENNReal.mul_ne_top ENNReal.ofReal_ne_top ?_
    refine ne_top_of_le_ne_top (b := volume (Set.Icc (0 : ℝ) 1)) (by simp) (measure_mono ?_)
    intro t ht
    have hA' := (hparts.inside _ (List.mem_map_of_mem he) ht).1
    rw [hp] at hA'
    obtain ⟨t', h0, h1, hx, hy, hz⟩ := hA'
    have : t = t' := by
      by_contra hne
      apply hs
      have hd : t' - t ≠ 0 := sub_ne_zero.2 (Ne.symm hne)
      apply V3.ext
      · apply mul_left_cancel₀ hd; simp only [Spec.linePoint] at hx; linarith
      · apply mul_left_cancel₀ hd; simp only [Spec.linePoint] at hy; linarith
      · apply mul_left_cancel₀ hd; simp only [Spec.linePoint] at hz; linarith
    rw [this]
    exact ⟨h0, h1⟩
  have hval : ∀ e ∈ C.edges R, C.edgeLength e = (Spec.lengthOn s.source s.target (· ∈ e.points)).toReal := by
    intro e he
    exact hC.length e (fun p hp => hline (hparts.inside _ (List.mem_map_of_mem he) hp).1) (hle e he)
  obtain ⟨t1, t2⟩ := toReal_sum (fun e : Shape => Spec.lengthOn s.source s.target (· ∈ e.points)) (C.edges R) hle
  have hm' : m = ((C.edges R).map fun e : Shape =>
      Spec.lengthOn s.source s.target (· ∈ e.points)).sum.toReal := by
    rw [hm, t1]
    congr 1
    exact List.map_congr_left hval
  refine ⟨?_, by rw [hm']; exact ENNReal.toReal_nonneg⟩
  rw [hm', ENNReal.ofReal_toReal t2]
  rw [List.map_map] at hsum
  have : Spec.lengthOn s.source s.target (fun p => Spec.OnSegment s.source s.target p ∧ p ∈ argPoints domain)
      = ENNReal.ofReal (Spec.dist s.source s.target)
        * volume (Spec.linePoint s.source s.target ⁻¹' (A.points ∩ D.points)) := by rw [hDS, hp]; rfl
  rw [this, hsum]
  unfold Spec.lengthOn
  rw [← List.sum_map_mul_left]
  rfl

/-- The contained length is at most the length of the segment, the length of the segment if it is inside the
domain, and zero if it is outside. -/
theorem C78_length_bounds (K : ShapeKernel) (hK : Faithful K) (C : CommonKernel) (s : Segment)
    (hC : ExactEdges C s.source s.target) (hs : s.source ≠ s.target) (domain : DistArg) (hdom : ValidArg domain)
    (hb : Spec.Borel (argPoints domain)) (m M : ℝ)
    (h : computeContainedMagnitude K C (.geom (.segment s)) domain = .val m)
    (hM : computeMagnitude (.segment s) = .val M) :
    0 ≤ m ∧ m ≤ M ∧ ((∀ p, Spec.OnSegment s.source s.target p → p ∈ argPoints domain) → m = M) ∧
      ((∀ p, Spec.OnSegment s.source s.target p → p ∉ argPoints domain) → m = 0) := by
  obtain ⟨h1, h0⟩ := C78_length K hK C s hC hs domain hdom hb m h
  have hMl : M = Spec.dist s.source s.target := by
    have : M = s.length := by simpa [computeMagnitude, AnyGeometry.dimension, computeLength] using hM.symm
    rw [this, Segment.length, V3.len_sub_comm, Spec.dist_eq_len]
  have hM0 : 0 ≤ M := by rw [hMl]; rw [Spec.dist_eq_len]; exact V3.len_nonneg _
  have hseg : {t : ℝ | Spec.OnSegment s.source s.target (Spec.linePoint s.source s.target t)} = Set.Icc 0 1 := by
    ext t
    constructor
    · rintro ⟨t', h0, h1, hx, hy, hz⟩
      have : t = t' := by
        by_contra hne
        apply hs
        have hd : t' - t ≠ 0 := sub_ne_zero.2 (Ne.symm hne)
        apply V3.ext
        · apply mul_left_cancel₀ hd; simp only [Spec.linePoint] at hx; linarith
        · apply mul_left_cancel₀ hd; simp only [Spec.linePoint] at hy; linarith
        · apply mul_left_cancel₀ hd; simp only [Spec.linePoint] at hz; linarith
      rw [this]
      exact ⟨h0, h1⟩
    · rintro ⟨h0, h1⟩
      exact ⟨t, h0, h1, rfl, rfl, rfl⟩
  have hMa : Spec.lengthOn s.source s.target (Spec.OnSegment s.source s.target) = ENNReal.ofReal M := by
    unfold Spec.lengthOn
    rw [hseg, hMl]
    simp
  refine ⟨h0, ?_, fun hin => ?_, fun hout => ?_⟩
  · rw [← ENNReal.ofReal_le_ofReal_iff hM0, h1, ← hMa]
    unfold Spec.lengthOn
    exact mul_le_mul_right (measure_mono fun t ht => ht.1) _
  · have : ENNReal.ofReal m = ENNReal.ofReal M := by
      rw [h1, ← hMa]
      congr 1
      funext p
      exact propext ⟨fun hp => hp.1, fun hp => ⟨hp, hin p hp⟩⟩
    exact (ENNReal.ofReal_eq_ofReal_iff h0 hM0).1 this
  · have : ENNReal.ofReal m = 0 := by
      rw [h1]
      have : (fun p => Spec.OnSegment s.source s.target p ∧ p ∈ argPoints domain) = fun _ => False := by
        funext p
        exact propext ⟨fun hp => hout p hp.1 hp.2, False.elim⟩
      rw [this]
      unfold Spec.lengthOn
      simp
    exact le_antisymm (ENNReal.ofReal_eq_zero.1 this) h0

/-- The length contained in a domain does not decrease if the domain grows. -/
theorem C78_length_monotone (K : ShapeKernel) (hK : Faithful K) (C : CommonKernel) (s : Segment)
    (hC : ExactEdges C s.source s.target) (hs : s.source ≠ s.target) (d1 d2 : DistArg) (h1 : ValidArg d1)
    (h2 : ValidArg d2) (hb1 : Spec.Borel (argPoints d1)) (hb2 : Spec.Borel (argPoints d2))
    (hsub : argPoints d1 ⊆ argPoints d2) (m1 m2 : ℝ)
    (hm1 : computeContainedMagnitude K C (.geom (.segment s)) d1 = .val m1)
    (hm2 : computeContainedMagnitude K C (.geom (.segment s)) d2 = .val m2) : m1 ≤ m2 := by
  obtain ⟨e1, _⟩ := C78_length K hK C s hC hs d1 h1 hb1 m1 hm1
  obtain ⟨e2, p2⟩ := C78_length K hK C s hC hs d2 h2 hb2 m2 hm2
  rw [← ENNReal.ofReal_le_ofReal_iff p2, e1, e2]
  unfold Spec.lengthOn
  refine mul_le_mul_right (measure_mono ?_) _
  rintro t ⟨ht1, ht2⟩
  exact ⟨ht1, hsub ht2⟩

/-- The lengths contained in the two parts of a domain add up to the length contained in the domain, if the parts share
at most a set of zero length of the line of the segment. -/
theorem C78_length_additive (K : ShapeKernel) (hK : Faithful K) (C : CommonKernel) (s : Segment)
    (hC : ExactEdges C s.source s.target) (hs : s.source ≠ s.target) (d1 d2 d : DistArg) (h1 : ValidArg d1)
    (h2 : ValidArg d2) (h : ValidArg d) (hb1 : Spec.Borel (argPoints d1)) (hb2 : Spec.Borel (argPoints d2))
    (hb : Spec.Borel (argPoints d)) (hun : ∀ p, p ∈ argPoints d ↔ p ∈ argPoints d1 ∨ p ∈ argPoints d2)
    (hov : Spec.lengthOn s.source s.target (fun p => p ∈ argPoints d1 ∧ p ∈ argPoints d2) = 0) (m1 m2 m : ℝ)
    (hm1 : computeContainedMagnitude K C (.geom (.segment s)) d1 = .val m1)
    (hm2 : computeContainedMagnitude K C (.geom (.segment s)) d2 = .val m2)
    (hm : computeContainedMagnitude K C (.geom (.segment s)) d = .val m) : m = m1 + m2 := by
  obtain ⟨e1, p1⟩ := C78_length K hK C s hC hs d1 h1 hb1 m1 hm1
  obtain ⟨e2, p2⟩ := C78_length K hK C s hC hs d2 h2 hb2 m2 hm2
  obtain ⟨e, p⟩ := C78_length K hK C s hC hs d h hb m hm
  have hpos : 0 < Spec.dist s.source s.target := by
    rw [Spec.dist_eq_len]
    refine lt_of_le_of_ne (V3.len_nonneg _) fun h0 => hs ?_
    rw [← sub_eq_zero]
    exact V3.len_eq_zero.1 h0.symm
  have hov' : volume (Spec.linePoint s.source s.target ⁻¹' (argPoints d1 ∩ argPoints d2)) = 0 := by
    unfold Spec.lengthOn at hov
    rcases mul_eq_zero.1 hov with h0 | h0
    · exact absurd (ENNReal.ofReal_eq_zero.1 h0) (not_le.2 hpos)
    · exact h0
  rw [← ENNReal.ofReal_eq_ofReal_iff p (add_nonneg p1 p2), ENNReal.ofReal_add p1 p2, e, e1, e2]
  unfold Spec.lengthOn
  rw [← mul_add]
  congr 1
  show volume (Spec.linePoint s.source s.target ⁻¹' ({p | Spec.OnSegment s.source s.target p} ∩ argPoints d))
    = volume (Spec.linePoint s.source s.target ⁻¹' ({p | Spec.OnSegment s.source s.target p} ∩ argPoints d1))
      + volume (Spec.linePoint s.source s.target ⁻¹' ({p | Spec.OnSegment s.source s.target p} ∩ argPoints d2))
  rw [← measure_union₀ (borel_line _ _ _ (borel_inter (borel_segment _ _) hb2)).nullMeasurableSet]
  · congr 1
    ext w
    simp only [Set.mem_union, Set.mem_preimage, Set.mem_inter_iff, hun, and_or_left]
  · refine measure_mono_null ?_ hov'
    rintro w ⟨hw1, hw2⟩
    exact ⟨hw1.2, hw2.2⟩

/-- Boxes, spheres and cylinders can be used as domains. -/
theorem C78_domains (g : AnyGeometry)
    (h : (∃ b, g = .box b) ∨ (∃ s, g = .sphere s) ∨ ∃ c, g = .cylinder c) : Spec.Borel (argPoints (.geom g)) := by
  rcases h with ⟨b, rfl⟩ | ⟨s, rfl⟩ | ⟨c, rfl⟩
  · exact borel_box _ _
  · exact borel_ball _ _
  · exact borel_cylinder _ _ _ _

/-- The contained magnitude is computed, in C++, for segments, disks, quadrilaterals and polygons (of nonzero
area) and domains that are boxes, spheres or cylinders, unless the kernel fails. -/
theorem C78_value (K : ShapeKernel) (hN : NeverFails K) (C : CommonKernel)
    (hNC : ∀ A D eps, ∃ R, C.common A D eps = some R) (g dom : AnyGeometry) (hg : ValidGeom g)
    (hd : ValidGeom dom) (hdom : (∃ b, dom = .box b) ∨ (∃ s, dom = .sphere s) ∨ ∃ c, dom = .cylinder c)
    (hk : (∃ s, g = .segment s) ∨ (∃ d, g = .disk d) ∨
      (∃ q z, g = .quadrilateral q ∧ q.center = .val z) ∨ ∃ pg z, g = .polygon pg ∧ pg.center = .val z) :
    ∃ m, computeContainedMagnitude K C (.geom g) (.geom dom) = .val m := by
  obtain ⟨D, hD⟩ := (C72_supported K dom).1 hN hd
    (by rintro t rfl; rcases hdom with ⟨_, h⟩ | ⟨_, h⟩ | ⟨_, h⟩ <;> cases h)
    (by rintro t rfl; rcases hdom with ⟨_, h⟩ | ⟨_, h⟩ | ⟨_, h⟩ <;> cases h)
    (by rintro ⟨_, _, rfl, _⟩; rcases hdom with ⟨_, h⟩ | ⟨_, h⟩ | ⟨_, h⟩ <;> cases h)
  obtain ⟨A, hA⟩ := (C72_supported K g).1 hN hg
    (by rintro t rfl; rcases hk with ⟨_, h⟩ | ⟨_, h⟩ | ⟨_, _, h, _⟩ | ⟨_, _, h, _⟩ <;> cases h)
    (by rintro t rfl; rcases hk with ⟨_, h⟩ | ⟨_, h⟩ | ⟨_, _, h, _⟩ | ⟨_, _, h, _⟩ <;> cases h)
    (by rintro ⟨_, _, rfl, _⟩; rcases hk with ⟨_, h⟩ | ⟨_, h⟩ | ⟨_, _, h, _⟩ | ⟨_, _, h, _⟩ <;> cases h)
  obtain ⟨eps, he⟩ : ∃ eps, defaultEpsilon K (.geom dom) = .val eps := by
    rcases hdom with ⟨b, rfl⟩ | ⟨s, rfl⟩ | ⟨c, rfl⟩ <;> exact ⟨_, rfl⟩
  obtain ⟨R, hR⟩ := hNC A D eps
  have hcs : commonShape K C (.geom g) (.geom dom) = .val R := by
    simp only [commonShape, hA, hD, he, hR, Outcome.val_bind, doneOr]
  rcases hk with ⟨s, rfl⟩ | ⟨d, rfl⟩ | ⟨q, z, rfl, hz⟩ | ⟨pg, z, rfl, hz⟩
  · simp only [computeContainedMagnitude, DistArg.dimension, AnyGeometry.dimension, hcs, Outcome.val_bind]
    split <;> exact ⟨_, rfl⟩
  · simp only [computeContainedMagnitude, DistArg.dimension, AnyGeometry.dimension, hcs, Outcome.val_bind,
      containedFaceArea, he, Outcome.pure_eq]
    split <;> exact ⟨_, rfl⟩
  · simp only [computeContainedMagnitude, DistArg.dimension, AnyGeometry.dimension, hcs, Outcome.val_bind,
      containedFaceArea, he, hz, Outcome.pure_eq]
    split <;> exact ⟨_, rfl⟩
  · simp only [computeContainedMagnitude, DistArg.dimension, AnyGeometry.dimension, hcs, Outcome.val_bind,
      containedFaceArea, he, hz, Outcome.pure_eq]
    split <;> exact ⟨_, rfl⟩

/-- It is also computed for faces, in terms of the areas the kernel reports for the faces of the common part, with the
default tolerance; for shells the call does not compile. -/
theorem C78_faces (K : ShapeKernel) (C : CommonKernel) (s : Shape) (dom : DistArg) (R : Shape)
    (hR : commonShape K C (.shape s) dom = .val R) :
    (s.kind = .face → computeContainedMagnitude K C (.shape s) dom
      = .val (((C.faces R).map fun f => C.faceArea f confusion 0).sum)) ∧
    (s.kind = .shell → computeContainedMagnitude K C (.shape s) dom = .ub) := by
  have hsum : ∀ (l : List Shape) (a : ℝ),
      l.foldl (fun size f => size + C.faceArea f confusion 0) a = a + (l.map fun f => C.faceArea f confusion 0).sum := by
    intro l
    induction l with
    | nil => simp
    | cons x l ih => intro a; simp [ih, add_assoc]
  constructor
  · intro hk
    simp only [computeContainedMagnitude, DistArg.dimension, hk, hR, Outcome.val_bind, containedFaceArea, if_pos]
    by_cases he : (C.faces R).isEmpty = true
    · rw [if_pos he]
      rw [List.isEmpty_iff] at he
      rw [he]
      rfl
    · rw [if_neg he, hsum, zero_add]
      rfl
  · intro hk
    simp only [computeContainedMagnitude, DistArg.dimension, hk, hR, Outcome.val_bind, containedFaceArea]
    rfl

/-- A unit box. -/
def unitBox : Box := ⟨-1, 1, -1, 1, -1, 1⟩

/-- The disk of radius 1/2 around the origin, in the plane z = 0. -/
noncomputable def smallDisk : Elliptical := ⟨⟨0, 0, 0⟩, ⟨1, 0, 0⟩, ⟨0, 1, 0⟩, ⟨0, 0, 1⟩, 1 / 2, 1 / 2⟩

theorem smallDisk_valid : ValidElliptical smallDisk :=
  ⟨by norm_num [smallDisk, Spec.RightHandedOrthonormal, Spec.IsUnit, Spec.Orthogonal, Spec.inner, Spec.det],
    by norm_num [smallDisk], by norm_num [smallDisk]⟩

/-- The hypotheses of the theorems are met by a disk in a box: the contained area is that of the disk. -/
example : ∃ m, computeContainedMagnitude idealKernel
      (idealFaces smallDisk.center smallDisk.major smallDisk.minor) (.geom (.disk smallDisk))
      (.geom (.box unitBox)) = .val m ∧ m = Disk.area smallDisk := by
  have hv := smallDisk_valid
  obtain ⟨m, hm⟩ := C78_value idealKernel idealKernel_neverFails
    (idealFaces smallDisk.center smallDisk.major smallDisk.minor) (fun _ _ _ => ⟨_, rfl⟩) (.disk smallDisk)
    (.box unitBox) hv (by norm_num [ValidGeom, unitBox]) (.inl ⟨_, rfl⟩) (.inr (.inl ⟨_, rfl⟩))
  refine ⟨m, hm, ?_⟩
  refine (C78_bounds idealKernel idealKernel_faithful _ _ _ _ (idealFaces_exact _ _ _) (.disk smallDisk)
    ⟨hv, rfl, rfl, rfl⟩ (.geom (.box unitBox)) (by norm_num [ValidArg, ValidGeom, unitBox])
    (C78_domains _ (.inl ⟨_, rfl⟩)) m _ hm rfl).2.2.1 ?_
  rintro p ⟨x, y, h, rfl⟩
  simp only [smallDisk] at h
  have hx := abs_le_of_sq_le_sq' (a := x / (1 / 2)) (b := 1) (by nlinarith [sq_nonneg (y / (1 / 2))]) (by norm_num)
  have hy := abs_le_of_sq_le_sq' (a := y / (1 / 2)) (b := 1) (by nlinarith [sq_nonneg (x / (1 / 2))]) (by norm_num)
  simp only [argPoints, pointsOf, Set.mem_ofPred_eq, Spec.InBox, Spec.localPoint, smallDisk, unitBox]
  refine ⟨?_, ?_, ?_, ?_, ?_, ?_⟩ <;> linarith

/-- The hypotheses of the theorems about lengths are met by a segment and two boxes that share a face of a third one. -/
example : ∃ m1 m2 m, (computeContainedMagnitude idealKernel (idealEdges ⟨-2, 0, 0⟩ ⟨2, 0, 0⟩)
      (.geom (.segment ⟨⟨-2, 0, 0⟩, ⟨2, 0, 0⟩⟩)) (.geom (.box ⟨-1, 0, -1, 1, -1, 1⟩)) = .val m1) ∧
    (computeContainedMagnitude idealKernel (idealEdges ⟨-2, 0, 0⟩ ⟨2, 0, 0⟩)
      (.geom (.segment ⟨⟨-2, 0, 0⟩, ⟨2, 0, 0⟩⟩)) (.geom (.box ⟨0, 1, -1, 1, -1, 1⟩)) = .val m2) ∧
    (computeContainedMagnitude idealKernel (idealEdges ⟨-2, 0, 0⟩ ⟨2, 0, 0⟩)
      (.geom (.segment ⟨⟨-2, 0, 0⟩, ⟨2, 0, 0⟩⟩)) (.geom (.box unitBox)) = .val m) ∧
    m1 ≤ m ∧ m = m1 + m2 := by
  have hs : (⟨-2, 0, 0⟩ : V3) ≠ ⟨2, 0, 0⟩ := fun h => by
    have := congrArg V3.x h
    norm_num at this
  have hv : ValidGeom (.segment ⟨⟨-2, 0, 0⟩, ⟨2, 0, 0⟩⟩) := trivial
  have hval : ∀ b : Box, ValidGeom (.box b) → ∃ m, computeContainedMagnitude idealKernel
      (idealEdges ⟨-2, 0, 0⟩ ⟨2, 0, 0⟩) (.geom (.segment ⟨⟨-2, 0, 0⟩, ⟨2, 0, 0⟩⟩)) (.geom (.box b)) = .val m :=
    fun b hb => C78_value idealKernel idealKernel_neverFails _ (fun _ _ _ => ⟨_, rfl⟩) _ _ hv hb (.inl ⟨_, rfl⟩)
      (.inl ⟨_, rfl⟩)
  have v1 : ValidGeom (.box ⟨-1, 0, -1, 1, -1, 1⟩) := by norm_num [ValidGeom]
  have v2 : ValidGeom (.box ⟨0, 1, -1, 1, -1, 1⟩) := by norm_num [ValidGeom]
  have v : ValidGeom (.box unitBox) := by norm_num [ValidGeom, unitBox]
  obtain ⟨m1, h1⟩ := hval _ v1
  obtain ⟨m2, h2⟩ := hval _ v2
  obtain ⟨m, h⟩ := hval _ v
  have hb : ∀ b : Box, Spec.Borel (argPoints (.geom (.box b))) := fun b => C78_domains _ (.inl ⟨_, rfl⟩)
  refine ⟨m1, m2, m, h1, h2, h, ?_, ?_⟩
  · refine C78_length_monotone idealKernel idealKernel_faithful _ ⟨⟨-2, 0, 0⟩, ⟨2, 0, 0⟩⟩ (idealEdges_exact _ _) hs
      (.geom (.box ⟨-1, 0, -1, 1, -1, 1⟩)) (.geom (.box unitBox)) v1 v (hb _) (hb _) ?_ m1 m h1 h
    intro p hp
    simp only [argPoints, pointsOf, Set.mem_ofPred_eq, Spec.InBox, unitBox] at hp ⊢
    obtain ⟨a, b, c⟩ := hp
    exact ⟨a, by linarith, c⟩
  · refine C78_length_additive idealKernel idealKernel_faithful _ ⟨⟨-2, 0, 0⟩, ⟨2, 0, 0⟩⟩ (idealEdges_exact _ _) hs
      (.geom (.box ⟨-1, 0, -1, 1, -1, 1⟩)) (.geom (.box ⟨0, 1, -1, 1, -1, 1⟩)) (.geom (.box unitBox)) v1 v2 v (hb _) (hb _) (hb _) ?_ ?_ m1 m2 m h1 h2 h
    · intro p
      simp only [argPoints, pointsOf, Set.mem_ofPred_eq, Spec.InBox, unitBox]
      constructor
      · rintro ⟨a, b, c⟩
        rcases le_total p.x 0 with hx | hx
        · exact .inl ⟨a, hx, c⟩
        · exact .inr ⟨hx, b, c⟩
      · rintro (⟨a, b, c⟩ | ⟨a, b, c⟩)
        · exact ⟨a, by linarith, c⟩
        · exact ⟨by linarith, b, c⟩
    · unfold Spec.lengthOn
      refine mul_eq_zero.2 (.inr (measure_mono_null (t := {1 / 2}) ?_ (by simp)))
      rintro t ⟨⟨_, hx, _⟩, hy, _⟩
      simp only [Spec.linePoint] at hx hy
      exact le_antisymm (by linarith) (by linarith)

/-! ## C79 Pointers to the base class -/

/-- Full claim: a pointer to a planar entity (disk, convex quadrilateral or convex polygon) can be used like
the entity itself. -/
def C79_full : Prop :=
  ∀ (K : ShapeKernel) (C : CommonKernel) (c u v : V3) (g : AnyGeometry) (domain : DistArg) (m : ℝ),
    PlanarFigure c u v g → computeContainedMagnitude K C (.geom g) domain = .val m →
    computeContainedMagnitudePtr K C g domain = .val m

/-- Pointers to disks and quadrilaterals are treated like the geometries; all others are rejected. -/
theorem C79_apply {α : Type} (f : AnyGeometry → Outcome α) (g : AnyGeometry) :
    ((∃ d, g = .disk d) ∨ (∃ q, g = .quadrilateral q) → applyOnGeometry f g = f g) ∧
    (¬ ((∃ d, g = .disk d) ∨ ∃ q, g = .quadrilateral q) → (applyOnGeometry f g).isThrown) := by
  constructor
  · rintro (⟨d, rfl⟩ | ⟨q, rfl⟩)
    · simp [applyOnGeometry, AnyGeometry.name, assignDisk]
    · simp [applyOnGeometry, AnyGeometry.name, assignQuadrilateral]
  · intro hn
    cases g with
    | disk d => exact (hn (.inl ⟨d, rfl⟩)).elim
    | quadrilateral q => exact (hn (.inr ⟨q, rfl⟩)).elim
    | _ => simp [applyOnGeometry, AnyGeometry.name, Outcome.isThrown]

/-- The claim fails: pointers to polygons are rejected. -/
theorem C79_disproof : ¬ C79_full := by
  intro h
  have h3 : 3 ≤ square5.length := by simp [square5]
  obtain ⟨pg, hm, hcs, _⟩ := polygon_make h3 square5_proper
  have hpl : Spec.PlanarPolygon ⟨0, 0, 1⟩ ⟨0, 0, 0⟩ square5 := planar_z0 _ (by simp [square5])
  have hf : Spec.RightHandedOrthonormal ⟨1, 0, 0⟩ ⟨0, 1, 0⟩ ⟨0, 0, 1⟩ := by
    norm_num [Spec.RightHandedOrthonormal, Spec.IsUnit, Spec.Orthogonal, Spec.inner, Spec.det]
  have hfig : PlanarFigure ⟨0, 0, 0⟩ ⟨1, 0, 0⟩ ⟨0, 1, 0⟩ (.polygon pg) := by
    refine ⟨by rw [hcs]; exact hm, by rw [hcs]; simp [square5], ⟨0, 0, 1⟩, hf, ?_, ?_⟩
    · rw [hcs]; exact hpl
    · rw [hcs]; exact square5_convex
  obtain ⟨z, hz, _⟩ := C21_centre_within ⟨0, 0, 1⟩ ⟨0, 0, 0⟩ square5 pg unit_z hpl square5_convex
    (by norm_num [Spec.shoelace, Spec.polyEdges, Spec.det, square5]) hm
  obtain ⟨m, hv⟩ := C78_value idealKernel idealKernel_neverFails (idealFaces 0 0 0) (fun _ _ _ => ⟨_, rfl⟩)
    (.polygon pg) (.box unitBox) (figure_facts hfig).1 (by norm_num [ValidGeom, unitBox]) (.inl ⟨_, rfl⟩)
    (.inr (.inr (.inr ⟨pg, z, rfl, hz⟩)))
  have := h _ _ _ _ _ _ _ _ hfig hv
  have ht := (C79_apply (fun geo => computeContainedMagnitude idealKernel (idealFaces 0 0 0) (.geom geo)
    (.geom (.box unitBox))) (.polygon pg)).2 (by rintro (⟨d, hd⟩ | ⟨q, hq⟩) <;> contradiction)
  rw [computeContainedMagnitudePtr] at this
  rw [this] at ht
  exact ht

/-- What holds: pointers to disks and quadrilaterals give the same contained magnitude as the geometries. -/
theorem C79_contained_partial (K : ShapeKernel) (C : CommonKernel) (g : AnyGeometry) (domain : DistArg)
    (h : (∃ d, g = .disk d) ∨ ∃ q, g = .quadrilateral q) :
    computeContainedMagnitudePtr K C g domain = computeContainedMagnitude K C (.geom g) domain :=
  (C79_apply _ g).1 h

/-- The constraints evaluated for pointers to disks and quadrilaterals are those of the geometries,
whichever of the arguments are pointers. -/
theorem C79_constraints_partial (eng : Engine AnyGeometry) (c : Constraints) (ptr1 ptr2 : Bool)
    (a b : AnyGeometry) (ha : ptr1 = true → (∃ d, a = .disk d) ∨ ∃ q, a = .quadrilateral q)
    (hb : ptr2 = true → (∃ d, b = .disk d) ∨ ∃ q, b = .quadrilateral q) :
    evaluatePtr eng c ptr1 ptr2 a b = Constraints.evaluate eng c a b := by
  cases ptr1 <;> cases ptr2 <;> simp only [evaluatePtr]
  · exact (C79_apply _ b).1 (hb rfl)
  · exact (C79_apply _ a).1 (ha rfl)
  · rw [(C79_apply _ a).1 (ha rfl), (C79_apply _ b).1 (hb rfl)]

/-- Pointers to other geometries are never accepted silently: the evaluation raises an error. -/
theorem C79_rejected (eng : Engine AnyGeometry) (c : Constraints) (ptr1 ptr2 : Bool) (a b : AnyGeometry)
    (h : (ptr1 = true ∧ ¬ ((∃ d, a = .disk d) ∨ ∃ q, a = .quadrilateral q)) ∨
      (ptr2 = true ∧ ¬ ((∃ d, b = .disk d) ∨ ∃ q, b = .quadrilateral q))) :
    (evaluatePtr eng c ptr1 ptr2 a b).isThrown := by
  rcases h with ⟨rfl, h⟩ | ⟨rfl, h⟩
  · cases ptr2 <;> simp only [evaluatePtr] <;> exact (C79_apply _ a).2 h
  · cases ptr1
    · exact (C79_apply _ b).2 h
    · by_cases ha : (∃ d, a = .disk d) ∨ ∃ q, a = .quadrilateral q
      · simp only [evaluatePtr]
        rw [(C79_apply _ a).1 ha]
        exact (C79_apply _ b).2 h
      · simp only [evaluatePtr]
        exact (C79_apply _ a).2 ha

/-- A polygon is rejected, a disk is not. -/
example (eng : Engine AnyGeometry) (c : Constraints) (pg : Polygon) :
    (evaluatePtr eng c true true (.disk smallDisk) (.polygon pg)).isThrown ∧
    evaluatePtr eng c true true (.disk smallDisk) (.disk smallDisk)
      = Constraints.evaluate eng c (.disk smallDisk) (.disk smallDisk) :=
  ⟨C79_rejected _ _ _ _ _ _ (.inr ⟨rfl, by rintro (⟨d, hd⟩ | ⟨q, hq⟩) <;> contradiction⟩),
    C79_constraints_partial _ _ _ _ _ _ (fun _ => .inl ⟨_, rfl⟩) fun _ => .inl ⟨_, rfl⟩⟩

/-- In Python, polygons are not supported; for the registered types, the result is that of the C++ function. -/
theorem C78_python (K : ShapeKernel) (C : CommonKernel) (g domain : DistArg) :
    (∀ m, pyComputeContainedMagnitude K C g domain = .val m → computeContainedMagnitude K C g domain = .val m) ∧
    (((∃ s, g = .geom (.segment s)) ∨ (∃ d, g = .geom (.disk d)) ∨ (∃ q, g = .geom (.quadrilateral q)) ∨
        ∃ f : Shape, f.kind = .face ∧ g = .shape f) →
      ((∃ b, domain = .geom (.box b)) ∨ (∃ c, domain = .geom (.cylinder c)) ∨
        ∃ s : Shape, s.kind = .solid ∧ domain = .shape s) →
      pyComputeContainedMagnitude K C g domain = computeContainedMagnitude K C g domain) ∧
    (∀ pg, g = .geom (.polygon pg) → (pyComputeContainedMagnitude K C g domain).isThrown) := by
  refine ⟨fun m h => ?_, fun hg hd => ?_, ?_⟩
  · unfold pyComputeContainedMagnitude at h
    split at h
    · exact h
    · cases h
  · unfold pyComputeContainedMagnitude
    rw [if_pos]
    rcases hg with ⟨_, rfl⟩ | ⟨_, rfl⟩ | ⟨_, rfl⟩ | ⟨_, hk, rfl⟩ <;>
      rcases hd with ⟨_, rfl⟩ | ⟨_, rfl⟩ | ⟨_, hk', rfl⟩ <;> simp [pyContainedRegistered, *]
  · rintro pg rfl
    simp [pyComputeContainedMagnitude, pyContainedRegistered]

end Props
