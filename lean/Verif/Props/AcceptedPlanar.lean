import Verif.Props.AcceptedPair
import Verif.Props.CylinderShapes

/-!
# C124 Accepted entities fulfil the constraints geometrically: disks, quadrilaterals and polygons
-/

namespace Props
open Verif Frackit
open Spec.Constraints (config Config parts NoIntersection AtLeast PointOk AcceptBy NotLess BoundaryOkBy)
open Frackit.Constraints (Op run evaluate evaluateSet evaluateSets)

/-- What is needed of the functions of the library for one planar entity. -/
structure PlanarEntity (L : LibraryKernel) (a : DistArg) (pl : Plane) (tol : BoundaryTol) : Prop where
  valid : ValidArg a
  kind : ∀ b, ¬ PointSegment a b
  plane : angleArgument L a = .val (.planar pl)
  unit : Spec.IsUnit pl.normal
  bound : BoundaryKnown L a tol
  inPlane : ∀ p ∈ argPoints a, Spec.OnPlane pl.supp pl.normal p
  shape : ∃ s, getShape L.isk.shapes a = .val s
  plain : ∀ b, closedDistance a b = none

/-- The tolerance of the boundary of a disk: the default tolerance. -/
noncomputable def diskTol (d : Elliptical) : BoundaryTol :=
  ⟨confusion * 0.5 * (d.majLen + d.minLen), confusion * 0.5 * (d.majLen + d.minLen)⟩

/-- A tolerance of the boundary of a quadrilateral or polygon: the default tolerance and the deviation of the distances
to the edges. -/
def EdgeTol (K : ShapeKernel) (g : AnyGeometry) (cs : List V3) (tol : BoundaryTol) : Prop :=
  ∀ e, defaultEpsilon K (.geom g) = .val e → tol.off ≤ e ∧
    ∀ s ∈ Spec.polyEdges cs, e + 1 / 10 ^ 7 * Spec.dist s.1 s.2 ≤ tol.near

theorem edges_bad {edge : ℕ → Outcome Segment} {n : ℕ} {cs : List V3} {p : V3} {e m : ℝ} {tol : BoundaryTol}
    (h : Enumerates edge n cs) (he : 0 ≤ e) (ht : tol.off ≤ e ∧
      ∀ s ∈ Spec.polyEdges cs, e + 1 / 10 ^ 7 * Spec.dist s.1 s.2 ≤ tol.near) (hm : m ≤ doubleMax)
    (h1 : onEdgeLoop edge p e (List.range n) = .val false)
    (h2 : Below (distLoop (edgeDist edge p) doubleMax (List.range n)) m) :
    (∀ q, OnBoundary cs q → tol.off ≤ Spec.dist p q) ∧ ∃ q, OnBoundary cs q ∧ Spec.dist p q < m + tol.near := by
  obtain ⟨b, hb, h3, _⟩ := onBoundary_loop edge n cs p e h
  rw [h1] at hb
  have hb := Outcome.val.inj hb
  subst hb
  constructor
  · intro q hq
    by_contra hlt
    have := h3 ⟨q, hq, by linarith [ht.1]⟩
    cases this
  · obtain ⟨r, hr, _, _, h4⟩ := boundary_loop edge n cs p h
    rw [hr] at h2
    rcases h2 with h2 | ⟨x, hx, hxm⟩
    · cases h2
    · rw [← Outcome.val.inj hx] at hxm
      rcases h4 with h4 | ⟨s, hs, q, hq, hd⟩
      · rw [h4] at hxm; linarith
      · exact ⟨q, ⟨s, hs, hq⟩, by linarith [ht.2 s hs]⟩

theorem disk_entity {L : LibraryKernel} (hK : Faithful L.isk.shapes) (hN : NeverFails L.isk.shapes) {d : Elliptical} (h : ValidElliptical d) :
    PlanarEntity L (.geom (.disk d)) d.supportingPlane (diskTol d) where
  shape := (C72_supported L.isk.shapes (.disk d)).1 hN h (fun _ h => by cases h) (fun _ h => by cases h)
    (by simp [ClosedArc])
  plain b := by rcases b with (_|_|_|_|_|_|_|_|_|_|_|_|_|_)|_|_ <;> rfl
  valid := h
  kind b hb := by cases b <;> exact hb
  plane := rfl
  unit := h.frame.2.2.1
  bound := by
    have he : defaultEpsilon L.isk.shapes (.geom (.disk d)) = .val (diskTol d).near := by
      simp only [defaultEpsilon, boundingEllipse_val h, Outcome.val_bind]; rfl
    have hpos : 0 ≤ (diskTol d).near := by
      have := h.maj_pos
      have := h.min_pos
      simp only [diskTol, confusion]
      positivity
    constructor
    · intro p hp
      simp only [libraryEngine, he, Outcome.val_bind] at hp
      exact (C76_point_on_boundary_partial L.isk.shapes hK p (.disk d) _ h trivial true hp).1 rfl
    · intro p m _ hp hr
      simp only [libraryEngine, he, Outcome.val_bind] at hp
      have hoff := (C76_point_on_boundary_partial L.isk.shapes hK p (.disk d) _ h trivial false hp)
      constructor
      · intro q hq
        by_contra hlt
        have := hoff.2 ⟨q, hq, not_le.1 hlt⟩
        cases this
      · rcases hr with hr | ⟨r, hr, hrm⟩
        · exfalso
          obtain ⟨w, hw⟩ := hN.ellipseWire d.center d.normal d.major d.majLen d.minLen
          obtain ⟨s, hs⟩ := hN.vertex p
          simp only [libraryEngine, computeDistanceToBoundary, boundaryDistDisk, getShape, doneOr, hs,
            boundingEllipse_val h, Outcome.val_bind, ellipseShape, hw, distShapes] at hr
          split at hr <;> cases hr
        · have hset := C74_kernel_boundary L.isk.shapes hK (.geom (.point p)) (.geom (.disk d)) trivial h trivial r hr
          obtain ⟨p', hp', q, hq, hd⟩ := hset.2 (m - r) (by linarith)
          rw [show p' = p from hp'] at hd
          exact ⟨q, hq, by linarith⟩
    · intro p r hr q hq
      exact (C74_kernel_boundary L.isk.shapes hK (.geom (.point p)) (.geom (.disk d)) trivial h trivial r hr).1 p
        rfl q hq
  inPlane _ := region_inPlane h

theorem quad_entity {L : LibraryKernel} (hN : NeverFails L.isk.shapes) {p0 p1 p2 p3 : V3} {pl : Plane}
    {tol : BoundaryTol}
    (hp : (Quadrilateral.make p0 p1 p2 p3).plane = .val pl)
    (hq : ConvexFigure [p0, p1, p3, p2]) (hpl : ∀ c ∈ [p0, p1, p2, p3], Spec.OnPlane pl.supp pl.normal c)
    (ht : EdgeTol L.isk.shapes (.quadrilateral (Quadrilateral.make p0 p1 p2 p3)) [p0, p1, p3, p2] tol) :
    PlanarEntity L (.geom (.quadrilateral (Quadrilateral.make p0 p1 p2 p3))) pl tol where
  shape := (C72_supported L.isk.shapes (.quadrilateral (Quadrilateral.make p0 p1 p2 p3))).1 hN hq
    (fun _ h => by cases h) (fun _ h => by cases h) (by simp [ClosedArc])
  plain b := by rcases b with (_|_|_|_|_|_|_|_|_|_|_|_|_|_)|_|_ <;> rfl
  valid := hq
  kind b hb := by cases b <;> exact hb
  plane := by simp only [angleArgument, hp, Outcome.val_bind]; rfl
  unit := ofPoints_unit hp
  bound := by
    constructor
    · intro p hp
      obtain ⟨e, he, hp⟩ := Outcome.bind_eq_val.1 hp
      obtain ⟨b, hb, _, h2⟩ := C57_quadrilateral p p0 p1 p2 p3 e
      rw [show pointOnGeometryBoundary L.isk.shapes p (.geom (.quadrilateral (Quadrilateral.make p0 p1 p2 p3))) e =
        onBoundaryQuad p (Quadrilateral.make p0 p1 p2 p3) e from rfl, hb] at hp
      obtain ⟨s, hs, q, hq, hd⟩ := h2 (Outcome.val.inj hp)
      exact ⟨q, ⟨s, hs, hq⟩, lt_of_lt_of_le hd ((ht e he).2 s hs)⟩
    · intro p m hm hp hr
      obtain ⟨e, he, hp⟩ := Outcome.bind_eq_val.1 hp
      have he0 : 0 ≤ e := by
        rw [← Outcome.val.inj he]
        simp only [confusion]
        positivity
      exact edges_bad (quad_enumerates p0 p1 p2 p3) he0 (ht e he) hm hp hr
    · intro p r hr q hq
      obtain ⟨r', hr', _, h2, _⟩ := boundary_loop _ _ _ p (quad_enumerates p0 p1 p2 p3)
      have : Outcome.val r' = .val r := hr'.symm.trans hr
      rw [← Outcome.val.inj this]
      exact h2 q hq
  inPlane p hp := hull_inPlane hpl (hull_swap hp)

theorem polygon_entity {L : LibraryKernel} (hN : NeverFails L.isk.shapes) {cs : List V3} {pg : Polygon} {pl : Plane}
    {tol : BoundaryTol}
    (hm : Polygon.make cs = .val pg) (hp : pg.plane = .val pl)
    (hq : 3 ≤ cs.length ∧ ConvexFigure cs) (hpl : ∀ c ∈ cs, Spec.OnPlane pl.supp pl.normal c)
    (ht : EdgeTol L.isk.shapes (.polygon pg) cs tol) :
    PlanarEntity L (.geom (.polygon pg)) pl tol where
  shape := (C72_supported L.isk.shapes (.polygon pg)).1 hN
    (by show 3 ≤ pg.corners.length ∧ ConvexFigure pg.corners; rw [polygon_corners hm]; exact hq)
    (fun _ h => by cases h) (fun _ h => by cases h) (by simp [ClosedArc])
  plain b := by rcases b with (_|_|_|_|_|_|_|_|_|_|_|_|_|_)|_|_ <;> rfl
  valid := by
    show 3 ≤ pg.corners.length ∧ ConvexFigure pg.corners
    rw [polygon_corners hm]; exact hq
  kind b hb := by cases b <;> exact hb
  plane := by simp only [angleArgument, hp, Outcome.val_bind]; rfl
  unit := by
    have hm' := hm
    unfold Polygon.make at hm'
    split_ifs at hm' with h
    obtain ⟨c, hc, hm'⟩ := Outcome.bind_eq_val.1 hm'
    cases hm'
    exact ofPoints_unit hp
  bound := by
    have hcs := polygon_corners hm
    have hne : pg.corners ≠ [] := by
      intro h0
      rw [hcs] at h0
      rw [h0] at hq
      simp at hq
    constructor
    · intro p hp
      obtain ⟨e, he, hp⟩ := Outcome.bind_eq_val.1 hp
      obtain ⟨b, hb, _, h2⟩ := C57_polygon p cs pg e hm
      rw [show pointOnGeometryBoundary L.isk.shapes p (.geom (.polygon pg)) e = onBoundaryPolygon p pg e from rfl,
        hb] at hp
      obtain ⟨s, hs, q, hq, hd⟩ := h2 (Outcome.val.inj hp)
      refine ⟨q, ?_, lt_of_lt_of_le hd ((ht e he).2 s hs)⟩
      show OnBoundary pg.corners q
      rw [hcs]; exact ⟨s, hs, hq⟩
    · intro p m hm' hp hr
      obtain ⟨e, he, hp⟩ := Outcome.bind_eq_val.1 hp
      have he0 : 0 ≤ e := by
        obtain ⟨x, _, he⟩ := Outcome.bind_eq_val.1 he
        rw [← Outcome.val.inj he]
        simp only [confusion]
        positivity
      have ht' := ht e he
      rw [← hcs] at ht'
      exact edges_bad (polygon_enumerates pg hne) he0 ht' hm' hp hr
    · intro p r hr q hq
      obtain ⟨r', hr', _, h2, _⟩ := boundary_loop _ _ _ p (polygon_enumerates pg hne)
      have : Outcome.val r' = .val r := hr'.symm.trans hr
      rw [← Outcome.val.inj this]
      exact h2 q hq
  inPlane p hp := by
    have hp : Spec.InHull pg.corners p := hp
    rw [polygon_corners hm] at hp
    exact hull_inPlane hpl hp

/-! ### Pairs -/

theorem PairResult.symm {R1 R2 : V3 → Prop} {l : Line} {eps : ℝ} {g : IsGeom} (h : PairResult R1 R2 l eps g) :
    PairResult R2 R1 l eps g := by
  obtain ⟨h1, h2, h3, h4⟩ := h
  refine ⟨?_, ?_, ?_, ?_⟩
  · rcases h1 with h | ⟨p, h, a, b⟩ | ⟨s, h, hs⟩
    · exact .inl h
    · exact .inr (.inl ⟨p, h, b, a⟩)
    · exact .inr (.inr ⟨s, h, fun p hp => (hs p hp).symm⟩)
  · intro hn p p1 p2
    exact h2 (fun ⟨c, c1, c2⟩ => hn ⟨c, c2, c1⟩) p p2 p1
  · rintro ⟨q, q1, q2⟩ p hp
    obtain ⟨z, z1, z2, hz⟩ := h3 ⟨q, q2, q1⟩ p hp
    exact ⟨z, z2, z1, hz⟩
  · rintro ⟨q, q1, q2⟩
    obtain ⟨e, f, hef⟩ := h4 ⟨q, q2, q1⟩
    exact ⟨e, f, fun p => by rw [← hef p, and_comm]⟩

theorem PairResult.congr {R1 R2 S1 S2 : V3 → Prop} {l : Line} {eps : ℝ} {g : IsGeom} (h : PairResult R1 R2 l eps g)
    (h1 : ∀ p, R1 p ↔ S1 p) (h2 : ∀ p, R2 p ↔ S2 p) : PairResult S1 S2 l eps g := by
  rw [← funext fun p => propext (h1 p), ← funext fun p => propext (h2 p)]; exact h

/-- A polygon and a disk that is not much larger: the result of `intersect`. -/
theorem C50_interface_polygon_disk_partial (I : IsKernel) (hK : Faithful I.shapes)
    (hN : NeverFails I.shapes) (hB : BoundsContain I.shapes) (pg : Polygon) (cs : List V3) (d : Elliptical)
    (f : FaceGeom) (eps : ℝ) (l : Line) (r : Intersected)
    (hm : Polygon.make cs = .val pg) (hf : polygonFace pg (I.ops (.polygon pg)) = .val f)
    (hq : 3 ≤ cs.length ∧ ConvexFigure cs)
    (hpl : ∀ c ∈ cs, Spec.OnPlane f.plane.supp f.plane.normal c)
    (h : ValidElliptical d) (hmin : d.minLen ≤ d.majLen)
    (he : 0 < eps) (hle : eps ≤ 19 * polygonDiskCharLength cs f.center)
    (hsmall : d.majLen + eps ≤ 20 * polygonDiskCharLength cs f.center)
    (hl : ExactLine I.algo f.plane d.supportingPlane eps l)
    (hc1 : ExactCut f (Spec.InHull cs) (probingSegment f.center l (polygonDiskCharLength cs f.center)) (0.1 * eps))
    (hc2 : ExactCut (diskFace d (I.ops (.disk d))) (Elliptical.region d) (probingSegment d.center l
      (polygonDiskCharLength cs f.center)) (0.1 * eps))
    (hr : intersect I (.geom (.polygon pg)) (.geom (.disk d)) eps = .val r) :
    ∃ g, r = .geoms (.single g) ∧ PairResult (Spec.InHull cs) (Elliptical.region d) l eps g := by
  have k1 := polygon_corners hm
  refine interface_result hK hN hB (g1 := .polygon pg) (g2 := .disk d) ?_ h
    (fun _ h => by cases h) (fun _ h => by cases h) (fun _ h => by cases h) (fun _ h => by cases h)
    (by simp [ClosedArc]) (by simp [ClosedArc]) he
    ?_ (fun _ h => h) hr fun g hg => C50_polygon_disk_partial I.algo pg cs d _ _ f eps l g hm hf
      hpl h hmin he hle hsmall hl hc1 hc2 hg
  · show 3 ≤ pg.corners.length ∧ ConvexFigure pg.corners
    rw [k1]; exact hq
  · intro p hp
    show Spec.InHull pg.corners p
    rw [k1]; exact hp

/-- Two planar entities with a kernel that determines the line of intersection of the planes and the parts of the line in
the entities exactly; `tA`, `tB` are the tolerances of the boundaries. -/
inductive MeetExactly (I : IsKernel) (eps : ℝ) (l : Line) :
    DistArg → DistArg → Plane → Plane → BoundaryTol → BoundaryTol → Prop
  | disks (d1 d2 : Elliptical) (h1 : ValidElliptical d1) (h2 : ValidElliptical d2)
      (hmin1 : d1.minLen ≤ d1.majLen) (hmin2 : d2.minLen ≤ d2.majLen)
      (hle : eps ≤ 19 * diskDiskCharLength d1 d2)
      (hl : ExactLine I.algo d1.supportingPlane d2.supportingPlane eps l)
      (hc1 : ExactCut (diskFace d1 (I.ops (.disk d1))) (Elliptical.region d1)
        (probingSegment d1.center l (diskDiskCharLength d1 d2)) (0.1 * eps))
      (hc2 : ExactCut (diskFace d2 (I.ops (.disk d2))) (Elliptical.region d2)
        (probingSegment d2.center l (diskDiskCharLength d1 d2)) (0.1 * eps)) :
      MeetExactly I eps l (.geom (.disk d1)) (.geom (.disk d2)) d1.supportingPlane d2.supportingPlane
        (diskTol d1) (diskTol d2)
  | quadrilateralDisk (p0 p1 p2 p3 : V3) (d : Elliptical) (f : FaceGeom) (t : BoundaryTol)
      (hf : quadFace (Quadrilateral.make p0 p1 p2 p3) (I.ops (.quadrilateral (Quadrilateral.make p0 p1 p2 p3)))
        = .val f)
      (hq : ConvexFigure [p0, p1, p3, p2])
      (hpl : ∀ c ∈ [p0, p1, p2, p3], Spec.OnPlane f.plane.supp f.plane.normal c)
      (ht : EdgeTol I.shapes (.quadrilateral (Quadrilateral.make p0 p1 p2 p3)) [p0, p1, p3, p2] t)
      (h : ValidElliptical d) (hmin : d.minLen ≤ d.majLen)
      (hle : eps ≤ 18 * quadDiskCharLength (Quadrilateral.make p0 p1 p2 p3) d)
      (hl : ExactLine I.algo f.plane d.supportingPlane eps l)
      (hc1 : ExactCut f (Spec.InHull [p0, p1, p2, p3])
        (probingSegment f.center l (quadDiskCharLength (Quadrilateral.make p0 p1 p2 p3) d)) (0.1 * eps))
      (hc2 : ExactCut (diskFace d (I.ops (.disk d))) (Elliptical.region d)
        (probingSegment d.center l (quadDiskCharLength (Quadrilateral.make p0 p1 p2 p3) d)) (0.1 * eps)) :
      MeetExactly I eps l (.geom (.quadrilateral (Quadrilateral.make p0 p1 p2 p3))) (.geom (.disk d))
        f.plane d.supportingPlane t (diskTol d)
  | quadrilaterals (a0 a1 a2 a3 b0 b1 b2 b3 : V3) (f1 f2 : FaceGeom) (t1 t2 : BoundaryTol)
      (hf1 : quadFace (Quadrilateral.make a0 a1 a2 a3) (I.ops (.quadrilateral (Quadrilateral.make a0 a1 a2 a3)))
        = .val f1)
      (hf2 : quadFace (Quadrilateral.make b0 b1 b2 b3) (I.ops (.quadrilateral (Quadrilateral.make b0 b1 b2 b3)))
        = .val f2)
      (hq1 : ConvexFigure [a0, a1, a3, a2]) (hq2 : ConvexFigure [b0, b1, b3, b2])
      (hpl1 : ∀ c ∈ [a0, a1, a2, a3], Spec.OnPlane f1.plane.supp f1.plane.normal c)
      (hpl2 : ∀ c ∈ [b0, b1, b2, b3], Spec.OnPlane f2.plane.supp f2.plane.normal c)
      (ht1 : EdgeTol I.shapes (.quadrilateral (Quadrilateral.make a0 a1 a2 a3)) [a0, a1, a3, a2] t1)
      (ht2 : EdgeTol I.shapes (.quadrilateral (Quadrilateral.make b0 b1 b2 b3)) [b0, b1, b3, b2] t2)
      (hle : eps ≤ 18 *
        quadQuadCharLength (Quadrilateral.make a0 a1 a2 a3) (Quadrilateral.make b0 b1 b2 b3))
      (hl : ExactLine I.algo f1.plane f2.plane eps l)
      (hc1 : ExactCut f1 (Spec.InHull [a0, a1, a2, a3]) (probingSegment f1.center l
        (quadQuadCharLength (Quadrilateral.make a0 a1 a2 a3) (Quadrilateral.make b0 b1 b2 b3))) (0.1 * eps))
      (hc2 : ExactCut f2 (Spec.InHull [b0, b1, b2, b3]) (probingSegment f2.center l
        (quadQuadCharLength (Quadrilateral.make a0 a1 a2 a3) (Quadrilateral.make b0 b1 b2 b3))) (0.1 * eps)) :
      MeetExactly I eps l (.geom (.quadrilateral (Quadrilateral.make a0 a1 a2 a3)))
        (.geom (.quadrilateral (Quadrilateral.make b0 b1 b2 b3))) f1.plane f2.plane t1 t2
  | polygons (pg1 pg2 : Polygon) (cs1 cs2 : List V3) (f1 f2 : FaceGeom) (t1 t2 : BoundaryTol)
      (hm1 : Polygon.make cs1 = .val pg1) (hm2 : Polygon.make cs2 = .val pg2)
      (hf1 : polygonFace pg1 (I.ops (.polygon pg1)) = .val f1)
      (hf2 : polygonFace pg2 (I.ops (.polygon pg2)) = .val f2)
      (hq1 : 3 ≤ cs1.length ∧ ConvexFigure cs1) (hq2 : 3 ≤ cs2.length ∧ ConvexFigure cs2)
      (hpl1 : ∀ c ∈ cs1, Spec.OnPlane f1.plane.supp f1.plane.normal c)
      (hpl2 : ∀ c ∈ cs2, Spec.OnPlane f2.plane.supp f2.plane.normal c)
      (ht1 : EdgeTol I.shapes (.polygon pg1) cs1 t1) (ht2 : EdgeTol I.shapes (.polygon pg2) cs2 t2)
      (hle : eps ≤ 19 * polygonPolygonCharLength cs1 f1.center cs2 f2.center)
      (hl : ExactLine I.algo f1.plane f2.plane eps l)
      (hc1 : ExactCut f1 (Spec.InHull cs1) (probingSegment f1.center l
        (polygonPolygonCharLength cs1 f1.center cs2 f2.center)) (0.1 * eps))
      (hc2 : ExactCut f2 (Spec.InHull cs2) (probingSegment f2.center l
        (polygonPolygonCharLength cs1 f1.center cs2 f2.center)) (0.1 * eps)) :
      MeetExactly I eps l (.geom (.polygon pg1)) (.geom (.polygon pg2)) f1.plane f2.plane t1 t2
  | polygonDisk (pg : Polygon) (cs : List V3) (d : Elliptical) (f : FaceGeom) (t : BoundaryTol)
      (hm : Polygon.make cs = .val pg) (hf : polygonFace pg (I.ops (.polygon pg)) = .val f)
      (hq : 3 ≤ cs.length ∧ ConvexFigure cs)
      (hpl : ∀ c ∈ cs, Spec.OnPlane f.plane.supp f.plane.normal c)
      (ht : EdgeTol I.shapes (.polygon pg) cs t)
      (h : ValidElliptical d) (hmin : d.minLen ≤ d.majLen)
      (hle : eps ≤ 19 * polygonDiskCharLength cs f.center)
      (hsmall : d.majLen + eps ≤ 20 * polygonDiskCharLength cs f.center)
      (hl : ExactLine I.algo f.plane d.supportingPlane eps l)
      (hc1 : ExactCut f (Spec.InHull cs) (probingSegment f.center l (polygonDiskCharLength cs f.center)) (0.1 * eps))
      (hc2 : ExactCut (diskFace d (I.ops (.disk d))) (Elliptical.region d) (probingSegment d.center l
        (polygonDiskCharLength cs f.center)) (0.1 * eps)) :
      MeetExactly I eps l (.geom (.polygon pg)) (.geom (.disk d)) f.plane d.supportingPlane t (diskTol d)
  | swap (a b : DistArg) (p q : Plane) (tA tB : BoundaryTol) (h : typeOf a.toIs ≠ typeOf b.toIs)
      (hm : MeetExactly I eps l a b p q tA tB) : MeetExactly I eps l b a q p tB tA

theorem pair_number {L : LibraryKernel} {a b : DistArg} {tA tB : BoundaryTol} {p q : Plane}
    (ha : PlanarEntity L a p tA) (hb : PlanarEntity L b q tB) : (libraryEngine L).distance a b ≠ .nan := by
  obtain ⟨s, hs⟩ := ha.shape
  obtain ⟨t, ht⟩ := hb.shape
  intro h
  simp only [libraryEngine, computeDistance, ha.plain b, hs, ht, Outcome.val_bind, distShapes, doneOr] at h
  split at h <;> cases h

theorem planarPair_of {L : LibraryKernel} {a b : DistArg} {eps : ℝ} {tA tB : BoundaryTol} {p q : Plane} {l : Line}
    (he : 0 < eps) (hK : Faithful L.isk.shapes) (ha : PlanarEntity L a p tA) (hb : PlanarEntity L b q tB)
    (hl : ExactLine L.isk.algo p q eps l)
    (hr : ∀ r, intersect L.isk a.toIs b.toIs eps = .val r → ∃ g, r = .geoms (.single g) ∧
      PairResult (· ∈ argPoints a) (· ∈ argPoints b) l eps g) :
    PlanarPair L a b eps tA tB p.normal q.normal l :=
  ⟨he, hK, ha.valid, hb.valid, ha.kind b, ⟨pair_number ha hb, pair_number hb ha⟩, ⟨p, ha.plane, rfl, ha.unit⟩, ⟨q, hb.plane, rfl, hb.unit⟩, ha.bound, hb.bound,
    fun x hx hy => (hl.line x).2 ⟨ha.inPlane x hx, hb.inPlane x hy⟩, hr⟩

theorem PlanarPair.swap {L : LibraryKernel} {a b : DistArg} {eps : ℝ} {tA tB : BoundaryTol} {n m : V3} {l : Line}
    (h : PlanarPair L a b eps tA tB n m l) (ht : typeOf a.toIs ≠ typeOf b.toIs) :
    PlanarPair L b a eps tB tA m n l where
  eps_pos := h.eps_pos
  faithful := h.faithful
  validA := h.validB
  validB := h.validA
  surfaces hs := h.surfaces (by
    cases a with
    | geom g => cases b with
      | geom g' => cases g <;> cases g' <;> exact hs
      | line _ => exact hs.elim
      | shape _ => exact hs.elim
    | line _ => cases b with
      | geom g' => cases g' <;> exact hs
      | line _ => exact hs
      | shape _ => exact hs
    | shape _ => cases b with
      | geom g' => cases g' <;> exact hs
      | line _ => exact hs
      | shape _ => exact hs)
  number := h.number.symm
  planeA := h.planeB
  planeB := h.planeA
  boundA := h.boundB
  boundB := h.boundA
  onLine p hp hq := h.onLine p hq hp
  result r hr := by
    rw [← C77_order L.isk a.toIs b.toIs eps ht] at hr
    obtain ⟨g, hg, hp⟩ := h.result r hr
    exact ⟨g, hg, hp.symm⟩

/-- Algorithms of OpenCASCADE that make the right shapes, do not fail, and return bounding boxes that contain the
shapes. -/
structure SoundShapes (K : ShapeKernel) : Prop where
  faithful : Faithful K
  total : NeverFails K
  bounds : BoundsContain K

theorem meet_planarPair {L : LibraryKernel} (hS : SoundShapes L.isk.shapes) {a b : DistArg} {eps : ℝ} {tA tB : BoundaryTol}
    {p q : Plane} {l : Line} (he : 0 < eps) (h : MeetExactly L.isk eps l a b p q tA tB) :
    PlanarPair L a b eps tA tB p.normal q.normal l := by
  have hK := hS.faithful
  have hN := hS.total
  have hB := hS.bounds
  have hull4 : ∀ a b c d x : V3, Spec.InHull [a, b, c, d] x ↔ Spec.InHull [a, b, d, c] x := fun a b c d x =>
    ⟨hull_swap, hull_swap⟩
  induction h with
  | disks d1 d2 h1 h2 hmin1 hmin2 hle hl hc1 hc2 =>
    exact planarPair_of he hK (disk_entity hK hN h1) (disk_entity hK hN h2) hl fun r hr =>
      C50_interface_disks_partial L.isk hK hN hB d1 d2 eps l r h1 h2 hmin1 hmin2 he hle hl hc1 hc2 hr
  | quadrilateralDisk p0 p1 p2 p3 d f t hf hq hpl ht h hmin hle hl hc1 hc2 =>
    refine planarPair_of he hK (quad_entity hN (quadFace_parts hf).1 hq hpl ht) (disk_entity hK hN h) hl fun r hr => ?_
    obtain ⟨g, hg, hp⟩ := C50_interface_quadrilateral_disk_partial L.isk hK hN hB p0 p1 p2 p3 d f eps l r hf hq hpl h
      hmin he hle hl hc1 hc2 hr
    exact ⟨g, hg, hp.congr (hull4 _ _ _ _) fun _ => Iff.rfl⟩
  | quadrilaterals a0 a1 a2 a3 b0 b1 b2 b3 f1 f2 t1 t2 hf1 hf2 hq1 hq2 hpl1 hpl2 ht1 ht2 hle hl hc1 hc2 =>
    refine planarPair_of he hK (quad_entity hN (quadFace_parts hf1).1 hq1 hpl1 ht1)
      (quad_entity hN (quadFace_parts hf2).1 hq2 hpl2 ht2) hl fun r hr => ?_
    obtain ⟨g, hg, hp⟩ := C50_interface_quadrilaterals_partial L.isk hK hN hB a0 a1 a2 a3 b0 b1 b2 b3 f1 f2 eps l r hf1
      hf2 hq1 hq2 hpl1 hpl2 he hle hl hc1 hc2 hr
    exact ⟨g, hg, hp.congr (hull4 _ _ _ _) (hull4 _ _ _ _)⟩
  | polygons pg1 pg2 cs1 cs2 f1 f2 t1 t2 hm1 hm2 hf1 hf2 hq1 hq2 hpl1 hpl2 ht1 ht2 hle hl hc1 hc2 =>
    refine planarPair_of he hK (polygon_entity hN hm1 (polygonFace_parts hf1).1 hq1 hpl1 ht1)
      (polygon_entity hN hm2 (polygonFace_parts hf2).1 hq2 hpl2 ht2) hl fun r hr => ?_
    obtain ⟨g, hg, hp⟩ := C50_interface_polygons_partial L.isk hK hN hB pg1 pg2 cs1 cs2 f1 f2 eps l r hm1 hm2 hf1
      hf2 hq1 hq2 hpl1 hpl2 he hle hl hc1 hc2 hr
    refine ⟨g, hg, hp.congr (fun x => ?_) fun x => ?_⟩
    · show _ ↔ Spec.InHull pg1.corners x
      rw [polygon_corners hm1]
    · show _ ↔ Spec.InHull pg2.corners x
      rw [polygon_corners hm2]
  | polygonDisk pg cs d f t hm hf hq hpl ht h hmin hle hsmall hl hc1 hc2 =>
    refine planarPair_of he hK (polygon_entity hN hm (polygonFace_parts hf).1 hq hpl ht) (disk_entity hK hN h) hl
      fun r hr => ?_
    obtain ⟨g, hg, hp⟩ := C50_interface_polygon_disk_partial L.isk hK hN hB pg cs d f eps l r hm hf hq hpl h
      hmin he hle hsmall hl hc1 hc2 hr
    refine ⟨g, hg, hp.congr (fun x => ?_) fun _ => Iff.rfl⟩
    show _ ↔ Spec.InHull pg.corners x
    rw [polygon_corners hm]
  | swap a b p q tA tB ht hm ih => exact ih.swap ht

/-! ## C124 Accepted entities fulfil the constraints geometrically -/

/-- Two planar entities accepted by the constraints (as configured by any sequence of calls, at least one constraint being
active) fulfil the constraints geometrically, up to the tolerances: unless the entities only touch in one point of the
common line of their planes, or if a positive minimum distance is configured.
Missing: entities that only touch, with no minimum distance. -/
theorem C124_accepted_partial (L : LibraryKernel) (hS : SoundShapes L.isk.shapes) (ops : List Op) (a b : DistArg)
    (eps : ℝ) (tA tB : BoundaryTol) (p q : Plane) (l : Line) (he : 0 < eps) (h : MeetExactly L.isk eps l a b p q tA tB)
    (hact : ¬ (config ops.reverse).Inactive) (hu : UsedEps L (config ops.reverse) a b eps)
    (htouch : OnlyTouch l (argPoints a) (argPoints b) → ∃ d, (config ops.reverse).minDistance = some d ∧ 0 < d)
    (hacc : evaluate (libraryEngine L) (run ops) a b = .val true) :
    Spec.Fulfilled (config ops.reverse) (argPoints a) (argPoints b) (boundaryOf a) (boundaryOf b) p.normal q.normal
      eps tA.near tB.near :=
  accepted_fulfil (meet_planarPair hS he h) hu
    ((C35_accepts_exact (libraryEngine L) ops a b hact).1 hacc) htouch

/-- Two planar entities rejected by the constraints violate one of them geometrically, up to the tolerances. -/
theorem C124_rejected (L : LibraryKernel) (hS : SoundShapes L.isk.shapes) (ops : List Op) (a b : DistArg)
    (eps : ℝ) (tA tB : BoundaryTol) (p q : Plane) (l : Line) (he : 0 < eps)
    (h : MeetExactly L.isk eps l a b p q tA tB) (hu : UsedEps L (config ops.reverse) a b eps)
    (hmax : ∀ t, (config ops.reverse).minBoundaryDistance = some t → t ≤ doubleMax)
    (hrej : evaluate (libraryEngine L) (run ops) a b = .val false) :
    Spec.Violated (config ops.reverse) (argPoints a) (argPoints b) (boundaryOf a) (boundaryOf b) p.normal q.normal
      eps (tA.off - eps) (tA.near + eps) (tB.off - eps) (tB.near + eps) :=
  rejected_violate (confInv_run ops) (meet_planarPair hS he h) hu hmax hrej

/-- The same for an entity and a set of entities. -/
theorem C124_set_partial (L : LibraryKernel) (hS : SoundShapes L.isk.shapes) (ops : List Op) (set : List DistArg)
    (b : DistArg) (eps : ℝ) (he : 0 < eps) (hact : ¬ (config ops.reverse).Inactive)
    (hacc : evaluateSet (libraryEngine L) (run ops) set b = .val true) :
    ∀ a ∈ set, ∀ (tA tB : BoundaryTol) (p q : Plane) (l : Line), MeetExactly L.isk eps l a b p q tA tB →
      UsedEps L (config ops.reverse) a b eps →
      (OnlyTouch l (argPoints a) (argPoints b) → ∃ d, (config ops.reverse).minDistance = some d ∧ 0 < d) →
      Spec.Fulfilled (config ops.reverse) (argPoints a) (argPoints b) (boundaryOf a) (boundaryOf b) p.normal q.normal
        eps tA.near tB.near := by
  intro a ha tA tB p q l hm hu ht
  exact C124_accepted_partial L hS ops a b eps tA tB p q l he hm hact hu ht
    ((C37_set (libraryEngine L) (run ops) set b).1.1 hacc a ha)

/-- The property. -/
def C124_full : Prop :=
  ∀ (L : LibraryKernel), SoundShapes L.isk.shapes → ∀ (ops : List Op) (a b : DistArg) (eps : ℝ) (tA tB : BoundaryTol) (p q : Plane)
    (l : Line), 0 < eps → MeetExactly L.isk eps l a b p q tA tB → ¬ (config ops.reverse).Inactive →
    UsedEps L (config ops.reverse) a b eps → evaluate (libraryEngine L) (run ops) a b = .val true →
    Spec.Fulfilled (config ops.reverse) (argPoints a) (argPoints b) (boundaryOf a) (boundaryOf b) p.normal q.normal
      eps tA.near tB.near

/-- Algorithms for disks that touch each other in a point of the x axis. -/
noncomputable def touchLibrary : LibraryKernel where
  isk := { crossIsKernel with ops := fun _ => touchOps }
  curves _ := ⟨0, 0, fun _ => 0⟩
  surface _ := ⟨fun _ => (0, 0), fun _ => 0, fun _ _ => (0, 0)⟩
  arcLength _ := 0
  edgeLength _ := 0
  faceArea _ := 0

theorem touch_meet : MeetExactly touchLibrary.isk 1 xLine (.geom (.disk (flatDisk 1))) (.geom (.disk (uprightDisk 1)))
    (flatDisk 1).supportingPlane (uprightDisk 1).supportingPlane (diskTol (flatDisk 1)) (diskTol (uprightDisk 1)) :=
  .disks _ _ (flatDisk_valid 1) (uprightDisk_valid 1) (by simp [flatDisk]) (by simp [uprightDisk])
    (by rw [unit_charLength]; norm_num) (xAxis_exactLine 1 1 1)
    (by rw [unit_charLength]; exact touch_pair.cut1) (by rw [unit_charLength]; exact touch_pair.cut2)

theorem touch_accepted : evaluate (libraryEngine touchLibrary) (run [.setMinIntersectingAngle 3, .setIntersectionEpsilon 1])
    (.geom (.disk (flatDisk 1))) (.geom (.disk (uprightDisk 1))) = .val true := by
  have hi : intersect touchLibrary.isk (.geom (.disk (flatDisk 1))) (.geom (.disk (uprightDisk 1))) 1 =
      .val (.geoms (.single .empty)) := by
    rcases C77_bounding_boxes touchLibrary.isk boundedKernel_faithful boundedKernel_neverFails
      boundedKernel_contains (.disk (flatDisk 1)) (.disk (uprightDisk 1)) (flatDisk_valid 1) (uprightDisk_valid 1)
      1 one_pos _ rfl with h | ⟨h, _⟩
    · rw [h]
      show (do let r ← (do
        let g ← intersectDiskDisk xAxisKernel (flatDisk 1) (uprightDisk 1) touchOps touchOps 1
        pure (IsResult.single g)); pure (Intersected.geoms r)) = _
      rw [C50_disks_lost.2]
      rfl
    · exact absurd origin_common.2 (h 0 origin_common.1)
  have hact : ¬ (config [Op.setMinIntersectingAngle 3, .setIntersectionEpsilon 1].reverse).Inactive := by
    rintro ⟨_, h, _⟩
    cases h
  refine (C35_accepts_exact (libraryEngine touchLibrary) _ _ _ hact).2 ⟨.single .empty, ?_, .inl ⟨?_, ?_⟩⟩
  · show (do let r ← intersect touchLibrary.isk (.geom (.disk (flatDisk 1))) (.geom (.disk (uprightDisk 1))) 1
             r.toResult) = _
    rw [hi]
    rfl
  · simp [NoIntersection, parts]
  · intro d hd
    cases hd

/-- The property does not hold: two disks that touch each other in a point are accepted although the angle between them
is too small. -/
theorem C124_disproof : ¬ C124_full := by
  intro h
  have hS : SoundShapes touchLibrary.isk.shapes :=
    ⟨boundedKernel_faithful, boundedKernel_neverFails, boundedKernel_contains⟩
  have hf := h touchLibrary hS [.setMinIntersectingAngle 3, .setIntersectionEpsilon 1] _ _ 1 _ _ _ _ xLine one_pos touch_meet
    (by rintro ⟨_, h, _⟩; cases h) (.inl rfl) touch_accepted
  obtain ⟨e, f, _, ha, _⟩ := hf.meets ⟨0, origin_common⟩
  have h1 := ha 3 rfl _ (C53_plane_angle (flatDisk 1).supportingPlane (uprightDisk 1).supportingPlane
    (flatDisk_valid 1).frame.2.2.1 (uprightDisk_valid 1).frame.2.2.1).1
  have h2 := (C53_plane_angle (flatDisk 1).supportingPlane (uprightDisk 1).supportingPlane
    (flatDisk_valid 1).frame.2.2.1 (uprightDisk_valid 1).frame.2.2.1).2
  have := Real.pi_le_four
  linarith [h2.2.1]

/-- Algorithms for disks that meet in the x axis. -/
noncomputable def crossLibrary : LibraryKernel := { touchLibrary with isk := crossIsKernel }

theorem cross_cuts :
    ExactCut (diskFace (flatDisk 0) crossOps) (Elliptical.region (flatDisk 0))
      (probingSegment (flatDisk 0).center xLine 1) (0.1 * 1) ∧
    ExactCut (diskFace (uprightDisk 0) crossOps) (Elliptical.region (uprightDisk 0))
      (probingSegment (uprightDisk 0).center xLine 1) (0.1 * 1) :=
  ⟨.crossing ⟨-1, 0, 0⟩ ⟨1, 0, 0⟩ (by intro h; have := congrArg V3.x h; norm_num at this)
      (cut_of_line (fun p hp => (unit_cover 0 0 p hp).1) (cross_iff (flat_region_axis 0))) rfl,
    .crossing ⟨-1, 0, 0⟩ ⟨1, 0, 0⟩ (by intro h; have := congrArg V3.x h; norm_num at this)
      (cut_of_line (fun p hp => (unit_cover 0 0 p hp).2) (cross_iff (upright_region_axis 0))) rfl⟩

theorem cross_meet : MeetExactly crossLibrary.isk 1 xLine (.geom (.disk (flatDisk 0))) (.geom (.disk (uprightDisk 0)))
    (flatDisk 0).supportingPlane (uprightDisk 0).supportingPlane (diskTol (flatDisk 0)) (diskTol (uprightDisk 0)) :=
  .disks _ _ (flatDisk_valid 0) (uprightDisk_valid 0) (by simp [flatDisk]) (by simp [uprightDisk])
    (by rw [unit_charLength]; norm_num) (xAxis_exactLine 0 0 1)
    (by rw [unit_charLength]; exact cross_cuts.1) (by rw [unit_charLength]; exact cross_cuts.2)

/-- The disks meet in a segment, at a right angle. -/
theorem cross_evaluated : ∃ s : Segment, 2 ≤ s.length ∧
    (libraryEngine crossLibrary).intersect (.geom (.disk (flatDisk 0))) (.geom (.disk (uprightDisk 0))) (some 1) =
      .val (.single (.segment s)) ∧
    (libraryEngine crossLibrary).angle (.geom (.disk (flatDisk 0))) (.geom (.disk (uprightDisk 0)))
      (.single (.segment s)) = .val (Real.pi / 2) := by
  obtain ⟨g, hg, _, hcov, _⟩ := cross_intersect
  have m1 : Elliptical.region (flatDisk 0) ⟨-1, 0, 0⟩ := ((flat_region_axis 0 ⟨-1, 0, 0⟩).2 (by norm_num)).2
  have m2 : Elliptical.region (uprightDisk 0) ⟨-1, 0, 0⟩ := ((upright_region_axis 0 ⟨-1, 0, 0⟩).2 (by norm_num)).2
  have q1 : Elliptical.region (flatDisk 0) ⟨1, 0, 0⟩ := ((flat_region_axis 0 ⟨1, 0, 0⟩).2 (by norm_num)).2
  have q2 : Elliptical.region (uprightDisk 0) ⟨1, 0, 0⟩ := ((upright_region_axis 0 ⟨1, 0, 0⟩).2 (by norm_num)).2
  have hne : (⟨-1, 0, 0⟩ : V3) ≠ ⟨1, 0, 0⟩ := by
    intro h; have := congrArg V3.x h; norm_num at this
  have hcov := hcov (by
    rintro ⟨c, hc, _⟩
    have e1 := (hc ⟨-1, 0, 0⟩).1 ((flat_region_axis 0 ⟨-1, 0, 0⟩).2 (by norm_num))
    have e2 := (hc ⟨1, 0, 0⟩).1 ((flat_region_axis 0 ⟨1, 0, 0⟩).2 (by norm_num))
    exact hne (e1.trans e2.symm))
  have hs : ∃ s, g = .segment s ∧ Segment.has s ⟨-1, 0, 0⟩ ∧ Segment.has s ⟨1, 0, 0⟩ := by
    rcases hcov _ m1 m2 with h | ⟨s, h, hs⟩
    · rcases hcov _ q1 q2 with h' | ⟨s, h', _⟩
      · rw [h] at h'
        simp only [IsGeom.point.injEq] at h'
        exact absurd h' hne
      · rw [h] at h'; cases h'
    · rcases hcov _ q1 q2 with h' | ⟨s', h', hs'⟩
      · rw [h] at h'; cases h'
      · rw [h] at h'
        simp only [IsGeom.segment.injEq] at h'
        subst h'
        exact ⟨s, h, hs, hs'⟩
  obtain ⟨s, rfl, h1, h2⟩ := hs
  refine ⟨s, ?_, ?_, ?_⟩
  · have := dist_in_segment h1 h2
    have hd : Spec.dist ⟨-1, 0, 0⟩ ⟨1, 0, 0⟩ = 2 := by
      rw [show Spec.dist ⟨-1, 0, 0⟩ ⟨1, 0, 0⟩ = Real.sqrt (2 * 2) by simp only [Spec.dist]; norm_num]
      exact Real.sqrt_mul_self (by norm_num)
    rw [hd, Spec.dist_eq_len, V3.len_sub_comm] at this
    exact this
  · show (do let r ← intersect crossIsKernel (.geom (.disk (flatDisk 0))) (.geom (.disk (uprightDisk 0))) 1
             r.toResult) = _
    rw [hg]
    rfl
  · show Outcome.val (planeAngle (flatDisk 0).supportingPlane (uprightDisk 0).supportingPlane) = _
    rw [(C53_plane_angle (flatDisk 0).supportingPlane (uprightDisk 0).supportingPlane
      (flatDisk_valid 0).frame.2.2.1 (uprightDisk_valid 0).frame.2.2.1).2.2.2.2.2.2.2]
    show Spec.Orthogonal (flatDisk 0).normal (uprightDisk 0).normal
    norm_num [Spec.Orthogonal, Spec.inner, flatDisk, uprightDisk]

/-- Two disks around the origin fulfil the hypotheses of `C124_accepted_partial` (`cross_meet`): the minimum length of
intersections is 2, the minimum angle 1, the minimum distance 3. -/
example : evaluate (libraryEngine crossLibrary)
    (run [.setMinIntersectionMagnitude 2, .setMinIntersectingAngle 1, .setMinDistance 3, .setIntersectionEpsilon 1])
    (.geom (.disk (flatDisk 0))) (.geom (.disk (uprightDisk 0))) = .val true := by
  obtain ⟨s, hs, hi, ha⟩ := cross_evaluated
  refine (C35_accepts_exact (libraryEngine crossLibrary) _ _ _ (by rintro ⟨h, _⟩; cases h)).2
    ⟨.single (.segment s), hi, .inr ⟨?_, ?_, ?_, ?_, ?_⟩⟩
  · simp [NoIntersection, parts]
  · intro _ g hg
    simp only [parts, List.mem_singleton] at hg
    subst hg
    exact ⟨by show (0 : ℤ) ≤ 2 - 1; norm_num, fun _ => by show (1 : ℤ) ≤ 2 - 1; norm_num,
      fun h => by rcases h with ⟨_, h⟩ | ⟨_, h⟩ <;> cases h⟩
  · rintro m hm g hg _
    simp only [parts, List.mem_singleton] at hg
    subst hg
    rw [show m = 2 from (Option.some.inj hm).symm]
    exact ⟨_, rfl, hs⟩
  · intro t ht
    rw [show t = 1 from (Option.some.inj ht).symm]
    refine .inr ⟨_, ha, ?_⟩
    have := Real.two_le_pi
    linarith
  · intro t ht
    cases ht

/-- The same disks are rejected if the minimum angle is 3, cf. `C124_rejected`. -/
example : evaluate (libraryEngine crossLibrary) (run [.setMinIntersectingAngle 3, .setIntersectionEpsilon 1])
    (.geom (.disk (flatDisk 0))) (.geom (.disk (uprightDisk 0))) = .val false := by
  obtain ⟨s, hs, hi, ha⟩ := cross_evaluated
  have hlt : Real.pi / 2 < 3 := by
    have := Real.pi_le_four
    linarith
  have hd : (libraryEngine crossLibrary).dim = 2 := rfl
  unfold evaluate
  simp [run, Frackit.Constraints.step, Frackit.Constraints.init, hi, hd, isEmptyIntersection, isEmptyGeom,
    Frackit.Constraints.isAdmissibleDimension, Frackit.Constraints.admissibleDimensionGeom, IsGeom.dimension, ha, lessThan,
    hlt]

end Props
