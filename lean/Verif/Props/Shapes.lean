import Mathlib.Data.List.GetD
import Verif.Spec.Distance
import Verif.Model.Distance.Shapes
import Verif.Props.Solids
import Verif.Props.Distance
import Verif.Props.DiskSampler
import Verif.Props.EllipseArc

/-!
# Shapes of geometries (C72) and distances between them (C73)
-/

namespace Props
open Verif Frackit

/-! ## What is assumed about the geometry kernel -/

/-- The primitive shapes occupy the points they are documented to occupy, and the extrema algorithm
returns the distance between the sets of points. -/
structure Faithful (K : ShapeKernel) : Prop where
  vertex : ∀ p s, K.vertex p = some s → s.kind = .vertex ∧ s.points = {p}
  edge : ∀ a b s, K.edge a b = some s → s.kind = .edge ∧ s.points = {q | Spec.OnSegment a b q}
  ellipseWire : ∀ c u v n a b s, Spec.RightHandedOrthonormal u v n → 0 < a → 0 < b →
    K.ellipseWire c n u a b = .val s → s.kind = .wire ∧ s.points = {q | Spec.OnEllipse c u v a b q}
  ellipseEdge : ∀ c u v n a b t1 t2 s, Spec.RightHandedOrthonormal u v n → 0 < a → 0 < b → t1 < t2 →
    t2 ≤ t1 + 2 * Real.pi → K.ellipseEdge c n u a b t1 t2 = .val s → s.kind = .edge ∧
      s.points = {q | ∃ t, t1 ≤ t ∧ t ≤ t2 ∧ q = Spec.localPoint c u v (a * Real.cos t) (b * Real.sin t)}
  emptyTrim : ∀ c n u a b t, (K.ellipseEdge c n u a b t t).isThrown
  ellipseFace : ∀ c u v n a b s, Spec.RightHandedOrthonormal u v n → 0 < a → 0 < b →
    K.ellipseFace c n u a b = .val s → s.kind = .face ∧ s.points = {q | Spec.InDisk c u v a b q} ∧
      s.outer = {q | Spec.OnEllipse c u v a b q}
  wireFace : ∀ n q cs s, Spec.IsUnit n → cs.Nodup → Spec.PlanarPolygon n q cs → Spec.ConvexPolygon n cs →
    K.wireFace (Spec.polyEdges cs) = .val s → s.kind = .face ∧ s.points = {p | Spec.InHull cs p} ∧
      s.outer = {p | OnBoundary cs p}
  cylinder : ∀ c n u r h s f, Spec.IsUnit n → Spec.IsUnit u → Spec.Orthogonal n u → 0 < r → 0 < h →
    K.cylinder c n u r h = some (s, f) →
      s.kind = .solid ∧ s.points = {p | Spec.InCylinder c n r h p} ∧
      f.kind = .face ∧ f.points = {p | Spec.OnLateral c n r h p}
  box : ∀ lo hi s, lo.x ≤ hi.x → lo.y ≤ hi.y → lo.z ≤ hi.z → K.box lo hi = some s →
    s.kind = .solid ∧ s.points = {p | Spec.InBox lo hi p}
  sphere : ∀ c r s, 0 < r → K.sphere c r = some s →
    s.kind = .solid ∧ s.points = {p | Spec.InBall c r p}
  extrema : ∀ s t d, K.extrema s t = some d → Spec.SetDist s.points t.points d

open Classical in
/-- A kernel without failures. -/
noncomputable def idealKernel : ShapeKernel where
  vertex p := some ⟨.vertex, {p}, ∅⟩
  edge a b := some ⟨.edge, {q | Spec.OnSegment a b q}, ∅⟩
  ellipseWire c n u a b := .val ⟨.wire, {q | Spec.OnEllipse c u (n.cross u) a b q}, ∅⟩
  ellipseFace c n u a b := .val ⟨.face, {q | Spec.InDisk c u (n.cross u) a b q},
    {q | Spec.OnEllipse c u (n.cross u) a b q}⟩
  ellipseEdge c n u a b t1 t2 :=
    if t1 = t2 then .thrown "Geom_TrimmedCurve::U1 == U2"
    else .val ⟨.edge, {q | ∃ t, t1 ≤ t ∧ t ≤ t2 ∧
      q = Spec.localPoint c u (n.cross u) (a * Real.cos t) (b * Real.sin t)}, ∅⟩
  wireFace es := .val ⟨.face, {p | Spec.InHull (es.map Prod.fst) p},
    {p | ∃ e ∈ es, Spec.OnSegment e.1 e.2 p}⟩
  cylinder c n _ r h := some (⟨.solid, {p | Spec.InCylinder c n r h p}, ∅⟩,
    ⟨.face, {p | Spec.OnLateral c n r h p}, ∅⟩)
  box lo hi := some ⟨.solid, {p | Spec.InBox lo hi p}, {p | Spec.OnBoxBoundary lo hi p}⟩
  sphere c r := some ⟨.solid, {p | Spec.InBall c r p}, {p | Spec.dist c p = r}⟩
  extrema s t := if h : ∃ d, Spec.SetDist s.points t.points d then some h.choose else none
  bounds _ := ⟨0, 0, 0, 0, 0, 0⟩

theorem map_fst_polyEdges (cs : List V3) : (Spec.polyEdges cs).map Prod.fst = cs := by
  unfold Spec.polyEdges
  apply List.map_fst_zip
  cases cs <;> simp

theorem frame_second {u v n : V3} (h : Spec.RightHandedOrthonormal u v n) : n.cross u = v := by
  have h3 := frame_third h
  obtain ⟨hu, hv, hn, h1, h2, h4, hd⟩ := h
  rw [h3]
  simp only [Spec.IsUnit, Spec.Orthogonal, Spec.inner] at hu h1
  ext <;> simp only [V3.cross]
  · linear_combination v.x * hu - u.x * h1
  · linear_combination v.y * hu - u.y * h1
  · linear_combination v.z * hu - u.z * h1

/-- The assumptions are satisfiable. -/
theorem idealKernel_faithful : Faithful idealKernel where
  vertex p s h := by cases h; exact ⟨rfl, rfl⟩
  edge a b s h := by cases h; exact ⟨rfl, rfl⟩
  ellipseWire c u v n a b s hf _ _ h := by
    cases h
    exact ⟨rfl, by simp only [frame_second hf]⟩
  ellipseEdge c u v n a b t1 t2 s hf _ _ h1 _ h := by
    simp only [idealKernel, if_neg h1.ne] at h
    cases h
    exact ⟨rfl, by simp only [frame_second hf]⟩
  emptyTrim c n u a b t := by simp [idealKernel]
  ellipseFace c u v n a b s hf _ _ h := by
    cases h
    exact ⟨rfl, by simp only [frame_second hf], by simp only [frame_second hf]⟩
  wireFace n q cs s _ _ _ _ h := by
    cases h
    exact ⟨rfl, by simp only [map_fst_polyEdges], rfl⟩
  cylinder c n u r h s f _ _ _ _ _ e := by
    cases e
    exact ⟨rfl, rfl, rfl, rfl⟩
  box lo hi s _ _ _ h := by cases h; exact ⟨rfl, rfl⟩
  sphere c r s _ h := by cases h; exact ⟨rfl, rfl⟩
  extrema s t d h := by
    simp only [idealKernel] at h
    split_ifs at h with hh
    cases h
    exact hh.choose_spec

/-! ## C72 The shape of a geometry occupies the points of the geometry -/

/-- The points of a geometry; those of an arc are the ones produced by `getPoint` (see C11). -/
def pointsOf : AnyGeometry → Set V3
  | .point p => {p}
  | .segment s => {q | Spec.OnSegment s.source s.target q}
  | .circle c => {q | Spec.OnCircle c.center c.normal c.majLen 0 q}
  | .ellipse e => {q | Spec.OnEllipse e.center e.major e.minor e.majLen e.minLen q}
  | .arc a _ => {q | ∃ r, 0 ≤ r ∧ r ≤ 1 ∧ q = a.getPoint r}
  | .triangle t => {q | Spec.InTriangle t.c0 t.c1 t.c2 q}
  | .quadrilateral q => {p | Spec.InHull [q.p0, q.p1, q.p3, q.p2] p}
  | .polygon pg => {p | Spec.InHull pg.corners p}
  | .disk d => {q | Spec.InDisk d.center d.major d.minor d.majLen d.minLen q}
  | .cylinderSurface c => {q | Spec.OnLateral c.bottom.center c.bottom.normal c.radius c.height q}
  | .box b => {q | Spec.InBox ⟨b.xMin, b.yMin, b.zMin⟩ ⟨b.xMax, b.yMax, b.zMax⟩ q}
  | .sphere s => {q | Spec.InBall s.center s.radius q}
  | .cylinder c => {q | Spec.InCylinder c.bottom.center c.bottom.normal c.radius c.height q}
  | .hollowCylinder c => {q | Spec.InShell c.bottomInner.center c.bottomInner.normal c.innerRadius
      c.outerRadius c.height q}

/-- Different corners in a plane, passed around a convex figure. -/
def ConvexFigure (cs : List V3) : Prop :=
  ∃ n o, Spec.IsUnit n ∧ cs.Nodup ∧ Spec.PlanarPolygon n o cs ∧ Spec.ConvexPolygon n cs

/-- An arc as made by the constructor for two points of an ellipse. -/
def MadeArc (a : EllipseArc) : Prop :=
  ValidElliptical a.ellipse ∧
  Spec.OnEllipse a.ellipse.center a.ellipse.major a.ellipse.minor a.ellipse.majLen a.ellipse.minLen a.source ∧
  Spec.OnEllipse a.ellipse.center a.ellipse.major a.ellipse.minor a.ellipse.majLen a.ellipse.minLen a.target ∧
  EllipseArc.make a.ellipse a.source a.target = .val a

/-- Geometries as made by the constructors; quadrilaterals and polygons are planar and convex. -/
def ValidGeom : AnyGeometry → Prop
  | .point _ => True
  | .segment _ => True
  | .circle c => ValidElliptical c ∧ c.minLen = c.majLen
  | .ellipse e => ValidElliptical e
  | .arc a _ => MadeArc a
  | .triangle _ => True
  | .quadrilateral q => ConvexFigure [q.p0, q.p1, q.p3, q.p2]
  | .polygon pg => 3 ≤ pg.corners.length ∧ ConvexFigure pg.corners
  | .disk d => ValidElliptical d
  | .cylinderSurface c => ∃ center axis, SurfaceOf c center axis c.radius c.height ∧ 0 < c.radius ∧
      0 < c.height
  | .box b => b.xMin ≤ b.xMax ∧ b.yMin ≤ b.yMax ∧ b.zMin ≤ b.zMax
  | .sphere s => 0 < s.radius
  | .cylinder c => ValidCylinder c
  | .hollowCylinder c => ∃ center axis r1 r2 h, ValidHollow c center axis r1 r2 h ∧ 0 ≤ r1 ∧ r1 ≤ r2 ∧
      0 < r2 ∧ 0 < h

/-- The class of the shape of a geometry of the given dimension. -/
def KindFits (dim : ℕ) (k : ShapeKind) : Prop :=
  (dim = 0 ∧ k = .vertex) ∨ (dim = 1 ∧ (k = .edge ∨ k = .wire)) ∨ (dim = 2 ∧ k = .face) ∨
    (dim = 3 ∧ k = .solid)

/-- Full claim: every geometry has a shape that occupies its points (if the kernel does not fail). -/
def C72_full : Prop :=
  ∀ g, ValidGeom g → ∃ s, getShape idealKernel (.geom g) = .val s ∧ s.points = pointsOf g ∧
    KindFits g.dimension s.kind

/-- The claim fails for triangles and hollow cylinders: there is no overload for them. -/
theorem C72_disproof : ¬ C72_full := by
  intro h
  obtain ⟨s, hs, _⟩ := h (.triangle (Triangle.make ⟨0, 0, 0⟩ ⟨1, 0, 0⟩ ⟨0, 1, 0⟩)) trivial
  cases hs

theorem C72_hollow_disproof : ¬ ∀ c center axis r1 r2 h, ValidHollow c center axis r1 r2 h → 0 ≤ r1 →
    r1 < r2 → 0 < h → ∃ s, getShape idealKernel (.geom (.hollowCylinder c)) = .val s := by
  intro hall
  obtain ⟨c, hc, hv⟩ := C15_axis_aligned 1 2 3 (by norm_num)
  obtain ⟨s, hs⟩ := hall c _ _ 1 2 3 hv (by norm_num) (by norm_num) (by norm_num)
  cases hs

theorem polygon_edges_eq (c0 c1 : V3) (t : List V3) :
    (((c0 :: c1 :: t).getD 0 0, (c0 :: c1 :: t).getD 1 0) ::
      (List.range' 1 (t.length + 2 - 1)).map fun i =>
        ((c0 :: c1 :: t).getD i 0, (c0 :: c1 :: t).getD ((i + 1) % (t.length + 2)) 0)) =
    Spec.polyEdges (c0 :: c1 :: t) := by
  set cs := c0 :: c1 :: t with hcs
  have hl : cs.length = t.length + 2 := by simp [hcs]
  have h1 : ((cs.getD 0 0, cs.getD 1 0) ::
      (List.range' 1 (t.length + 2 - 1)).map fun i =>
        (cs.getD i 0, cs.getD ((i + 1) % (t.length + 2)) 0)) =
      (List.range cs.length).map fun i => (cs.getD i 0, cs.getD ((i + 1) % cs.length) 0) := by
    rw [hl, List.range_eq_range', List.range'_succ, List.map_cons]
    congr 1
  rw [h1]
  apply List.ext_getElem
  · simp [Spec.polyEdges, hcs]
  · intro i hi hi'
    simp only [List.length_map, List.length_range] at hi
    simp only [List.getElem_map, List.getElem_range, Spec.polyEdges, List.getElem_zip]
    rw [List.getD_eq_getElem _ _ hi]
    congr 1
    by_cases hlast : i + 1 < cs.length
    · rw [Nat.mod_eq_of_lt hlast, List.getD_eq_getElem _ _ hlast,
        List.getElem_append_left (by simp; omega)]
      simp
    · have he : i + 1 = cs.length := by omega
      rw [he, Nat.mod_self, List.getD_eq_getElem _ _ (by omega)]
      rw [List.getElem_append_right (by simp; omega)]
      have hz : i - (cs.length - 1) = 0 := by omega
      simp [hz]

theorem onEllipse_circle {c : Elliptical} (hv : ValidElliptical c) :
    {q | Spec.OnEllipse c.center c.major c.minor c.majLen c.majLen q} =
      {q | Spec.OnCircle c.center c.normal c.majLen 0 q} := by
  obtain ⟨d1, d2, d3, d4, d5, d6⟩ := hv.dots
  have hr := hv.maj_pos
  have hax : ∀ x y, Spec.axial c.center c.normal (Spec.localPoint c.center c.major c.minor x y) = 0 := by
    intro x y
    obtain ⟨_, _, hz⟩ := local_coords hv x y
    rw [← hz]
    simp only [Spec.axial, V3.dot, V3.sub_x, V3.sub_y, V3.sub_z]
    ring
  have hrad : ∀ x y, Spec.radial c.center c.normal (Spec.localPoint c.center c.major c.minor x y) =
      Real.sqrt (x ^ 2 + y ^ 2) := by
    intro x y
    unfold Spec.radial
    rw [hax]
    simp only [Spec.dist, Spec.localPoint]
    congr 1
    simp only [V3.dot] at d1 d2 d4
    linear_combination x ^ 2 * d1 + y ^ 2 * d2 + 2 * x * y * d4
  ext p
  constructor
  · rintro ⟨x, y, hxy, rfl⟩
    refine ⟨hax x y, ?_⟩
    have hsq : x ^ 2 + y ^ 2 = c.majLen ^ 2 := by
      field_simp at hxy
      linarith
    rw [hrad, hsq, Real.sqrt_sq hr.le]
  · rintro ⟨h1, h2⟩
    have he := expand_frame hv p (by
      rw [← h1]
      simp only [Spec.axial, V3.dot, V3.sub_x, V3.sub_y, V3.sub_z]
      ring)
    rw [he, hrad] at h2
    refine ⟨_, _, ?_, he⟩
    have hsq := Real.sq_sqrt (add_nonneg (sq_nonneg ((p - c.center).dot c.major))
      (sq_nonneg ((p - c.center).dot c.minor)))
    rw [h2] at hsq
    field_simp
    linarith

theorem arc_angles {a : EllipseArc} (h : MadeArc a) :
    0 ≤ a.sourceAngle ∧ a.sourceAngle < 2 * Real.pi ∧ 0 ≤ a.targetAngle ∧ a.targetAngle ≤ 2 * Real.pi := by
  obtain ⟨hv, hs, ht, hm⟩ := h
  obtain ⟨x, y, x0, x1, y0, y1, _, _, _, e1, hcase⟩ := arc_make hv hs ht hm
  obtain ⟨sx0, sx1⟩ := snap_range x0 x1
  obtain ⟨sy0, sy1⟩ := snap_range y0 y1
  have hpi := Real.pi_pos
  rw [e1]
  refine ⟨sx0, sx1, ?_⟩
  rcases hcase with ⟨_, _, e2⟩ | ⟨_, _, e2⟩
  · rw [e2]
    split_ifs
    · exact ⟨by linarith, le_rfl⟩
    · exact ⟨sx0, sx1.le⟩
  · rw [e2]
    exact ⟨sy0, sy1.le⟩

/-- The edge of an arc consists of the points produced by the arc. -/
theorem arcShape_points {K : ShapeKernel} (hK : Faithful K) {a : EllipseArc} (ha : MadeArc a) {s : Shape}
    (h : arcShape K a = .val s) :
    s.kind = .edge ∧ s.points = {q | ∃ r, 0 ≤ r ∧ r ≤ 1 ∧ q = a.getPoint r} := by
  obtain ⟨s0, s1, t0, t1⟩ := arc_angles ha
  have hv := ha.1
  have hpi := Real.pi_pos
  have hne : a.sourceAngle ≠ a.targetAngle := by
    intro he
    have := hK.emptyTrim a.ellipse.center a.ellipse.normal a.ellipse.major a.ellipse.majLen a.ellipse.minLen
      a.sourceAngle
    unfold arcShape at h
    simp only [← he, lt_irrefl, if_false] at h
    rw [h] at this
    exact this
  obtain ⟨w, hw, hw1, hw2, hg⟩ : ∃ w, K.ellipseEdge a.ellipse.center a.ellipse.normal a.ellipse.major
      a.ellipse.majLen a.ellipse.minLen a.sourceAngle w = .val s ∧ a.sourceAngle < w ∧
      w ≤ a.sourceAngle + 2 * Real.pi ∧
      ∀ r, a.getPoint r = Ellipse.getPointFromAngle a.ellipse (a.sourceAngle + (w - a.sourceAngle) * r) := by
    unfold arcShape at h
    by_cases hlt : a.targetAngle < a.sourceAngle
    · simp only [if_pos hlt] at h
      refine ⟨_, h, by linarith, by linarith, fun r => ?_⟩
      unfold EllipseArc.getPoint
      simp only [if_neg (not_lt.2 hlt.le)]
      congr 1; ring
    · simp only [if_neg hlt] at h
      have hlt' : a.sourceAngle < a.targetAngle := lt_of_le_of_ne (not_lt.1 hlt) hne
      refine ⟨_, h, hlt', by linarith, fun r => ?_⟩
      unfold EllipseArc.getPoint
      simp only [if_pos hlt']
  obtain ⟨k1, k2⟩ := hK.ellipseEdge _ _ _ _ _ _ _ _ _ hv.frame hv.maj_pos hv.min_pos hw1 hw2 hw
  refine ⟨k1, ?_⟩
  rw [k2]
  ext q
  simp only [Set.mem_ofPred_eq]
  have hpt : ∀ t, Ellipse.getPointFromAngle a.ellipse t = Spec.localPoint a.ellipse.center a.ellipse.major
      a.ellipse.minor (a.ellipse.majLen * Real.cos t) (a.ellipse.minLen * Real.sin t) := fun t => by
    rw [point_eq_local, mul_comm, mul_comm (Real.sin t)]
  constructor
  · rintro ⟨t, g1, g2, rfl⟩
    have hd : 0 < w - a.sourceAngle := by linarith
    refine ⟨(t - a.sourceAngle) / (w - a.sourceAngle), div_nonneg (by linarith) hd.le,
      (div_le_one hd).2 (by linarith), ?_⟩
    rw [hg, hpt, mul_div_cancel₀ _ hd.ne', add_sub_cancel]
  · rintro ⟨r, r0, r1, rfl⟩
    refine ⟨a.sourceAngle + (w - a.sourceAngle) * r, by nlinarith, by nlinarith, ?_⟩
    rw [hg, hpt]

/-- The shape of a geometry, if there is one, occupies exactly the points of the geometry and is a
vertex, an edge or wire, a face or a solid, depending on the dimension. -/
theorem C72_shape_partial (K : ShapeKernel) (hK : Faithful K) (g : AnyGeometry) (hv : ValidGeom g)
    (s : Shape) (h : getShape K (.geom g) = .val s) :
    s.points = pointsOf g ∧ KindFits g.dimension s.kind := by
  have done : ∀ {α : Type} {msg : String} {o : Option α} {a : α}, doneOr msg o = .val a → o = some a := by
    intro α msg o a ho
    cases o with
    | none => cases ho
    | some b => cases ho; rfl
  cases g with
  | point p =>
    obtain ⟨k1, k2⟩ := hK.vertex _ _ (done h)
    exact ⟨k2, .inl ⟨rfl, k1⟩⟩
  | segment sg =>
    obtain ⟨k1, k2⟩ := hK.edge _ _ _ (done h)
    exact ⟨k2, .inr (.inl ⟨rfl, .inl k1⟩)⟩
  | circle c =>
    have hc : ValidElliptical c := hv.1
    simp only [getShape, circleShape, elliptical_make_axes hc.frame, Outcome.val_bind] at h
    obtain ⟨k1, k2⟩ := hK.ellipseWire _ _ _ _ _ _ _ hc.frame hc.maj_pos hc.maj_pos h
    exact ⟨k2.trans (onEllipse_circle (c := c) hc), .inr (.inl ⟨rfl, .inr k1⟩)⟩
  | ellipse e =>
    have hc : ValidElliptical e := hv
    obtain ⟨k1, k2⟩ := hK.ellipseWire _ _ _ _ _ _ _ hc.frame hc.maj_pos hc.min_pos h
    exact ⟨k2, .inr (.inl ⟨rfl, .inr k1⟩)⟩
  | arc a o =>
    obtain ⟨k1, k2⟩ := arcShape_points hK hv h
    exact ⟨k2, .inr (.inl ⟨rfl, .inl k1⟩)⟩
  | triangle t => cases h
  | quadrilateral q =>
    obtain ⟨n, o, hn, hnd, hp, hcv⟩ := hv
    simp only [getShape, quadShape] at h
    obtain ⟨_, _, h⟩ := Outcome.bind_eq_val.1 h
    obtain ⟨_, _, h⟩ := Outcome.bind_eq_val.1 h
    obtain ⟨_, _, h⟩ := Outcome.bind_eq_val.1 h
    obtain ⟨_, _, h⟩ := Outcome.bind_eq_val.1 h
    obtain ⟨k1, k2, _⟩ := hK.wireFace n o [q.p0, q.p1, q.p3, q.p2] s hn hnd hp hcv h
    exact ⟨k2, .inr (.inr (.inl ⟨rfl, k1⟩))⟩
  | polygon pg =>
    obtain ⟨hl, n, o, hn, hnd, hp, hcv⟩ := hv
    simp only [getShape, polygonShape] at h
    obtain ⟨_, _, h⟩ := Outcome.bind_eq_val.1 h
    match hcs : pg.corners, (show 2 ≤ pg.corners.length by omega) with
    | c0 :: c1 :: t, _ =>
      rw [hcs] at h
      simp only at h
      rw [polygon_edges_eq, ← hcs] at h
      obtain ⟨k1, k2, _⟩ := hK.wireFace n o _ s hn hnd hp hcv h
      exact ⟨k2, .inr (.inr (.inl ⟨rfl, k1⟩))⟩
  | disk d =>
    have hc : ValidElliptical d := hv
    obtain ⟨k1, k2, _⟩ := hK.ellipseFace _ _ _ _ _ _ _ hc.frame hc.maj_pos hc.min_pos h
    exact ⟨k2, .inr (.inr (.inl ⟨rfl, k1⟩))⟩
  | cylinderSurface c =>
    obtain ⟨center, axis, hs, hr, hh⟩ := hv
    simp only [getShape, cylinderSurfaceShape] at h
    obtain ⟨⟨a, b⟩, hab, h⟩ := Outcome.bind_eq_val.1 h
    cases h
    have hf := hs.frame
    rw [← hs.bottom_normal] at hf
    obtain ⟨_, _, k1, k2⟩ := hK.cylinder _ _ _ _ _ _ _ hf.2.2.1 hf.1
      (by have := hf.2.2.2.2.2.1; simp only [Spec.Orthogonal, Spec.inner] at this ⊢; linarith) hr hh (done hab)
    exact ⟨k2, .inr (.inr (.inl ⟨rfl, k1⟩))⟩
  | box b =>
    obtain ⟨k1, k2⟩ := hK.box _ _ _ hv.1 hv.2.1 hv.2.2 (done h)
    exact ⟨k2, .inr (.inr (.inr ⟨rfl, k1⟩))⟩
  | sphere sp =>
    obtain ⟨k1, k2⟩ := hK.sphere _ _ _ hv (done h)
    exact ⟨k2, .inr (.inr (.inr ⟨rfl, k1⟩))⟩
  | cylinder c =>
    have hc : ValidCylinder c := hv
    obtain ⟨f, _, hf, hfv, _⟩ := C70_cylinder c hc
    simp only [getShape, cylinderShape, hf, Outcome.val_bind] at h
    obtain ⟨⟨a, b⟩, hab, h⟩ := Outcome.bind_eq_val.1 h
    cases h
    have hfr := hfv.frame
    have hr : f.bottom.majLen = c.radius := hfv.radius
    rw [hfv.bottom_center, hfv.bottom_normal, hr, hfv.height] at hab
    obtain ⟨k1, k2, _⟩ := hK.cylinder _ _ _ _ _ _ _ hfr.2.2.1 hfr.1
      (by have := hfr.2.2.2.2.2.1; simp only [Spec.Orthogonal, Spec.inner] at this ⊢; linarith)
      hc.bottom.maj_pos hc.height_pos (done hab)
    exact ⟨k2, .inr (.inr (.inr ⟨rfl, k1⟩))⟩
  | hollowCylinder c => cases h

/-- The builders of the kernel always succeed. -/
structure NeverFails (K : ShapeKernel) : Prop where
  vertex : ∀ p, ∃ s, K.vertex p = some s
  edge : ∀ a b, ∃ s, K.edge a b = some s
  ellipseWire : ∀ c n u a b, ∃ s, K.ellipseWire c n u a b = .val s
  ellipseFace : ∀ c n u a b, ∃ s, K.ellipseFace c n u a b = .val s
  ellipseEdge : ∀ c n u a b t1 t2, t1 ≠ t2 → ∃ s, K.ellipseEdge c n u a b t1 t2 = .val s
  wireFace : ∀ es, ∃ s, K.wireFace es = .val s
  cylinder : ∀ c n u r h, ∃ s, K.cylinder c n u r h = some s
  box : ∀ a b, ∃ s, K.box a b = some s
  sphere : ∀ c r, ∃ s, K.sphere c r = some s

theorem idealKernel_neverFails : NeverFails idealKernel where
  vertex _ := ⟨_, rfl⟩
  edge _ _ := ⟨_, rfl⟩
  ellipseWire _ _ _ _ _ := ⟨_, rfl⟩
  ellipseFace _ _ _ _ _ := ⟨_, rfl⟩
  ellipseEdge _ _ _ _ _ _ _ h := ⟨_, by simp only [idealKernel, if_neg h]; rfl⟩
  wireFace _ := ⟨_, rfl⟩
  cylinder _ _ _ _ _ := ⟨_, rfl⟩
  box _ _ := ⟨_, rfl⟩
  sphere _ _ := ⟨_, rfl⟩

theorem cornerVertices_val {K : ShapeKernel} (hN : NeverFails K) : ∀ cs, cornerVertices K cs = .val ()
  | [] => rfl
  | c :: t => by
    obtain ⟨s, hs⟩ := hN.vertex c
    simp only [cornerVertices, hs, doneOr, Outcome.val_bind]
    exact cornerVertices_val hN t

/-- Lines have no shape: an exception is thrown whatever the kernel does. -/
theorem C72_line (K : ShapeKernel) (l : Line) : (getShape K (.line l)).isThrown := trivial

/-- An arc whose source and target have the same angle: full ellipses, unless they start at angle zero. -/
def ClosedArc (g : AnyGeometry) : Prop := ∃ a o, g = .arc a o ∧ a.sourceAngle = a.targetAngle

/-- Which geometries have a shape: all but triangles, hollow cylinders and closed arcs, for which an exception is
thrown whatever the kernel does. -/
theorem C72_supported (K : ShapeKernel) (g : AnyGeometry) :
    (NeverFails K → ValidGeom g → (∀ t, g ≠ .triangle t) → (∀ c, g ≠ .hollowCylinder c) → ¬ ClosedArc g →
      ∃ s, getShape K (.geom g) = .val s) ∧
    ((∃ t, g = .triangle t) ∨ (∃ c, g = .hollowCylinder c) → (getShape K (.geom g)).isThrown) ∧
    (Faithful K → ClosedArc g → (getShape K (.geom g)).isThrown) := by
  refine ⟨?_, ?_, ?_⟩
  · intro hN hv h1 h2 h3
    cases g with
    | point p =>
      obtain ⟨s, hs⟩ := hN.vertex p
      exact ⟨s, by simp only [getShape, hs, doneOr]⟩
    | segment sg =>
      obtain ⟨s, hs⟩ := hN.edge sg.source sg.target
      exact ⟨s, by simp only [getShape, segmentShape, hs, doneOr]⟩
    | circle c =>
      have hc : ValidElliptical c := hv.1
      obtain ⟨s, hs⟩ := hN.ellipseWire c.center c.normal c.major c.majLen c.majLen
      exact ⟨s, by simp only [getShape, circleShape, elliptical_make_axes hc.frame, Outcome.val_bind,
        ellipseShape, hs]⟩
    | ellipse e => exact hN.ellipseWire _ _ _ _ _
    | arc a o =>
      have hne : a.sourceAngle ≠ a.targetAngle := fun h => h3 ⟨a, o, rfl, h⟩
      obtain ⟨s0, s1, t0, t1⟩ := arc_angles hv
      apply hN.ellipseEdge
      split_ifs
      · linarith
      · exact hne
    | triangle t => exact absurd rfl (h1 t)
    | quadrilateral q =>
      obtain ⟨s0, hs0⟩ := hN.vertex q.p0
      obtain ⟨s1, hs1⟩ := hN.vertex q.p1
      obtain ⟨s2, hs2⟩ := hN.vertex q.p2
      obtain ⟨s3, hs3⟩ := hN.vertex q.p3
      obtain ⟨s, hs⟩ := hN.wireFace [(q.p0, q.p1), (q.p1, q.p3), (q.p3, q.p2), (q.p2, q.p0)]
      exact ⟨s, by simp only [getShape, quadShape, hs0, hs1, hs2, hs3, doneOr, Outcome.val_bind, hs]⟩
    | polygon pg =>
      obtain ⟨hl, _⟩ := hv
      simp only [getShape, polygonShape, cornerVertices_val hN, Outcome.val_bind]
      match pg.corners, hl with
      | c0 :: c1 :: t, _ => exact hN.wireFace _
    | disk d => exact hN.ellipseFace _ _ _ _ _
    | cylinderSurface c =>
      obtain ⟨s, hs⟩ := hN.cylinder c.bottom.center c.bottom.normal c.bottom.major c.bottom.majLen c.height
      exact ⟨s.2, by simp only [getShape, cylinderSurfaceShape, hs, doneOr, Outcome.val_bind,
        Outcome.pure_eq]⟩
    | box b =>
      obtain ⟨s, hs⟩ := hN.box ⟨b.xMin, b.yMin, b.zMin⟩ ⟨b.xMax, b.yMax, b.zMax⟩
      exact ⟨s, by simp only [getShape, hs, doneOr]⟩
    | sphere sp =>
      obtain ⟨s, hs⟩ := hN.sphere sp.center sp.radius
      exact ⟨s, by simp only [getShape, hs, doneOr]⟩
    | cylinder c =>
      obtain ⟨f, _, hf, _⟩ := C70_cylinder c hv
      obtain ⟨s, hs⟩ := hN.cylinder f.bottom.center f.bottom.normal f.bottom.major f.bottom.majLen f.height
      exact ⟨s.1, by simp only [getShape, cylinderShape, hf, hs, doneOr, Outcome.val_bind,
        Outcome.pure_eq]⟩
    | hollowCylinder c => exact absurd rfl (h2 c)
  · rintro (⟨t, rfl⟩ | ⟨c, rfl⟩) <;> exact trivial
  · rintro hK ⟨a, o, rfl, h⟩
    have := hK.emptyTrim a.ellipse.center a.ellipse.normal a.ellipse.major a.ellipse.majLen a.ellipse.minLen
      a.sourceAngle
    simp only [getShape, arcShape, ← h, lt_irrefl, if_false]
    exact this

/-- The unit circle as an arc that starts and ends at `(0, 1, 0)`. -/
theorem full_circle_arc : ∃ a : EllipseArc, MadeArc a ∧ a.isFullEllipse ∧
    a.sourceAngle = Real.pi / 2 ∧ a.targetAngle = Real.pi / 2 ∧ a.ellipse = unitCircle ∧
    a.source = ⟨0, 1, 0⟩ := by
  have hpi := Real.pi_pos
  have hpi2 := Real.two_le_pi
  have hv := unitCircle_valid
  have hon := (C09_ellipse_points_on_curve unitCircle hv (Real.pi / 2)).1
  have hval : Ellipse.getPointFromAngle unitCircle (Real.pi / 2) = ⟨0, 1, 0⟩ := by
    ext <;> simp [Ellipse.getPointFromAngle, unitCircle]
  set s := Ellipse.getPointFromAngle unitCircle (Real.pi / 2) with hs
  have hsn : snap (Real.pi / 2) = Real.pi / 2 := by
    rw [snap_of_cos (by rw [Real.cos_pi_div_two, abs_zero]; exact confusion_pos),
      Real.sin_pi_div_two, if_neg (by norm_num)]
  have hang : angular < 1 := by unfold angular; norm_num
  refine ⟨⟨unitCircle, s, s, Real.pi / 2, Real.pi / 2, True⟩, ⟨hv, hon, hon, ?_⟩, trivial, rfl, rfl, rfl, hval⟩
  unfold EllipseArc.make
  simp only
  rw [if_pos (by
    unfold pointIsEqual
    have : (s - s).sqLen = 0 := by simp [V3.sqLen]
    rw [this]
    have := confusion_pos
    simp [unitCircle]; positivity), hs, getAngle_point hv (by linarith) (by linarith), hsn]
  simp only [Outcome.val_bind]
  rw [if_neg (by linarith)]
  rfl

/-- The claim also fails for arcs: there is no shape of the unit circle as an arc from `(0, 1, 0)` to itself. -/
theorem C72_closed_arc_disproof : ∃ (a : EllipseArc) (occ : ℝ), ValidGeom (.arc a occ) ∧ a.isFullEllipse ∧
    (getShape idealKernel (.geom (.arc a occ))).isThrown := by
  obtain ⟨a, ha, hf, h1, h2, _⟩ := full_circle_arc
  exact ⟨a, 0, ha, hf, (C72_supported idealKernel _).2.2 idealKernel_faithful ⟨a, 0, rfl, by rw [h1, h2]⟩⟩

/-- Example: a quarter of the unit circle is an arc that has a shape. -/
example : ∃ a : EllipseArc, MadeArc a ∧ a.sourceAngle = 0 ∧ a.targetAngle = Real.pi / 2 ∧
    ¬ ClosedArc (.arc a 0) := by
  have hpi := Real.pi_pos
  have hpi2 := Real.two_le_pi
  have hv := unitCircle_valid
  have hon := (C09_ellipse_points_on_curve unitCircle hv (Real.pi / 2)).1
  have hon0 := (C09_ellipse_points_on_curve unitCircle hv 0).1
  have hs0 : snap 0 = 0 := by
    rw [snap_of_sin (by rw [Real.cos_zero, abs_one]; exact not_lt.2 (by linarith [confusion_lt]))
      (by rw [Real.sin_zero, abs_zero]; exact confusion_pos), Real.cos_zero, if_neg (by norm_num)]
  have hs1 : snap (Real.pi / 2) = Real.pi / 2 := by
    rw [snap_of_cos (by rw [Real.cos_pi_div_two, abs_zero]; exact confusion_pos),
      Real.sin_pi_div_two, if_neg (by norm_num)]
  refine ⟨⟨unitCircle, Ellipse.getPointFromAngle unitCircle 0,
    Ellipse.getPointFromAngle unitCircle (Real.pi / 2), 0, Real.pi / 2, False⟩, ⟨hv, hon0, hon, ?_⟩, rfl, rfl, ?_⟩
  · unfold EllipseArc.make
    simp only
    rw [if_neg, getAngle_point hv le_rfl (by linarith), getAngle_point hv (by linarith) (by linarith), hs0, hs1]
    · rfl
    · simp only [pointIsEqual, V3.sqLen, Ellipse.getPointFromAngle, unitCircle]
      norm_num [confusion]
  · rintro ⟨a, o, h, h'⟩
    cases h
    simp only at h'
    linarith

/-- Example: the shape of the unit square. -/
example : ValidGeom (.quadrilateral (Quadrilateral.make ⟨0, 0, 0⟩ ⟨1, 0, 0⟩ ⟨0, 1, 0⟩ ⟨1, 1, 0⟩)) := by
  refine ⟨⟨0, 0, 1⟩, ⟨0, 0, 0⟩, by norm_num [Spec.IsUnit], ?_, ?_, ?_⟩
  · simp [Quadrilateral.make]
  · intro c hc
    simp [Quadrilateral.make] at hc
    rcases hc with rfl | rfl | rfl | rfl <;> norm_num [Spec.OnPlane]
  · intro e he c hc
    simp [Quadrilateral.make] at hc
    simp [Spec.polyEdges, Quadrilateral.make] at he
    rcases he with rfl | rfl | rfl | rfl <;> rcases hc with rfl | rfl | rfl | rfl <;>
      norm_num [Spec.turn, Spec.det]

/-! ## C73 Distances between any two geometries -/

/-- The points of an argument of a distance function. -/
def argPoints : DistArg → Set V3
  | .geom g => pointsOf g
  | .line l => {q | Spec.OnLine l.supp l.dir q}
  | .shape s => s.points

/-- Valid arguments. -/
def ValidArg : DistArg → Prop
  | .geom g => ValidGeom g
  | .line l => Spec.IsUnit l.dir
  | .shape _ => True

/-- The pair of a point and a segment, in any order. -/
def PointSegment : DistArg → DistArg → Prop
  | .geom (.point _), .geom (.segment _) => True
  | .geom (.segment _), .geom (.point _) => True
  | _, _ => False

theorem setDist_point {p q : V3} {B : Set V3} {d : ℝ} (h1 : ∀ b ∈ B, d ≤ Spec.dist p b) (hq : q ∈ B)
    (h2 : Spec.dist p q = d) : Spec.SetDist {p} B d :=
  ⟨fun a ha b hb => by rw [Set.mem_singleton_iff.1 ha]; exact h1 b hb,
    fun e he => ⟨p, rfl, q, hq, by rw [h2]; linarith⟩⟩

theorem shape_points {K : ShapeKernel} (hK : Faithful K) {a : DistArg} (ha : ValidArg a) {s : Shape}
    (h : getShape K a = .val s) : s.points = argPoints a := by
  cases a with
  | geom g => exact (C72_shape_partial K hK g ha s h).1
  | line l => cases h
  | shape t => cases h; rfl

theorem shape_distance {K : ShapeKernel} (hK : Faithful K) {s t : Shape} {d : ℝ}
    (h : distShapes K s t = .val d) : Spec.SetDist s.points t.points d := by
  unfold distShapes at h
  cases he : K.extrema s t with
  | none => rw [he] at h; cases h
  | some r => rw [he] at h; cases h; exact hK.extrema _ _ _ he

/-- The distance between two geometries, lines or shapes is the distance between their sets of points:
no two points are closer, and there are points that are at most negligibly farther apart.  For a point
and a segment see `C73_point_segment`. -/
theorem C73_distance (K : ShapeKernel) (hK : Faithful K) (a b : DistArg) (ha : ValidArg a)
    (hb : ValidArg b) (hps : ¬ PointSegment a b) (d : ℝ) (h : computeDistance K a b = .val d) :
    Spec.SetDist (argPoints a) (argPoints b) d := by
  cases hc : closedDistance a b with
  | none =>
    simp only [computeDistance, hc] at h
    obtain ⟨s, hs, h⟩ := Outcome.bind_eq_val.1 h
    obtain ⟨t, ht, h⟩ := Outcome.bind_eq_val.1 h
    rw [← shape_points hK ha hs, ← shape_points hK hb ht]
    exact shape_distance hK h
  | some r =>
    simp only [computeDistance, hc] at h
    cases h
    unfold closedDistance at hc
    split at hc
    · cases hc
      rename_i p q
      refine setDist_point (q := q) ?_ rfl (C24_point_point p q).1.symm
      rintro b rfl
      exact (C24_point_point p b).1.le
    · cases hc
      rename_i p l
      obtain ⟨⟨q, hq, hd⟩, h2, _⟩ := C24_point_line p l hb
      exact setDist_point h2 hq hd
    · cases hc
      rename_i l p
      obtain ⟨⟨q, hq, hd⟩, h2, h3⟩ := C24_point_line p l ha
      rw [h3]
      exact (setDist_point h2 hq hd).symm
    · exact absurd trivial hps
    · exact absurd trivial hps
    · cases hc

/-- The distance between a point and a segment is a lower bound of the distances of all points of the
segment, and exact up to the relative tolerance of the segment. -/
theorem C73_point_segment (K : ShapeKernel) (p : V3) (s : Segment) :
    ∃ d, computeDistance K (.geom (.point p)) (.geom (.segment s)) = .val d ∧
      computeDistance K (.geom (.segment s)) (.geom (.point p)) = .val d ∧
      (∀ q, Spec.OnSegment s.source s.target q → d ≤ Spec.dist p q) ∧
      ∃ q, Spec.OnSegment s.source s.target q ∧
        Spec.dist p q ≤ d + 1 / 10 ^ 7 * Spec.dist s.source s.target := by
  obtain ⟨h1, h2⟩ := C24_point_segment_error p s
  exact ⟨_, rfl, by rw [← h2]; rfl, (C24_point_segment p s).1, h1⟩

/-- The order of the arguments does not matter. -/
theorem C73_symmetric (K : ShapeKernel) (hK : Faithful K) (a b : DistArg) (ha : ValidArg a)
    (hb : ValidArg b) (d d' : ℝ) (h : computeDistance K a b = .val d)
    (h' : computeDistance K b a = .val d') : d = d' := by
  by_cases hps : PointSegment a b
  · unfold PointSegment at hps
    split at hps
    · rename_i p s
      obtain ⟨r, h1, h2, _⟩ := C73_point_segment K p s
      rw [h1] at h; rw [h2] at h'
      cases h; cases h'; rfl
    · rename_i s p
      obtain ⟨r, h1, h2, _⟩ := C73_point_segment K p s
      rw [h2] at h; rw [h1] at h'
      cases h; cases h'; rfl
    · exact hps.elim
  · have hps' : ¬ PointSegment b a := by
      intro hh
      apply hps
      unfold PointSegment at hh
      split at hh
      · trivial
      · trivial
      · exact hh.elim
    exact (C73_distance K hK a b ha hb hps d h).unique
      (C73_distance K hK b a hb ha hps' d' h').symm

theorem setDist_exists {A B : Set V3} (hA : A.Nonempty) (hB : B.Nonempty) : ∃ d, Spec.SetDist A B d := by
  have hne : {r | ∃ a ∈ A, ∃ b ∈ B, Spec.dist a b = r}.Nonempty := by
    obtain ⟨a, ha⟩ := hA
    obtain ⟨b, hb⟩ := hB
    exact ⟨_, a, ha, b, hb, rfl⟩
  refine ⟨sInf {r | ∃ a ∈ A, ∃ b ∈ B, Spec.dist a b = r}, ?_, ?_⟩
  · intro a ha b hb
    apply csInf_le
    · refine ⟨0, ?_⟩
      rintro r ⟨a, _, b, _, rfl⟩
      exact Real.sqrt_nonneg _
    · exact ⟨a, ha, b, hb, rfl⟩
  · intro e he
    obtain ⟨r, ⟨a, ha, b, hb, rfl⟩, hr⟩ := exists_lt_of_csInf_lt hne (lt_add_of_pos_right _ he)
    exact ⟨a, ha, b, hb, hr⟩

theorem ideal_extrema {s t : Shape} (hs : s.points.Nonempty) (ht : t.points.Nonempty) :
    ∃ d, distShapes idealKernel s t = .val d ∧ Spec.SetDist s.points t.points d := by
  have h := setDist_exists hs ht
  refine ⟨h.choose, ?_, h.choose_spec⟩
  simp only [distShapes, idealKernel, dif_pos h, doneOr]

/-- With a kernel that does not fail, the distance between any two geometries that have a shape is
computed (all but triangles, hollow cylinders and closed arcs). -/
theorem C73_computed (K : ShapeKernel) (hN : NeverFails K)
    (hE : ∀ s t : Shape, s.points.Nonempty → t.points.Nonempty → ∃ d, K.extrema s t = some d)
    (hK : Faithful K) (g1 g2 : AnyGeometry) (h1 : ValidGeom g1) (h2 : ValidGeom g2)
    (n1 : (pointsOf g1).Nonempty) (n2 : (pointsOf g2).Nonempty)
    (ht1 : ∀ t, g1 ≠ .triangle t) (hc1 : ∀ c, g1 ≠ .hollowCylinder c)
    (ht2 : ∀ t, g2 ≠ .triangle t) (hc2 : ∀ c, g2 ≠ .hollowCylinder c)
    (ha1 : ¬ ClosedArc g1) (ha2 : ¬ ClosedArc g2) :
    ∃ d, computeDistance K (.geom g1) (.geom g2) = .val d := by
  cases hc : closedDistance (.geom g1) (.geom g2) with
  | some r => exact ⟨r, by simp only [computeDistance, hc]⟩
  | none =>
    obtain ⟨s, hs⟩ := (C72_supported K g1).1 hN h1 ht1 hc1 ha1
    obtain ⟨t, ht⟩ := (C72_supported K g2).1 hN h2 ht2 hc2 ha2
    have e1 := (C72_shape_partial K hK g1 h1 s hs).1
    have e2 := (C72_shape_partial K hK g2 h2 t ht).1
    obtain ⟨d, hd⟩ := hE s t (by rw [e1]; exact n1) (by rw [e2]; exact n2)
    exact ⟨d, by simp only [computeDistance, hc, hs, ht, Outcome.val_bind, distShapes, hd, doneOr]⟩

/-- Example: the distance between a point and a ball. -/
example : computeDistance idealKernel (.geom (.point ⟨3, 0, 0⟩)) (.geom (.sphere ⟨⟨0, 0, 0⟩, 1⟩)) = .val 2 := by
  have hp : Spec.InBall ⟨0, 0, 0⟩ 1 ⟨1, 0, 0⟩ := by norm_num [Spec.InBall, Spec.dist]
  obtain ⟨d, hd⟩ := C73_computed idealKernel idealKernel_neverFails
    (fun s t hs ht => by
      obtain ⟨d, hd, _⟩ := ideal_extrema hs ht
      refine ⟨d, ?_⟩
      unfold distShapes at hd
      cases h : idealKernel.extrema s t with
      | none => rw [h] at hd; cases hd
      | some r => rw [h] at hd; cases hd; rfl)
    idealKernel_faithful (.point ⟨3, 0, 0⟩) (.sphere ⟨⟨0, 0, 0⟩, 1⟩) trivial
    (by show (0 : ℝ) < 1; norm_num) ⟨_, rfl⟩ ⟨⟨1, 0, 0⟩, hp⟩ (by simp) (by simp) (by simp) (by simp)
    (by simp [ClosedArc]) (by simp [ClosedArc])
  have h := C73_distance idealKernel idealKernel_faithful (.geom (.point ⟨3, 0, 0⟩))
    (.geom (.sphere ⟨⟨0, 0, 0⟩, 1⟩)) trivial
    (by show (0 : ℝ) < 1; norm_num) (fun h => h) d hd
  rw [hd]
  congr 1
  apply h.unique
  have hd2 : Spec.dist (⟨3, 0, 0⟩ : V3) ⟨1, 0, 0⟩ = 2 := by
    unfold Spec.dist
    rw [Real.sqrt_eq_iff_mul_self_eq (by positivity) (by norm_num)]
    norm_num
  refine setDist_point (q := ⟨1, 0, 0⟩) ?_ hp hd2
  intro b hb
  have ht := dist_triangle (⟨0, 0, 0⟩ : V3) b ⟨3, 0, 0⟩
  have hb' : Spec.dist (⟨0, 0, 0⟩ : V3) b ≤ 1 := hb
  have h3 : Spec.dist (⟨0, 0, 0⟩ : V3) ⟨3, 0, 0⟩ = 3 := by
    unfold Spec.dist
    rw [Real.sqrt_eq_iff_mul_self_eq (by positivity) (by norm_num)]
    norm_num
  have hc : Spec.dist b (⟨3, 0, 0⟩ : V3) = Spec.dist (⟨3, 0, 0⟩ : V3) b := by
    unfold Spec.dist
    congr 1
    ring
  linarith

end Props
