import Verif.Props.PyDispatch
import Verif.Props.Box

/-!
# Distance to the boundary (C74), in Python (C75), and points on the boundary (C76)
-/

namespace Props
open Verif Frackit

/-- The boundary of a geometry: the bounding curve of a disk or planar figure, the two circles of a
cylinder surface, the faces of a box, the outer wire of a face and outer shell of a solid. -/
def boundaryOf : DistArg → Set V3
  | .geom (.disk d) => {q | Spec.OnEllipse d.center d.major d.minor d.majLen d.minLen q}
  | .geom (.quadrilateral q) => {p | OnBoundary [q.p0, q.p1, q.p3, q.p2] p}
  | .geom (.polygon pg) => {p | OnBoundary pg.corners p}
  | .geom (.cylinderSurface c) =>
      {q | Spec.OnCircle c.bottom.center c.bottom.normal c.radius 0 q} ∪
        {q | Spec.OnCircle c.bottom.center c.bottom.normal c.radius c.height q}
  | .geom (.box b) => {q | Spec.OnBoxBoundary ⟨b.xMin, b.yMin, b.zMin⟩ ⟨b.xMax, b.yMax, b.zMax⟩ q}
  | .shape s => s.outer
  | _ => ∅

/-! ### Loops -/

theorem distLoop_all {α : Type} {dist : α → Outcome ℝ} {l : List α} {m r : ℝ}
    (h : distLoop dist m l = .val r) : ∀ a ∈ l, (dist a).isVal := by
  intro a ha
  by_contra hn
  have := distLoop_fails dist l m ⟨a, ha, hn⟩
  rw [h] at this
  exact this trivial

/-- The minimum over the pieces of a set is the distance to the set. -/
theorem setDist_loop {A : Set V3} {B : ℕ → Set V3} {dist : ℕ → Outcome ℝ} {n : ℕ} {r : ℝ}
    (h : distLoop dist doubleMax (List.range n) = .val r)
    (hd : ∀ i < n, ∀ d, dist i = .val d → Spec.SetDist A (B i) d)
    (hm : ∃ a ∈ A, ∃ i < n, ∃ b ∈ B i, Spec.dist a b ≤ doubleMax) :
    Spec.SetDist A {q | ∃ i < n, q ∈ B i} r := by
  have hall := distLoop_all h
  obtain ⟨r', hr', h1, h2, h3⟩ := distLoop_spec dist (List.range n) doubleMax hall
  rw [h] at hr'
  cases hr'
  refine ⟨?_, ?_⟩
  · rintro a ha q ⟨i, hi, hq⟩
    have hv := hall i (List.mem_range.2 hi)
    cases hdi : dist i with
    | val d => exact (h2 i (List.mem_range.2 hi) d hdi).trans ((hd i hi d hdi).1 a ha q hq)
    | thrown e => rw [hdi] at hv; exact hv.elim
    | nan => rw [hdi] at hv; exact hv.elim
    | ub => rw [hdi] at hv; exact hv.elim
  · intro e he
    rcases h3 with h3 | ⟨i, hi, hdi⟩
    · obtain ⟨a, ha, i, hi, b, hb, hab⟩ := hm
      exact ⟨a, ha, b, ⟨i, hi, hb⟩, by rw [h3]; linarith⟩
    · obtain ⟨a, ha, b, hb, hab⟩ := (hd i (List.mem_range.1 hi) r hdi).2 e he
      exact ⟨a, ha, b, ⟨i, List.mem_range.1 hi, hb⟩, hab⟩

/-! ### Pieces of boundaries -/

theorem circle_shape {K : ShapeKernel} (hK : Faithful K) {c : Elliptical}
    (hf : Spec.RightHandedOrthonormal c.major c.minor c.normal) (hr : 0 < c.majLen) {s : Shape}
    (h : circleShape K c = .val s) : s.points = {q | Spec.OnCircle c.center c.normal c.majLen 0 q} := by
  simp only [circleShape, elliptical_make_axes hf, Outcome.val_bind] at h
  obtain ⟨_, k2⟩ := hK.ellipseWire _ _ _ _ _ _ _ hf hr hr h
  exact k2.trans (onEllipse_circle (c := ⟨c.center, c.major, c.minor, c.normal, c.majLen, c.majLen⟩)
    ⟨hf, hr, hr⟩)

theorem onCircle_shift {center n : V3} (hn : Spec.IsUnit n) (r z : ℝ) (p : V3) :
    Spec.OnCircle (center + z • n) n r 0 p ↔ Spec.OnCircle center n r z p := by
  have h1 := (Spec.isUnit_iff n).1 hn
  have e : Spec.axial (center + z • n) n p = Spec.axial center n p - z := by
    simp only [V3.sqLen] at h1
    simp only [Spec.axial, V3.add_x, V3.add_y, V3.add_z, V3.smul_x, V3.smul_y, V3.smul_z]
    linear_combination (-z) * h1
  have e2 : Spec.radial (center + z • n) n p = Spec.radial center n p := by
    unfold Spec.radial
    rw [e]
    simp only [V3.add_x, V3.add_y, V3.add_z, V3.smul_x, V3.smul_y, V3.smul_z]
    congr 2 <;> ring
  unfold Spec.OnCircle
  rw [e, e2, sub_eq_zero]

theorem hull_parallelogram (p0 p1 p2 p3 : V3) (h : p3 = p1 + p2 - p0) (p : V3) :
    Spec.InHull [p0, p1, p3, p2] p ↔ Spec.InParallelogram p0 p1 p2 p := by
  subst h
  constructor
  · rintro ⟨w, hl, hw, hs, hx, hy, hz⟩
    match w, hl with
    | [w0, w1, w3, w2], _ =>
      simp only [List.mem_cons, List.not_mem_nil, or_false, forall_eq_or_imp, forall_eq] at hw
      simp only [List.sum_cons, List.sum_nil, List.zipWith_cons_cons, List.zipWith_nil_left, V3.sub_x,
        V3.add_x, V3.sub_y, V3.add_y, V3.sub_z, V3.add_z] at hs hx hy hz
      have e0 : w0 = 1 - w1 - w3 - w2 := by linarith
      refine ⟨w1 + w3, w3 + w2, by linarith, by linarith, by linarith, by linarith, ?_, ?_, ?_⟩
      · rw [hx, e0]; ring
      · rw [hy, e0]; ring
      · rw [hz, e0]; ring
  · rintro ⟨s, t, hs0, hs1, ht0, ht1, hx, hy, hz⟩
    refine ⟨[(1 - s) * (1 - t), s * (1 - t), s * t, (1 - s) * t], rfl, ?_, ?_, ?_, ?_, ?_⟩
    · intro r hr
      simp only [List.mem_cons, List.not_mem_nil, or_false] at hr
      rcases hr with rfl | rfl | rfl | rfl <;> apply mul_nonneg <;> linarith
    · simp only [List.sum_cons, List.sum_nil]; ring
    · simp only [List.sum_cons, List.sum_nil, List.zipWith_cons_cons, List.zipWith_nil_left, V3.sub_x,
        V3.add_x]
      rw [hx]; ring
    · simp only [List.sum_cons, List.sum_nil, List.zipWith_cons_cons, List.zipWith_nil_left, V3.sub_y,
        V3.add_y]
      rw [hy]; ring
    · simp only [List.sum_cons, List.sum_nil, List.zipWith_cons_cons, List.zipWith_nil_left, V3.sub_z,
        V3.add_z]
      rw [hz]; ring

theorem box_face_convex (b : Box) (hx : b.xMin < b.xMax) (hy : b.yMin < b.yMax) (hz : b.zMin < b.zMax)
    (i : ℕ) (hi : i < 6) : ∃ f, b.face i = .val f ∧ ConvexFigure [f.p0, f.p1, f.p3, f.p2] := by
  have pp : ∀ {a b c d : ℝ}, a < b → c < d → 0 ≤ (b - a) * (d - c) := fun h h' =>
    mul_nonneg (by linarith) (by linarith)
  have hxy := pp hx hy
  have hxz := pp hx hz
  have hyz := pp hy hz
  interval_cases i
  · refine ⟨_, rfl, ⟨0, 0, 1⟩, ⟨b.xMin, b.yMin, b.zMin⟩, by norm_num [Spec.IsUnit], ?_, ?_, ?_⟩
    · simp [Quadrilateral.make, hx.ne, hy.ne, hz.ne, hx.ne', hy.ne', hz.ne']
    · intro c hc
      simp [Quadrilateral.make] at hc
      rcases hc with rfl | rfl | rfl | rfl <;> simp [Spec.OnPlane]
    · intro e he c hc
      simp [Quadrilateral.make] at hc
      simp [Spec.polyEdges, Quadrilateral.make] at he
      rcases he with rfl | rfl | rfl | rfl <;> rcases hc with rfl | rfl | rfl | rfl <;>
        simp [Spec.turn, Spec.det] <;> nlinarith
  · refine ⟨_, rfl, ⟨0, -1, 0⟩, ⟨b.xMin, b.yMin, b.zMin⟩, by norm_num [Spec.IsUnit], ?_, ?_, ?_⟩
    · simp [Quadrilateral.make, hx.ne, hy.ne, hz.ne, hx.ne', hy.ne', hz.ne']
    · intro c hc
      simp [Quadrilateral.make] at hc
      rcases hc with rfl | rfl | rfl | rfl <;> simp [Spec.OnPlane]
    · intro e he c hc
      simp [Quadrilateral.make] at hc
      simp [Spec.polyEdges, Quadrilateral.make] at he
      rcases he with rfl | rfl | rfl | rfl <;> rcases hc with rfl | rfl | rfl | rfl <;>
        simp [Spec.turn, Spec.det] <;> nlinarith
  · refine ⟨_, rfl, ⟨1, 0, 0⟩, ⟨b.xMin, b.yMin, b.zMin⟩, by norm_num [Spec.IsUnit], ?_, ?_, ?_⟩
    · simp [Quadrilateral.make, hx.ne, hy.ne, hz.ne, hx.ne', hy.ne', hz.ne']
    · intro c hc
      simp [Quadrilateral.make] at hc
      rcases hc with rfl | rfl | rfl | rfl <;> simp [Spec.OnPlane]
    · intro e he c hc
      simp [Quadrilateral.make] at hc
      simp [Spec.polyEdges, Quadrilateral.make] at he
      rcases he with rfl | rfl | rfl | rfl <;> rcases hc with rfl | rfl | rfl | rfl <;>
        simp [Spec.turn, Spec.det] <;> nlinarith
  · refine ⟨_, rfl, ⟨1, 0, 0⟩, ⟨b.xMax, b.yMax, b.zMax⟩, by norm_num [Spec.IsUnit], ?_, ?_, ?_⟩
    · simp [Quadrilateral.make, hx.ne, hy.ne, hz.ne, hx.ne', hy.ne', hz.ne']
    · intro c hc
      simp [Quadrilateral.make] at hc
      rcases hc with rfl | rfl | rfl | rfl <;> simp [Spec.OnPlane]
    · intro e he c hc
      simp [Quadrilateral.make] at hc
      simp [Spec.polyEdges, Quadrilateral.make] at he
      rcases he with rfl | rfl | rfl | rfl <;> rcases hc with rfl | rfl | rfl | rfl <;>
        simp [Spec.turn, Spec.det] <;> nlinarith
  · refine ⟨_, rfl, ⟨0, -1, 0⟩, ⟨b.xMax, b.yMax, b.zMax⟩, by norm_num [Spec.IsUnit], ?_, ?_, ?_⟩
    · simp [Quadrilateral.make, hx.ne, hy.ne, hz.ne, hx.ne', hy.ne', hz.ne']
    · intro c hc
      simp [Quadrilateral.make] at hc
      rcases hc with rfl | rfl | rfl | rfl <;> simp [Spec.OnPlane]
    · intro e he c hc
      simp [Quadrilateral.make] at hc
      simp [Spec.polyEdges, Quadrilateral.make] at he
      rcases he with rfl | rfl | rfl | rfl <;> rcases hc with rfl | rfl | rfl | rfl <;>
        simp [Spec.turn, Spec.det] <;> nlinarith
  · refine ⟨_, rfl, ⟨0, 0, 1⟩, ⟨b.xMax, b.yMax, b.zMax⟩, by norm_num [Spec.IsUnit], ?_, ?_, ?_⟩
    · simp [Quadrilateral.make, hx.ne, hy.ne, hz.ne, hx.ne', hy.ne', hz.ne']
    · intro c hc
      simp [Quadrilateral.make] at hc
      rcases hc with rfl | rfl | rfl | rfl <;> simp [Spec.OnPlane]
    · intro e he c hc
      simp [Quadrilateral.make] at hc
      simp [Spec.polyEdges, Quadrilateral.make] at he
      rcases he with rfl | rfl | rfl | rfl <;> rcases hc with rfl | rfl | rfl | rfl <;>
        simp [Spec.turn, Spec.det] <;> nlinarith

/-! ## C74 Distance to the boundary -/

/-- The geometries for which the distance to their boundary is computed with the kernel. -/
def KernelBoundary : DistArg → Prop
  | .geom (.disk _) => True
  | .geom (.cylinderSurface _) => True
  | .shape _ => True
  | _ => False

theorem disk_boundary {K : ShapeKernel} (hK : Faithful K) {d : Elliptical} (hd : ValidElliptical d)
    {s : Shape} {r : ℝ} (h : boundaryDistDisk K (.val s) d = .val r) :
    Spec.SetDist s.points (boundaryOf (.geom (.disk d))) r := by
  simp only [boundaryDistDisk, Outcome.val_bind, boundingEllipse_val hd, ellipseShape] at h
  obtain ⟨w, hw, h⟩ := Outcome.bind_eq_val.1 h
  obtain ⟨_, k2⟩ := hK.ellipseWire _ _ _ _ _ _ _ hd.frame hd.maj_pos hd.min_pos hw
  have := shape_distance hK h
  rw [k2] at this
  exact this

theorem surface_boundary {K : ShapeKernel} (hK : Faithful K) {c : CylinderSurface}
    (hc : ValidGeom (.cylinderSurface c)) {s : Shape} {r : ℝ}
    (h : boundaryDistSurface K (.val s) c = .val r) :
    Spec.SetDist s.points (boundaryOf (.geom (.cylinderSurface c))) r := by
  obtain ⟨center, axis, hs, hr, hh⟩ := hc
  have hfb := hs.frame
  rw [← hs.bottom_normal] at hfb
  have hft := hs.top_frame
  rw [← hs.top_normal] at hft
  simp only [boundaryDistSurface, Outcome.val_bind] at h
  obtain ⟨lo, hlo, h⟩ := Outcome.bind_eq_val.1 h
  obtain ⟨d1, hd1, h⟩ := Outcome.bind_eq_val.1 h
  obtain ⟨up, hup, h⟩ := Outcome.bind_eq_val.1 h
  obtain ⟨d2, hd2, h⟩ := Outcome.bind_eq_val.1 h
  cases h
  have e1 := circle_shape hK hfb hr hlo
  have e2 := circle_shape hK hft (by rw [hs.top_radius.1]; exact hr) hup
  have s1 := shape_distance hK hd1
  have s2 := shape_distance hK hd2
  rw [e1] at s1
  have e3 : up.points =
      {q | Spec.OnCircle c.bottom.center c.bottom.normal c.radius c.height q} := by
    rw [e2, hs.top_center, hs.top_normal, hs.top_radius.1, hs.bottom_center, hs.bottom_normal]
    ext q
    exact onCircle_shift hs.axis_unit _ _ q
  rw [e3] at s2
  exact s1.union s2

/-- The distance between a geometry or shape and the boundary of a disk, a cylinder surface, a face or a
solid is the distance between the sets of points. -/
theorem C74_kernel_boundary (K : ShapeKernel) (hK : Faithful K) (a b : DistArg) (ha : ValidArg a)
    (hb : ValidArg b) (hkb : KernelBoundary b) (d : ℝ)
    (h : computeDistanceToBoundary K a b = .val d) :
    Spec.SetDist (argPoints a) (boundaryOf b) d := by
  have bind_disk : ∀ (o : Outcome Shape) (e : Elliptical), boundaryDistDisk K o e =
      o >>= fun s => boundaryDistDisk K (.val s) e := by
    intro o e; cases o <;> rfl
  have bind_surf : ∀ (o : Outcome Shape) (c : CylinderSurface), boundaryDistSurface K o c =
      o >>= fun s => boundaryDistSurface K (.val s) c := by
    intro o e; cases o <;> rfl
  cases b with
  | line l => exact hkb.elim
  | geom g =>
    cases g with
    | disk e =>
      have key : ∀ s, getShape K a = .val s → boundaryDistDisk K (.val s) e = .val d →
          Spec.SetDist (argPoints a) (boundaryOf (.geom (.disk e))) d := by
        intro s hs h
        rw [← shape_points hK ha hs]
        exact disk_boundary hK hb h
      cases a with
      | shape s => exact key s rfl h
      | line l => cases h
      | geom g =>
        have h' : boundaryDistDisk K (getShape K (.geom g)) e = .val d := by cases g <;> exact h
        rw [bind_disk] at h'
        obtain ⟨s, hs, h'⟩ := Outcome.bind_eq_val.1 h'
        exact key s hs h'
    | cylinderSurface c =>
      have key : ∀ s, getShape K a = .val s → boundaryDistSurface K (.val s) c = .val d →
          Spec.SetDist (argPoints a) (boundaryOf (.geom (.cylinderSurface c))) d := by
        intro s hs h
        rw [← shape_points hK ha hs]
        exact surface_boundary hK hb h
      cases a with
      | shape s => cases h
      | line l => cases h
      | geom g =>
        have h' : boundaryDistSurface K (getShape K (.geom g)) c = .val d := by cases g <;> exact h
        rw [bind_surf] at h'
        obtain ⟨s, hs, h'⟩ := Outcome.bind_eq_val.1 h'
        exact key s hs h'
    | _ => exact hkb.elim
  | shape t =>
    have key : ∀ s k, getShape K a = .val s → distShapes K s (t.boundary k) = .val d →
        Spec.SetDist (argPoints a) (boundaryOf (.shape t)) d := by
      intro s k hs h
      rw [← shape_points hK ha hs]
      exact shape_distance hK h
    have h' : ∀ o : Outcome Shape, (if t.kind = .face then do
          let s ← o
          distShapes K s (t.boundary .wire)
        else if t.kind = .solid then do
          let s ← o
          distShapes K s (t.boundary .shell)
        else .ub) = .val d → ∃ s k, o = .val s ∧ distShapes K s (t.boundary k) = .val d := by
      intro o ho
      split_ifs at ho
      · obtain ⟨s, hs, ho⟩ := Outcome.bind_eq_val.1 ho
        exact ⟨s, _, hs, ho⟩
      · obtain ⟨s, hs, ho⟩ := Outcome.bind_eq_val.1 ho
        exact ⟨s, _, hs, ho⟩
    cases a with
    | shape s =>
      simp only [computeDistanceToBoundary] at h
      split_ifs at h
      exact key s _ rfl h
    | line l =>
      obtain ⟨s, k, hs, hd⟩ := h' (getShape K (.line l)) h
      cases hs
    | geom g =>
      obtain ⟨s, k, hs, hd⟩ := h' (getShape K (.geom g)) (by cases g <;> exact h)
      exact key s k hs hd

/-- The distance between a shape and the boundary of a quadrilateral or polygon is the distance to the
nearest edge. -/
theorem C74_shape_edges (K : ShapeKernel) (hK : Faithful K) (s : Shape) (d : ℝ) :
    (∀ p0 p1 p2 p3, (∃ a ∈ s.points, ∃ b, OnBoundary [p0, p1, p3, p2] b ∧ Spec.dist a b ≤ doubleMax) →
      computeDistanceToBoundary K (.shape s)
        (.geom (.quadrilateral (Quadrilateral.make p0 p1 p2 p3))) = .val d →
      Spec.SetDist s.points {q | OnBoundary [p0, p1, p3, p2] q} d) ∧
    (∀ cs pg, Polygon.make cs = .val pg →
      (∃ a ∈ s.points, ∃ b, OnBoundary cs b ∧ Spec.dist a b ≤ doubleMax) →
      computeDistanceToBoundary K (.shape s) (.geom (.polygon pg)) = .val d →
      Spec.SetDist s.points {q | OnBoundary cs q} d) := by
  have loop : ∀ (edge : ℕ → Outcome Segment) (n : ℕ) (cs : List V3), Enumerates edge n cs →
      (∃ a ∈ s.points, ∃ b, OnBoundary cs b ∧ Spec.dist a b ≤ doubleMax) →
      boundaryDistEdges K s edge n = .val d → Spec.SetDist s.points {q | OnBoundary cs q} d := by
    intro edge n cs hen ⟨a, ha, b, hb, hab⟩ h
    have hset : {q | OnBoundary cs q} =
        {q | ∃ i < n, q ∈ {q | ∃ sg, edge i = .val sg ∧ Spec.OnSegment sg.source sg.target q}} := by
      ext q
      constructor
      · rintro ⟨e, he, hq⟩
        obtain ⟨i, hi, h1 | h1⟩ := hen.all e he
        · exact ⟨i, hi, _, h1, hq⟩
        · exact ⟨i, hi, _, h1, onSegment_symm hq⟩
      · rintro ⟨i, hi, sg, hsg, hq⟩
        obtain ⟨sg', hsg', h1⟩ := hen.valid i hi
        rw [hsg] at hsg'
        cases hsg'
        rcases h1 with h1 | h1
        · exact ⟨_, h1, hq⟩
        · exact ⟨_, h1, onSegment_symm hq⟩
    have hb' : b ∈ {q | OnBoundary cs q} := hb
    rw [hset] at hb' ⊢
    obtain ⟨i, hi, hbi⟩ := hb'
    refine setDist_loop h ?_ ⟨a, ha, i, hi, b, hbi, hab⟩
    intro i hi r hr
    obtain ⟨sg, hsg, hr⟩ := Outcome.bind_eq_val.1 hr
    have hsd := C73_distance K hK (.shape s) (.geom (.segment sg)) trivial trivial (fun h => h) r hr
    have e : {q | ∃ sg, edge i = .val sg ∧ Spec.OnSegment sg.source sg.target q} =
        {q | Spec.OnSegment sg.source sg.target q} := by
      ext q
      constructor
      · rintro ⟨sg', hsg', hq⟩
        rw [hsg] at hsg'
        cases hsg'
        exact hq
      · intro hq
        exact ⟨sg, hsg, hq⟩
    rw [e]
    exact hsd
  refine ⟨fun p0 p1 p2 p3 hm h => loop _ _ _ (quad_enumerates p0 p1 p2 p3) hm h, ?_⟩
  intro cs pg hpg hm h
  have hcs : pg.corners = cs ∧ cs ≠ [] := by
    unfold Polygon.make at hpg
    split_ifs at hpg with hl
    obtain ⟨c, hc, hpg⟩ := Outcome.bind_eq_val.1 hpg
    cases hpg
    exact ⟨rfl, by rintro rfl; simp at hl⟩
  have := loop _ _ _ (polygon_enumerates pg (hcs.1 ▸ hcs.2))
  rw [hcs.1] at this
  refine this hm ?_
  simp only [computeDistanceToBoundary, Polygon.numEdges] at h
  rw [← hcs.1]
  exact h

/-- The distance between a point and the boundary of a quadrilateral or polygon is a lower bound of the
distances to the points of the boundary, and exact up to the tolerance of an edge. -/
theorem C74_point_edges (K : ShapeKernel) (p : V3) :
    (∀ p0 p1 p2 p3, (∃ q, OnBoundary [p0, p1, p3, p2] q ∧ Spec.dist p q ≤ doubleMax) →
      ∃ r, computeDistanceToBoundary K (.geom (.point p))
          (.geom (.quadrilateral (Quadrilateral.make p0 p1 p2 p3))) = .val r ∧
        (∀ q, OnBoundary [p0, p1, p3, p2] q → r ≤ Spec.dist p q) ∧
        ∃ e ∈ Spec.polyEdges [p0, p1, p3, p2], ∃ q, Spec.OnSegment e.1 e.2 q ∧
          Spec.dist p q ≤ r + 1 / 10 ^ 7 * Spec.dist e.1 e.2) ∧
    (∀ cs pg, Polygon.make cs = .val pg → (∃ q, OnBoundary cs q ∧ Spec.dist p q ≤ doubleMax) →
      ∃ r, computeDistanceToBoundary K (.geom (.point p)) (.geom (.polygon pg)) = .val r ∧
        (∀ q, OnBoundary cs q → r ≤ Spec.dist p q) ∧
        ∃ e ∈ Spec.polyEdges cs, ∃ q, Spec.OnSegment e.1 e.2 q ∧
          Spec.dist p q ≤ r + 1 / 10 ^ 7 * Spec.dist e.1 e.2) :=
  ⟨fun p0 p1 p2 p3 hd => C25_quadrilateral p p0 p1 p2 p3 hd,
    fun cs pg hm hd => C25_polygon p cs pg hm hd⟩

/-- The distance between a point and the boundary of a box is the distance to the nearest of its six
faces, also for points in the box. -/
theorem C74_box (K : ShapeKernel) (hK : Faithful K) (p : V3) (b : Box) (hx : b.xMin < b.xMax)
    (hy : b.yMin < b.yMax) (hz : b.zMin < b.zMax)
    (hm : ∃ q ∈ boundaryOf (.geom (.box b)), Spec.dist p q ≤ doubleMax) (d : ℝ)
    (h : computeDistanceToBoundary K (.geom (.point p)) (.geom (.box b)) = .val d) :
    Spec.SetDist {p} (boundaryOf (.geom (.box b))) d := by
  obtain ⟨_, hfaces, _⟩ := C13_faces b hx.le hy.le hz.le
  have h : boundaryDistBox K p b = .val d := h
  unfold boundaryDistBox at h
  have hset : boundaryOf (.geom (.box b)) =
      {q | ∃ i < 6, q ∈ {q | ∃ f, b.face i = .val f ∧ Spec.InParallelogram f.p0 f.p1 f.p2 q}} := by
    ext q
    exact hfaces q
  obtain ⟨q, hq, hpq⟩ := hm
  rw [hset] at hq ⊢
  obtain ⟨i, hi, hqi⟩ := hq
  refine setDist_loop h ?_ ⟨p, rfl, i, hi, q, hqi, hpq⟩
  intro i hi r hr
  obtain ⟨f, hf, hcf⟩ := box_face_convex b hx hy hz i hi
  obtain ⟨g, hg, hpar⟩ := (C13_faces b hx.le hy.le hz.le).1 i hi
  rw [hf] at hg
  cases hg
  simp only [hf, Outcome.val_bind] at hr
  have hsd := (C73_distance K hK (.geom (.quadrilateral f)) (.geom (.point p)) hcf trivial
    (fun h => h) r hr).symm
  have e : {q | ∃ f, b.face i = .val f ∧ Spec.InParallelogram f.p0 f.p1 f.p2 q} =
      pointsOf (.quadrilateral f) := by
    ext q
    constructor
    · rintro ⟨g, hg, hq⟩
      rw [hf] at hg
      cases hg
      exact (hull_parallelogram _ _ _ _ hpar q).2 hq
    · intro hq
      exact ⟨f, hf, (hull_parallelogram _ _ _ _ hpar q).1 hq⟩
  rw [e]
  exact hsd

/-- The geometries whose boundary is used for the distance to a geometry of the given kind: disks and
cylinder surfaces for all of them, quadrilaterals, polygons and boxes only for points. -/
def boundarySupported : AnyGeometry → AnyGeometry → Prop
  | _, .disk _ => True
  | _, .cylinderSurface _ => True
  | .point _, .quadrilateral _ => True
  | .point _, .polygon _ => True
  | .point _, .box _ => True
  | _, _ => False

/-- For all other pairs of geometries an exception is thrown instead of returning a wrong number. -/
theorem C74_unsupported (K : ShapeKernel) (a b : AnyGeometry) (h : ¬ boundarySupported a b) :
    (computeDistanceToBoundary K (.geom a) (.geom b)).isThrown := by
  cases a <;> cases b <;> first | exact trivial | exact absurd trivial h

/-- Example: the distance between the centre of the unit cube and its boundary is computed. -/
example : ∃ d, computeDistanceToBoundary idealKernel (.geom (.point ⟨1 / 2, 1 / 2, 1 / 2⟩))
    (.geom (.box ⟨0, 1, 0, 1, 0, 1⟩)) = .val d := by
  have hval : ∀ i ∈ List.range 6, ((do
      let q ← Box.face ⟨0, 1, 0, 1, 0, 1⟩ i
      computeDistance idealKernel (.geom (.quadrilateral q)) (.geom (.point ⟨1 / 2, 1 / 2, 1 / 2⟩)) :
        Outcome ℝ)).isVal := by
    intro i hi
    obtain ⟨f, hf, hcf⟩ := box_face_convex ⟨0, 1, 0, 1, 0, 1⟩ (by norm_num) (by norm_num) (by norm_num) i
      (List.mem_range.1 hi)
    rw [hf, Outcome.val_bind]
    obtain ⟨d, hd⟩ := C73_computed idealKernel idealKernel_neverFails
      (fun s t hs ht => by
        obtain ⟨d, hd, _⟩ := ideal_extrema hs ht
        refine ⟨d, ?_⟩
        unfold distShapes at hd
        cases h : idealKernel.extrema s t with
        | none => rw [h] at hd; cases hd
        | some r => rw [h] at hd; cases hd; rfl)
      idealKernel_faithful (.quadrilateral f) (.point ⟨1 / 2, 1 / 2, 1 / 2⟩) hcf trivial
      ⟨f.p0, [1, 0, 0, 0], rfl, by simp, by simp, by simp, by simp, by simp⟩ ⟨_, rfl⟩
      (by simp) (by simp) (by simp) (by simp) (by simp [ClosedArc]) (by simp [ClosedArc])
    rw [hd]
    trivial
  obtain ⟨r, hr, _⟩ := distLoop_spec _ (List.range 6) doubleMax hval
  exact ⟨r, hr⟩

/-! ## C75 Distance to the boundary in Python -/

/-- Full claim: the Python function returns the distance to the boundary. -/
def C75_full : Prop :=
  ∀ (a b : DistArg) (d : ℝ), ValidArg a → ValidArg b →
    pyComputeDistanceToBoundary idealKernel a b = .val d → Spec.SetDist (argPoints a) (boundaryOf b) d

theorem unit_square_convex :
    ConvexFigure [(⟨0, 0, 0⟩ : V3), ⟨1, 0, 0⟩, ⟨1, 1, 0⟩, ⟨0, 1, 0⟩] := by
  refine ⟨⟨0, 0, 1⟩, ⟨0, 0, 0⟩, by norm_num [Spec.IsUnit], ?_, ?_, ?_⟩
  · simp
  · intro c hc
    simp at hc
    rcases hc with rfl | rfl | rfl | rfl <;> norm_num [Spec.OnPlane]
  · intro e he c hc
    simp at hc
    simp [Spec.polyEdges] at he
    rcases he with rfl | rfl | rfl | rfl <;> rcases hc with rfl | rfl | rfl | rfl <;>
      norm_num [Spec.turn, Spec.det]

/-- The claim fails: the binding calls the function for the distance to the geometry itself.  For the
centre of the unit square zero is returned, although the boundary is one half away. -/
theorem C75_disproof : ¬ C75_full := by
  intro hfull
  set q := Quadrilateral.make ⟨0, 0, 0⟩ ⟨1, 0, 0⟩ ⟨0, 1, 0⟩ ⟨1, 1, 0⟩ with hq
  have hv : ValidGeom (.quadrilateral q) := unit_square_convex
  have hmem : (⟨1 / 2, 1 / 2, 0⟩ : V3) ∈ argPoints (.geom (.quadrilateral q)) := by
    refine ⟨[1 / 4, 1 / 4, 1 / 4, 1 / 4], rfl, by simp, ?_, ?_, ?_, ?_⟩ <;>
      norm_num [hq, Quadrilateral.make]
  obtain ⟨s, hs⟩ := (C72_supported idealKernel (.quadrilateral q)).1 idealKernel_neverFails hv
    (by simp) (by simp) (by simp [ClosedArc])
  have hsp := (C72_shape_partial idealKernel idealKernel_faithful _ hv s hs).1
  obtain ⟨d, hd, hset⟩ := ideal_extrema (s := ⟨.vertex, {(⟨1 / 2, 1 / 2, 0⟩ : V3)}, ∅⟩) (t := s)
    ⟨_, rfl⟩ ⟨_, by rw [hsp]; exact hmem⟩
  have hpy : pyComputeDistanceToBoundary idealKernel (.geom (.point ⟨1 / 2, 1 / 2, 0⟩))
      (.geom (.quadrilateral q)) = .val d := by
    have : pyBoundaryBinding idealKernel (.geom (.point ⟨1 / 2, 1 / 2, 0⟩)) (.geom (.quadrilateral q)) =
        .val d := by
      rw [← hd]
      simp only [pyBoundaryBinding, pyBoundaryRegistered, if_true, computeDistance, closedDistance, hs]
      rfl
    simp only [pyComputeDistanceToBoundary, this]
  have hb := hfull _ (.geom (.quadrilateral q)) d (show ValidArg (.geom (.point _)) from trivial) hv hpy
  have h0 : d ≤ 0 := by
    have := hset.1 _ rfl (⟨1 / 2, 1 / 2, 0⟩ : V3) (by rw [hsp]; exact hmem)
    simpa [Spec.dist] using this
  obtain ⟨a, ha, b, ⟨e, he, hbq⟩, hab⟩ := hb.2 (1 / 2) (by norm_num)
  cases ha
  have hlt : Spec.dist (⟨1 / 2, 1 / 2, 0⟩ : V3) b < 1 / 2 := by linarith
  have hE : Spec.polyEdges [q.p0, q.p1, q.p3, q.p2] =
      [(⟨0, 0, 0⟩, ⟨1, 0, 0⟩), (⟨1, 0, 0⟩, ⟨1, 1, 0⟩), (⟨1, 1, 0⟩, ⟨0, 1, 0⟩), (⟨0, 1, 0⟩, ⟨0, 0, 0⟩)] := rfl
  rw [hE] at he
  have hco : b.x = 0 ∨ b.x = 1 ∨ b.y = 0 ∨ b.y = 1 := by
    simp only [List.mem_cons, List.not_mem_nil, or_false] at he
    obtain ⟨t, _, _, hb⟩ := (Spec.onSegment_iff _ _ _).1 hbq
    rcases he with rfl | rfl | rfl | rfl <;> subst hb <;> simp
  unfold Spec.dist at hlt
  rw [Real.sqrt_lt' (by norm_num)] at hlt
  rcases hco with h | h | h | h <;> rw [h] at hlt <;>
    nlinarith [sq_nonneg (1 / 2 - b.x), sq_nonneg (1 / 2 - b.y), sq_nonneg (0 - b.z)]

/-- What the Python function returns instead: the distance to the geometry, or to the ellipse of an arc for arcs.  It
is a lower bound of the distances to the points of the boundary as long as the boundary is part of the geometry.
Missing: that the distance to the boundary is returned for arguments that meet the interior. -/
theorem C75_lower_bound_partial (K : ShapeKernel) (hK : Faithful K) (a b : DistArg) (ha : ValidArg a)
    (hb : ValidArg b) (d : ℝ) (h : pyComputeDistanceToBoundary K a b = .val d) :
    (¬ IsArc a → Spec.SetDist (argPoints a) (argPoints b) d) ∧
    (boundaryOf b ⊆ argPoints b → ∀ p ∈ argPoints a, ∀ q ∈ boundaryOf b, d ≤ Spec.dist p q) := by
  have hreg : ∀ a b, pyBoundaryRegistered a b = true → ¬ PointSegment a b := by
    intro a b hr hps
    unfold PointSegment at hps
    split at hps
    · cases hr
    · cases hr
    · exact hps
  have key : ∀ a, ValidArg a → ∀ d, pyBoundaryBinding K a b = .val d →
      Spec.SetDist (argPoints a) (argPoints b) d := by
    intro a ha d h
    unfold pyBoundaryBinding at h
    split_ifs at h with hr
    exact C73_distance K hK a b ha hb (hreg a b hr) d h
  have main : Spec.SetDist (argPoints a) (argPoints b) d ∨
      IsArc a ∧ Spec.SetDist (argPoints (completed a)) (argPoints b) d := by
    unfold pyComputeDistanceToBoundary at h
    split at h
    · rename_i r hr
      cases h
      exact .inl (key a ha _ hr)
    · obtain ⟨s, hs, h⟩ := Outcome.bind_eq_val.1 h
      have hl : ∀ l, a ≠ .line l := by
        rintro l rfl
        cases hs
      by_cases hi : IsArc a
      · refine .inr ⟨hi, ?_⟩
        have hl' : ∀ l, completed a ≠ .line l := by
          intro l
          unfold completed
          split
          · simp
          · exact hl l
        rw [← completed_shape, pyGetShape_eq (completed_not_arc a) hl'] at hs
        rw [← shape_points hK (completed_valid a ha) hs]
        exact key (.shape s) trivial d h
      · rw [pyGetShape_eq hi hl] at hs
        rw [← shape_points hK ha hs]
        exact .inl (key (.shape s) trivial d h)
  refine ⟨fun hi => main.resolve_right fun h => hi h.1, fun hsub p hp q hq => ?_⟩
  rcases main with m | ⟨_, m⟩
  · exact m.1 p hp q (hsub hq)
  · exact m.1 p (completed_points a ha hp) q (hsub hq)

/-- The geometries whose boundary the Python function accepts as second argument for every first argument that has a
shape. -/
def PyBoundary (b : DistArg) : Prop :=
  (∃ d, b = .geom (.disk d)) ∨ (∃ c, b = .geom (.cylinderSurface c)) ∨ (∃ q, b = .geom (.quadrilateral q)) ∨
  (∃ pg, b = .geom (.polygon pg)) ∨ ∃ t : Shape, (t.kind = .face ∨ t.kind = .solid) ∧ b = .shape t

/-- The Python function returns a number for disks, cylinder surfaces, quadrilaterals, polygons, faces and solids (and
boxes, if the first argument is a point), unless the kernel fails; all other second arguments are rejected. -/
theorem C75_supported (K : ShapeKernel) (a b : DistArg) :
    (PyBoundary b ∨ ((∃ p, a = .geom (.point p)) ∧ ∃ x, b = .geom (.box x)) → ∀ s t d, pyGetShape K a = .val s →
      getShape K b = .val t → K.extrema s t = some d → pyComputeDistanceToBoundary K a b = .val d) ∧
    (¬ PyBoundary b → ¬ ((∃ p, a = .geom (.point p)) ∧ ∃ x, b = .geom (.box x)) →
      ∀ s, pyGetShape K a = .val s → (pyComputeDistanceToBoundary K a b).isThrown) := by
  have reg : ∀ s : Shape, PyBoundary b ↔ pyBoundaryRegistered (.shape s) b = true := by
    intro s
    unfold PyBoundary
    constructor
    · rintro (⟨_, rfl⟩ | ⟨_, rfl⟩ | ⟨_, rfl⟩ | ⟨_, rfl⟩ | ⟨t, ht, rfl⟩)
      · rfl
      · rfl
      · rfl
      · rfl
      · exact decide_eq_true ht
    · intro h
      cases b with
      | line l => cases h
      | shape t => exact .inr (.inr (.inr (.inr ⟨t, of_decide_eq_true h, rfl⟩)))
      | geom g =>
        cases g with
        | disk d => exact .inl ⟨_, rfl⟩
        | cylinderSurface d => exact .inr (.inl ⟨_, rfl⟩)
        | quadrilateral d => exact .inr (.inr (.inl ⟨_, rfl⟩))
        | polygon d => exact .inr (.inr (.inr (.inl ⟨_, rfl⟩)))
        | _ => cases h
  constructor
  · intro h s t d hs ht hd
    have dist : ∀ x : DistArg, getShape K x = .val s → closedDistance x b = none → computeDistance K x b = .val d := by
      intro x hx hc
      simp only [computeDistance, hc, hx, ht, Outcome.val_bind, distShapes, hd, doneOr]
    have hc : ∀ x, closedDistance x b = none := by
      intro x
      rcases h with (⟨_, rfl⟩ | ⟨_, rfl⟩ | ⟨_, rfl⟩ | ⟨_, rfl⟩ | ⟨_, _, rfl⟩) | ⟨_, _, rfl⟩ <;>
        (cases x with
          | geom g => cases g <;> rfl
          | _ => rfl)
    by_cases hr : pyBoundaryRegistered a b = true
    · have ha : getShape K a = .val s := by
        cases a with
        | shape s' => exact hs
        | line l => cases hs
        | geom g =>
          cases g with
          | point p => exact hs
          | _ => cases hr
      have : pyBoundaryBinding K a b = .val d := by
        unfold pyBoundaryBinding
        rw [if_pos hr]
        exact dist a ha (hc a)
      simp only [pyComputeDistanceToBoundary, this]
    · have h' : PyBoundary b := by
        rcases h with h | ⟨⟨p, rfl⟩, x, rfl⟩
        · exact h
        · exact absurd rfl hr
      have : pyBoundaryBinding K (.shape s) b = .val d := by
        unfold pyBoundaryBinding
        rw [if_pos ((reg s).1 h')]
        exact dist _ rfl (hc _)
      have h0 : pyBoundaryBinding K a b = .thrown "incompatible function arguments" := by
        unfold pyBoundaryBinding
        rw [if_neg hr]
      simp only [pyComputeDistanceToBoundary, h0, hs, Outcome.val_bind, this]
  · intro h1 h2 s hs
    have key : ∀ s : Shape, pyBoundaryBinding K (.shape s) b = .thrown "incompatible function arguments" := by
      intro s
      unfold pyBoundaryBinding
      rw [if_neg (fun hr => h1 ((reg s).2 hr))]
    have h0 : pyBoundaryBinding K a b = .thrown "incompatible function arguments" := by
      cases a with
      | shape s => exact key s
      | line l => rfl
      | geom g =>
        cases g with
        | point p =>
          unfold pyBoundaryBinding
          rw [if_neg]
          intro hreg
          cases b with
          | line l => cases hreg
          | shape t => cases hreg
          | geom g =>
            cases g with
            | quadrilateral q => exact h1 (.inr (.inr (.inl ⟨_, rfl⟩)))
            | polygon q => exact h1 (.inr (.inr (.inr (.inl ⟨_, rfl⟩))))
            | box q => exact h2 ⟨⟨_, rfl⟩, _, rfl⟩
            | _ => cases hreg
        | _ => rfl
    simp only [pyComputeDistanceToBoundary, h0, hs, Outcome.val_bind, key]
    trivial

/-- The distance of a shape to a sphere's boundary is not available in Python; for a disk it is. -/
example (t : Shape) (s : Sphere) (d : Elliptical) :
    (pyComputeDistanceToBoundary idealKernel (.shape t) (.geom (.sphere s))).isThrown ∧ PyBoundary (.geom (.disk d)) :=
  ⟨(C75_supported idealKernel _ _).2 (by simp [PyBoundary]) (by simp) t rfl, .inl ⟨_, rfl⟩⟩

/-- Weights that put `s` on one of the corners. -/
theorem corner_weights (s : ℝ) (hs : 0 ≤ s) : ∀ (cs : List V3) (a : V3), a ∈ cs →
    ∃ w : List ℝ, w.length = cs.length ∧ (∀ r ∈ w, 0 ≤ r) ∧ w.sum = s ∧
      ∀ f : V3 → ℝ, (List.zipWith (fun r c => r * f c) w cs).sum = s * f a := by
  have hzero : ∀ (cs : List V3) (f : V3 → ℝ),
      (List.zipWith (fun r c => r * f c) (List.replicate cs.length 0) cs).sum = 0 := by
    intro cs f
    induction cs with
    | nil => rfl
    | cons c t ih => simp [List.replicate_succ, ih]
  intro cs
  induction cs with
  | nil => intro a ha; simp at ha
  | cons c t ih =>
    intro a ha
    rcases List.mem_cons.1 ha with rfl | ha
    · refine ⟨s :: List.replicate t.length 0, by simp, ?_, by simp, ?_⟩
      · intro r hr
        rcases List.mem_cons.1 hr with rfl | hr
        · exact hs
        · exact (List.eq_of_mem_replicate hr).ge
      · intro f
        simp [hzero]
    · obtain ⟨w, h1, h2, h3, h4⟩ := ih a ha
      refine ⟨0 :: w, by simp [h1], ?_, by simp [h3], ?_⟩
      · intro r hr
        rcases List.mem_cons.1 hr with rfl | hr
        · exact le_rfl
        · exact h2 r hr
      · intro f
        simp [h4]

theorem add_weights : ∀ (w w' : List ℝ) (cs : List V3), w.length = cs.length → w'.length = cs.length →
    (∀ r ∈ w, 0 ≤ r) → (∀ r ∈ w', 0 ≤ r) →
    ∃ v : List ℝ, v.length = cs.length ∧ (∀ r ∈ v, 0 ≤ r) ∧ v.sum = w.sum + w'.sum ∧
      ∀ f : V3 → ℝ, (List.zipWith (fun r c => r * f c) v cs).sum =
        (List.zipWith (fun r c => r * f c) w cs).sum + (List.zipWith (fun r c => r * f c) w' cs).sum
  | [], [], [], _, _, _, _ => ⟨[], rfl, by simp, by simp, by simp⟩
  | [], _ :: _, [], _, h2, _, _ => by simp at h2
  | [], _, _ :: _, h1, _, _, _ => by simp at h1
  | _ :: _, _, [], h1, _, _, _ => by simp at h1
  | _ :: _, [], _ :: _, _, h2, _, _ => by simp at h2
  | a :: w, b :: w', c :: cs, h1, h2, p1, p2 => by
    obtain ⟨v, k1, k2, k3, k4⟩ := add_weights w w' cs (by simpa using h1) (by simpa using h2)
      (fun r hr => p1 r (by simp [hr])) (fun r hr => p2 r (by simp [hr]))
    refine ⟨(a + b) :: v, by simp [k1], ?_, ?_, ?_⟩
    · intro r hr
      rcases List.mem_cons.1 hr with rfl | hr
      · exact add_nonneg (p1 a (by simp)) (p2 b (by simp))
      · exact k2 r hr
    · simp only [List.sum_cons, k3]; ring
    · intro f
      simp only [List.zipWith_cons_cons, List.sum_cons, k4]; ring

theorem boundary_in_hull {cs : List V3} {p : V3} (h : OnBoundary cs p) : Spec.InHull cs p := by
  obtain ⟨e, he, hp⟩ := h
  have m1 : e.1 ∈ cs := by
    rw [← map_fst_polyEdges cs]
    exact List.mem_map_of_mem he
  have m2 : e.2 ∈ cs := by
    have := (List.of_mem_zip (show (e.1, e.2) ∈ cs.zip (cs.tail ++ cs.take 1) from he)).2
    rcases List.mem_append.1 this with h | h
    · exact List.mem_of_mem_tail h
    · exact List.mem_of_mem_take h
  obtain ⟨t, h0, h1, hpt⟩ := (Spec.onSegment_iff _ _ _).1 hp
  obtain ⟨w, a1, a2, a3, a4⟩ := corner_weights (1 - t) (by linarith) cs e.1 m1
  obtain ⟨w', b1, b2, b3, b4⟩ := corner_weights t h0 cs e.2 m2
  obtain ⟨v, c1, c2, c3, c4⟩ := add_weights w w' cs a1 b1 a2 b2
  refine ⟨v, c1, c2, by rw [c3, a3, b3]; ring, ?_, ?_, ?_⟩
  · rw [c4, a4, b4, hpt]; simp; ring
  · rw [c4, a4, b4, hpt]; simp; ring
  · rw [c4, a4, b4, hpt]; simp; ring

/-- The boundary of every supported geometry is part of the geometry. -/
theorem C75_boundary_subset (g : AnyGeometry) (hv : ValidGeom g) :
    boundaryOf (.geom g) ⊆ pointsOf g := by
  intro p hp
  cases g with
  | disk d =>
    obtain ⟨x, y, h, rfl⟩ := hp
    exact ⟨x, y, h.le, rfl⟩
  | quadrilateral q => exact boundary_in_hull hp
  | polygon pg => exact boundary_in_hull hp
  | box b => exact hp.1
  | cylinderSurface c =>
    obtain ⟨center, axis, hs, hr, hh⟩ := hv
    rcases hp with ⟨h1, h2⟩ | ⟨h1, h2⟩
    · exact ⟨h1.ge, by rw [h1]; exact hh.le, h2⟩
    · exact ⟨by rw [h1]; exact hh.le, h1.le, h2⟩
  | _ => exact hp.elim

/-! ## C76 Points on the boundary -/

theorem point_on {K : ShapeKernel} (hK : Faithful K) {p : V3} {b : DistArg} (hb : ValidArg b)
    (hns : ∀ s, b ≠ .geom (.segment s)) {eps : ℝ} {r : Bool} (h : pointOnGeometry K p b eps = .val r) :
    r = true ↔ ∃ q ∈ argPoints b, Spec.dist p q < eps := by
  obtain ⟨d, hd, h⟩ := Outcome.bind_eq_val.1 h
  cases h
  have hs := C73_distance K hK (.geom (.point p)) b trivial hb (by
    intro hps
    unfold PointSegment at hps
    split at hps
    · exact hns _ rfl
    · rename_i heq; cases heq
    · exact hps) d hd
  rw [decide_eq_true_iff]
  constructor
  · intro hlt
    obtain ⟨a, ha, q, hq, hpq⟩ := hs.2 (eps - d) (by linarith)
    cases ha
    exact ⟨q, hq, by linarith⟩
  · rintro ⟨q, hq, hpq⟩
    exact (hs.1 p rfl q hq).trans_lt hpq

/-- Full claim: a point is on the boundary of a disk, a cylinder surface or a face exactly if some point
of the boundary is closer than the given tolerance. -/
def C76_full : Prop :=
  ∀ (K : ShapeKernel) (p : V3) (b : DistArg) (eps : ℝ) (r : Bool), Faithful K → ValidArg b →
    KernelBoundary b → pointOnGeometryBoundary K p b eps = .val r →
    (r = true ↔ ∃ q ∈ boundaryOf b, Spec.dist p q < eps)

/-- For faces the given tolerance has no influence on the result. -/
theorem C76_face_ignores_tolerance (K : ShapeKernel) (p : V3) (s : Shape) (eps eps' : ℝ) :
    pointOnGeometryBoundary K p (.shape s) eps = pointOnGeometryBoundary K p (.shape s) eps' := rfl

/-- Hence the claim fails for faces. -/
theorem C76_disproof : ¬ C76_full := by
  intro hfull
  set s : Shape := ⟨.face, {p | Spec.InDisk ⟨0, 0, 0⟩ ⟨1, 0, 0⟩ ⟨0, 1, 0⟩ 1 1 p},
    {p | Spec.OnEllipse ⟨0, 0, 0⟩ ⟨1, 0, 0⟩ ⟨0, 1, 0⟩ 1 1 p}⟩ with hs
  have hmem : (⟨1, 0, 0⟩ : V3) ∈ s.outer := ⟨1, 0, by norm_num, by norm_num [Spec.localPoint]⟩
  obtain ⟨d, hd, _⟩ := ideal_extrema (s := ⟨.vertex, {(⟨2, 0, 0⟩ : V3)}, ∅⟩) (t := s.boundary .wire)
    ⟨_, rfl⟩ ⟨_, hmem⟩
  have hr : ∀ eps, ∃ r, pointOnGeometryBoundary idealKernel ⟨2, 0, 0⟩ (.shape s) eps = .val r := by
    intro eps
    have hd' : computeDistance idealKernel (.geom (.point ⟨2, 0, 0⟩)) (.shape (s.boundary .wire)) =
        .val d := hd
    have hk : s.kind = .face := rfl
    simp only [pointOnGeometryBoundary, if_pos hk, defaultEpsilon, Outcome.val_bind, pointOnGeometry, hd']
    exact ⟨_, rfl⟩
  obtain ⟨r, h1⟩ := hr (1 / 2)
  have h2 : pointOnGeometryBoundary idealKernel ⟨2, 0, 0⟩ (.shape s) 2 = .val r := by
    rw [C76_face_ignores_tolerance idealKernel _ s 2 (1 / 2)]; exact h1
  have k1 := hfull idealKernel _ (.shape s) _ r idealKernel_faithful trivial trivial h1
  have k2 := hfull idealKernel _ (.shape s) _ r idealKernel_faithful trivial trivial h2
  have hyes : ∃ q ∈ boundaryOf (.shape s), Spec.dist (⟨2, 0, 0⟩ : V3) q < 2 :=
    ⟨⟨1, 0, 0⟩, hmem, by norm_num [Spec.dist]⟩
  obtain ⟨q, ⟨x, y, hxy, rfl⟩, hq⟩ := k1.1 (k2.2 hyes)
  unfold Spec.dist Spec.localPoint at hq
  rw [Real.sqrt_lt' (by norm_num)] at hq
  simp at hq hxy
  nlinarith [sq_nonneg y, sq_nonneg (x - 1)]

/-- Disks and cylinder surfaces: a point is on the boundary exactly if some point of the boundary is
closer than the tolerance.  Missing: faces, see `C76_face_partial`. -/
theorem C76_point_on_boundary_partial (K : ShapeKernel) (hK : Faithful K) (p : V3) (g : AnyGeometry)
    (eps : ℝ) (hv : ValidGeom g) (hkb : KernelBoundary (.geom g)) (r : Bool)
    (h : pointOnGeometryBoundary K p (.geom g) eps = .val r) :
    r = true ↔ ∃ q ∈ boundaryOf (.geom g), Spec.dist p q < eps := by
  cases g with
  | disk d =>
    have hd : ValidElliptical d := hv
    simp only [pointOnGeometryBoundary, boundingEllipse_val hd, Outcome.val_bind] at h
    exact point_on hK (b := .geom (.ellipse _)) (show ValidElliptical _ from ⟨hd.frame, hd.maj_pos, hd.min_pos⟩)
      (by simp) h
  | cylinderSurface c =>
    obtain ⟨center, axis, hs, hr, hh⟩ := hv
    have hfb := hs.frame
    rw [← hs.bottom_normal] at hfb
    have hft := hs.top_frame
    rw [← hs.top_normal] at hft
    have hvt : ValidGeom (.circle c.top) :=
      ⟨⟨hft, by rw [hs.top_radius.1]; exact hr, by rw [hs.top_radius.2]; exact hr⟩, by
        rw [hs.top_radius.1, hs.top_radius.2]⟩
    have hvb : ValidGeom (.circle c.bottom) :=
      ⟨⟨hfb, hr, by rw [hs.bottom_minLen]; exact hr⟩, by rw [hs.bottom_minLen]; rfl⟩
    have e3 : pointsOf (.circle c.top) =
        {q | Spec.OnCircle c.bottom.center c.bottom.normal c.radius c.height q} := by
      simp only [pointsOf]
      rw [hs.top_center, hs.top_normal, hs.top_radius.1, hs.bottom_center, hs.bottom_normal]
      ext q
      exact onCircle_shift hs.axis_unit _ _ q
    simp only [pointOnGeometryBoundary] at h
    obtain ⟨up, hup, h⟩ := Outcome.bind_eq_val.1 h
    have k1 := point_on hK (b := .geom (.circle c.top)) hvt (by simp) hup
    simp only [argPoints] at k1
    rw [e3] at k1
    split_ifs at h with hu
    · cases h
      obtain ⟨q, hq, hpq⟩ := k1.1 hu
      exact ⟨fun _ => ⟨q, .inr hq, hpq⟩, fun _ => rfl⟩
    · have k2 := point_on hK (b := .geom (.circle c.bottom)) hvb (by simp) h
      rw [k2]
      constructor
      · rintro ⟨q, hq, hpq⟩
        exact ⟨q, .inl hq, hpq⟩
      · rintro ⟨q, hq | hq, hpq⟩
        · exact ⟨q, hq, hpq⟩
        · exact absurd (k1.2 ⟨q, hq, hpq⟩) hu
  | _ => exact hkb.elim

/-- Faces: the result is the one for a tolerance derived from the size of the outer wire. -/
theorem C76_face_partial (K : ShapeKernel) (hK : Faithful K) (p : V3) (s : Shape) (eps : ℝ)
    (hf : s.kind = .face) (r : Bool) (h : pointOnGeometryBoundary K p (.shape s) eps = .val r) :
    ∃ e, defaultEpsilon K (.shape (s.boundary .wire)) = .val e ∧
      (r = true ↔ ∃ q ∈ s.outer, Spec.dist p q < e) := by
  simp only [pointOnGeometryBoundary, hf, if_true] at h
  obtain ⟨e, he, h⟩ := Outcome.bind_eq_val.1 h
  exact ⟨e, he, point_on hK (b := .shape _) trivial (by simp) h⟩

/-- Other shapes and geometries: an exception. -/
theorem C76_unsupported (K : ShapeKernel) (p : V3) (eps : ℝ) :
    (∀ s : Shape, s.kind ≠ .face → (pointOnGeometryBoundary K p (.shape s) eps).isThrown) ∧
    (∀ b, (pointOnGeometryBoundary K p (.geom (.box b)) eps).isThrown) ∧
    (∀ s, (pointOnGeometryBoundary K p (.geom (.sphere s)) eps).isThrown) ∧
    (∀ c, (pointOnGeometryBoundary K p (.geom (.cylinder c)) eps).isThrown) ∧
    (∀ t, (pointOnGeometryBoundary K p (.geom (.triangle t)) eps).isThrown) := by
  refine ⟨?_, fun _ => trivial, fun _ => trivial, fun _ => trivial, fun _ => trivial⟩
  intro s hs
  simp only [pointOnGeometryBoundary, if_neg hs]
  trivial

end Props
