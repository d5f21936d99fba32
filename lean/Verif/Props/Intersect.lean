import Verif.Spec.Intersect
import Verif.Model.Intersection.Intersect
import Verif.Props.Box
import Verif.Props.Shapes
import Verif.Props.PlanarPlanar

/-!
# The function `intersect` (C77)
-/

namespace Props
open Verif Frackit

/-- The type of an argument. -/
def typeOf : IsArg → Spec.GeoType
  | .geom (.point _) => .point
  | .geom (.segment _) => .segment
  | .geom (.circle _) => .circle
  | .geom (.ellipse _) => .ellipse
  | .geom (.arc _ _) => .arc
  | .geom (.triangle _) => .triangle
  | .geom (.quadrilateral _) => .quadrilateral
  | .geom (.polygon _) => .polygon
  | .geom (.disk _) => .disk
  | .geom (.cylinderSurface _) => .cylinderSurface
  | .geom (.box _) => .box
  | .geom (.sphere _) => .sphere
  | .geom (.cylinder _) => .cylinder
  | .geom (.hollowCylinder _) => .hollowCylinder
  | .line _ => .line
  | .plane _ => .plane
  | .shape s => if s.kind = .face then .face else .otherShape

/-- Without an algorithm for the types of the arguments an exception is thrown. -/
theorem C77_unsupported (I : IsKernel) (a b : IsArg) (eps : ℝ)
    (h : ¬ Spec.HasAlgorithm (typeOf a) (typeOf b)) : (intersect I a b eps).isThrown := by
  rcases a with (_|_|_|_|_|_|_|_|_|_|_|_|_|_)|_|_|s <;>
  rcases b with (_|_|_|_|_|_|_|_|_|_|_|_|_|_)|_|_|t <;>
  first
  | exact trivial
  | (simp only [typeOf] at h; exfalso; exact h (by decide))
  | (simp only [typeOf] at h
     split_ifs at h with hs ht <;>
     first
     | (exfalso; exact h (by decide))
     | (simp only [intersect]
        rw [if_neg (by tauto)]
        exact trivial))

/-- Example: quadrilaterals and polygons cannot be intersected with each other. -/
example (I : IsKernel) (q : Quadrilateral) (p : Polygon) (eps : ℝ) :
    (intersect I (.geom (.quadrilateral q)) (.geom (.polygon p)) eps).isThrown :=
  C77_unsupported I _ _ eps (by simp only [typeOf]; decide)

/-- For arguments of different types the order does not matter. -/
theorem C77_order (I : IsKernel) (a b : IsArg) (eps : ℝ) (h : typeOf a ≠ typeOf b) :
    intersect I a b eps = intersect I b a eps := by
  rcases a with (_|_|_|_|_|_|_|_|_|_|_|_|_|_)|_|_|s <;>
  rcases b with (_|_|_|_|_|_|_|_|_|_|_|_|_|_)|_|_|t <;>
  first
  | rfl
  | (exfalso; exact h rfl)
  | skip
  simp only [typeOf] at h
  simp only [intersect]
  rw [if_neg (by rintro ⟨h1, h2⟩; simp [h1, h2] at h), if_neg (by rintro ⟨h1, h2⟩; simp [h1, h2] at h)]

/-- The same for the default tolerance. -/
theorem C77_default_order (I : IsKernel) (a b : IsArg) (h : typeOf a ≠ typeOf b) (e1 e2 : ℝ)
    (h1 : isArgEpsilon I a = .val e1) (h2 : isArgEpsilon I b = .val e2) :
    intersectDefault I a b = intersectDefault I b a := by
  simp only [intersectDefault, h1, h2, Outcome.val_bind]
  rw [min_comm, C77_order I a b _ h]

/-! ### The check of the bounding boxes -/

/-- The set does not extend to infinity. -/
def InSomeBox (s : Set V3) : Prop := ∃ lo hi, ∀ p ∈ s, Spec.InBox lo hi p

/-- The bounding box of a shape contains the shape, unless the shape extends to infinity. -/
def BoundsContain (K : ShapeKernel) : Prop :=
  ∀ s : Shape, InSomeBox s.points → ∀ p ∈ s.points, Spec.InBox (Box.lo (K.bounds s)) (Box.hi (K.bounds s)) p

theorem inSomeBox_abs {s : Set V3} (R : ℝ) (h : ∀ p ∈ s, |p.x| ≤ R ∧ |p.y| ≤ R ∧ |p.z| ≤ R) :
    InSomeBox s := by
  refine ⟨⟨-R, -R, -R⟩, ⟨R, R, R⟩, fun p hp => ?_⟩
  obtain ⟨h1, h2, h3⟩ := h p hp
  rw [abs_le] at h1 h2 h3
  exact ⟨h1.1, h1.2, h2.1, h2.2, h3.1, h3.2⟩

/-- Bound for all coordinates of a point. -/
def coordBound (c : V3) : ℝ := |c.x| + |c.y| + |c.z|

theorem coord_le (c : V3) : 0 ≤ coordBound c ∧ |c.x| ≤ coordBound c ∧ |c.y| ≤ coordBound c ∧
    |c.z| ≤ coordBound c := by
  have h1 := abs_nonneg c.x
  have h2 := abs_nonneg c.y
  have h3 := abs_nonneg c.z
  refine ⟨?_, ?_, ?_, ?_⟩ <;> unfold coordBound <;> linarith

theorem coord_dist (p q : V3) : |p.x - q.x| ≤ Spec.dist p q ∧ |p.y - q.y| ≤ Spec.dist p q ∧
    |p.z - q.z| ≤ Spec.dist p q := by
  refine ⟨?_, ?_, ?_⟩ <;>
  · unfold Spec.dist
    apply Real.abs_le_sqrt
    nlinarith [sq_nonneg (p.x - q.x), sq_nonneg (p.y - q.y), sq_nonneg (p.z - q.z)]

theorem abs_three {a b c A B C : ℝ} (x : ℝ) (hx : x = a + b + c) (h1 : |a| ≤ A) (h2 : |b| ≤ B) (h3 : |c| ≤ C) :
    |x| ≤ A + B + C := by
  subst hx
  exact (abs_add_three _ _ _).trans (by linarith)

theorem inSomeBox_axis (c n : V3) (r h : ℝ) : InSomeBox
    {p | 0 ≤ Spec.axial c n p ∧ Spec.axial c n p ≤ h ∧ Spec.radial c n p ≤ r} := by
  refine inSomeBox_abs (coordBound c + h * coordBound n + r) fun p ⟨h0, h1, h2⟩ => ?_
  obtain ⟨_, c1, c2, c3⟩ := coord_le c
  obtain ⟨n0, n1, n2, n3⟩ := coord_le n
  unfold Spec.radial at h2
  generalize Spec.axial c n p = t at *
  obtain ⟨d1, d2, d3⟩ := coord_dist p ⟨c.x + t * n.x, c.y + t * n.y, c.z + t * n.z⟩
  have e : ∀ y, |y| ≤ coordBound n → |t * y| ≤ h * coordBound n := fun y hy => by
    rw [abs_mul, abs_of_nonneg h0]
    exact mul_le_mul h1 hy (abs_nonneg _) (h0.trans h1)
  exact ⟨abs_three _ (by ring) c1 (e _ n1) (d1.trans h2), abs_three _ (by ring) c2 (e _ n2) (d2.trans h2),
    abs_three _ (by ring) c3 (e _ n3) (d3.trans h2)⟩

theorem inSomeBox_mono {s t : Set V3} (h : InSomeBox t) (hst : s ⊆ t) : InSomeBox s := by
  obtain ⟨lo, hi, hb⟩ := h
  exact ⟨lo, hi, fun p hp => hb p (hst hp)⟩

theorem inSomeBox_disk {c u v : V3} {a b : ℝ} (ha : 0 < a) (hb : 0 < b) :
    InSomeBox {p | Spec.InDisk c u v a b p} := by
  refine inSomeBox_abs (coordBound c + a * coordBound u + b * coordBound v) ?_
  rintro p ⟨x, y, hxy, rfl⟩
  obtain ⟨_, c1, c2, c3⟩ := coord_le c
  obtain ⟨_, u1, u2, u3⟩ := coord_le u
  obtain ⟨_, v1, v2, v3⟩ := coord_le v
  have hx : |x| ≤ a := by
    have : |x / a| ≤ 1 := abs_le_one_iff_mul_self_le_one.2 (by nlinarith [sq_nonneg (y / b)])
    rwa [abs_div, abs_of_pos ha, div_le_one ha] at this
  have hy : |y| ≤ b := by
    have : |y / b| ≤ 1 := abs_le_one_iff_mul_self_le_one.2 (by nlinarith [sq_nonneg (x / a)])
    rwa [abs_div, abs_of_pos hb, div_le_one hb] at this
  have e1 : ∀ z, |z| ≤ coordBound u → |x * z| ≤ a * coordBound u := fun z hz => by
    rw [abs_mul]; exact mul_le_mul hx hz (abs_nonneg _) ha.le
  have e2 : ∀ z, |z| ≤ coordBound v → |y * z| ≤ b * coordBound v := fun z hz => by
    rw [abs_mul]; exact mul_le_mul hy hz (abs_nonneg _) hb.le
  exact ⟨abs_three _ rfl c1 (e1 _ u1) (e2 _ v1), abs_three _ rfl c2 (e1 _ u2) (e2 _ v2),
    abs_three _ rfl c3 (e1 _ u3) (e2 _ v3)⟩

theorem combination_bound (f : V3 → ℝ) (B : ℝ) : ∀ (w : List ℝ) (cs : List V3), w.length = cs.length →
    (∀ r ∈ w, 0 ≤ r) → (∀ c ∈ cs, |f c| ≤ B) →
    |(List.zipWith (fun r c => r * f c) w cs).sum| ≤ w.sum * B
  | [], [], _, _, _ => by simp
  | r :: w, c :: cs, hl, hw, hc => by
    have ih := combination_bound f B w cs (by simpa using hl) (fun x hx => hw x (List.mem_cons_of_mem _ hx))
      (fun x hx => hc x (List.mem_cons_of_mem _ hx))
    have h0 := hw r List.mem_cons_self
    have h1 : |r * f c| ≤ r * B := by
      rw [abs_mul, abs_of_nonneg h0]
      exact mul_le_mul_of_nonneg_left (hc c List.mem_cons_self) h0
    simp only [List.zipWith_cons_cons, List.sum_cons]
    refine (abs_add_le _ _).trans ?_
    nlinarith

theorem inSomeBox_hull (cs : List V3) : InSomeBox {p | Spec.InHull cs p} := by
  have hm : ∀ c ∈ cs, coordBound c ≤ (cs.map coordBound).sum := fun c hc =>
    List.single_le_sum (fun x hx => by
      obtain ⟨y, _, rfl⟩ := List.mem_map.1 hx
      exact (coord_le y).1) _ (List.mem_map_of_mem hc)
  refine inSomeBox_abs (cs.map coordBound).sum ?_
  rintro p ⟨w, hl, hw, hs, hx, hy, hz⟩
  have k : ∀ f : V3 → ℝ, (∀ c, |f c| ≤ coordBound c) →
      |(List.zipWith (fun r c => r * f c) w cs).sum| ≤ (cs.map coordBound).sum := fun f hf => by
    have := combination_bound f _ w cs hl hw (fun c hc => (hf c).trans (hm c hc))
    rwa [hs, one_mul] at this
  rw [hx, hy, hz]
  exact ⟨k V3.x fun c => (coord_le c).2.1, k V3.y fun c => (coord_le c).2.2.1, k V3.z fun c => (coord_le c).2.2.2⟩

/-- No geometry extends to infinity. -/
theorem geom_inSomeBox {g : AnyGeometry} (h : ValidGeom g) : InSomeBox (pointsOf g) := by
  cases g with
  | point q => exact ⟨q, q, by rintro p rfl; exact ⟨le_rfl, le_rfl, le_rfl, le_rfl, le_rfl, le_rfl⟩⟩
  | segment s =>
    refine inSomeBox_mono (inSomeBox_hull [s.source, s.target]) ?_
    rintro p ⟨t, t0, t1, hx, hy, hz⟩
    refine ⟨[1 - t, t], rfl, ?_, by simp, by simp [hx], by simp [hy], by simp [hz]⟩
    intro r hr
    simp only [List.mem_cons, List.not_mem_nil, or_false] at hr
    rcases hr with rfl | rfl <;> linarith
  | circle c =>
    refine inSomeBox_mono (inSomeBox_axis c.center c.normal c.majLen 0) ?_
    rintro p ⟨h0, h1⟩
    exact ⟨h0.ge, h0.le, h1.le⟩
  | ellipse e =>
    have hv : ValidElliptical e := h
    refine inSomeBox_mono (inSomeBox_disk (c := e.center) (u := e.major) (v := e.minor) hv.maj_pos
      hv.min_pos) ?_
    rintro p ⟨x, y, hxy, hp⟩
    exact ⟨x, y, hxy.le, hp⟩
  | arc a _ =>
    have hv : ValidElliptical a.ellipse := h.1
    refine inSomeBox_mono (inSomeBox_disk (c := a.ellipse.center) (u := a.ellipse.major) (v := a.ellipse.minor)
      hv.maj_pos hv.min_pos) ?_
    rintro p ⟨r, _, _, rfl⟩
    have key : ∀ t, Spec.InDisk a.ellipse.center a.ellipse.major a.ellipse.minor a.ellipse.majLen a.ellipse.minLen
        (Ellipse.getPointFromAngle a.ellipse t) := fun t => by
      obtain ⟨x, y, hxy, hp⟩ := (C09_ellipse_points_on_curve a.ellipse hv t).1
      exact ⟨x, y, hxy.le, hp⟩
    change Spec.InDisk _ _ _ _ _ _
    unfold EllipseArc.getPoint
    split_ifs <;> exact key _
  | triangle t =>
    refine inSomeBox_mono (inSomeBox_hull [t.c0, t.c1, t.c2]) ?_
    rintro p ⟨a, b, c, h0, h1, h2, hs, hx, hy, hz⟩
    refine ⟨[a, b, c], rfl, ?_, by simp; linarith, by simp [hx]; ring, by simp [hy]; ring, by simp [hz]; ring⟩
    intro r hr
    simp only [List.mem_cons, List.not_mem_nil, or_false] at hr
    rcases hr with rfl | rfl | rfl <;> assumption
  | quadrilateral q => exact inSomeBox_hull _
  | polygon pg => exact inSomeBox_hull _
  | disk d =>
    have hv : ValidElliptical d := h
    exact inSomeBox_disk hv.maj_pos hv.min_pos
  | cylinderSurface c =>
    refine inSomeBox_mono (inSomeBox_axis c.bottom.center c.bottom.normal c.radius c.height) ?_
    rintro p ⟨h0, h1, h2⟩
    exact ⟨h0, h1, h2.le⟩
  | box b => exact ⟨_, _, fun p hp => hp⟩
  | sphere s =>
    refine inSomeBox_abs (coordBound s.center + 0 + s.radius) fun p hp => ?_
    have hr : Spec.dist s.center p ≤ s.radius := hp
    obtain ⟨_, c1, c2, c3⟩ := coord_le s.center
    obtain ⟨d1, d2, d3⟩ := coord_dist s.center p
    rw [abs_sub_comm] at d1 d2 d3
    have z : |(0 : ℝ)| ≤ 0 := by simp
    exact ⟨abs_three _ (by ring) c1 z (d1.trans hr), abs_three _ (by ring) c2 z (d2.trans hr),
      abs_three _ (by ring) c3 z (d3.trans hr)⟩
  | cylinder c =>
    exact inSomeBox_axis c.bottom.center c.bottom.normal c.radius c.height
  | hollowCylinder c =>
    refine inSomeBox_mono (inSomeBox_axis c.bottomInner.center c.bottomInner.normal c.outerRadius c.height) ?_
    rintro p ⟨h0, h1, _, h2⟩
    exact ⟨h0, h1, h2⟩

open Classical in
/-- A kernel that satisfies all assumptions. -/
noncomputable def boundedKernel : ShapeKernel :=
  { idealKernel with
    bounds := fun s => if h : InSomeBox s.points then
      ⟨h.choose.x, h.choose_spec.choose.x, h.choose.y, h.choose_spec.choose.y, h.choose.z,
        h.choose_spec.choose.z⟩ else ⟨0, 0, 0, 0, 0, 0⟩ }

theorem boundedKernel_contains : BoundsContain boundedKernel := by
  intro s h p hp
  have := h.choose_spec.choose_spec p hp
  simp only [boundedKernel, dif_pos h]
  exact this

theorem boundedKernel_neverFails : NeverFails boundedKernel where
  vertex _ := ⟨_, rfl⟩
  edge _ _ := ⟨_, rfl⟩
  ellipseWire _ _ _ _ _ := ⟨_, rfl⟩
  ellipseFace _ _ _ _ _ := ⟨_, rfl⟩
  ellipseEdge := idealKernel_neverFails.ellipseEdge
  wireFace _ := ⟨_, rfl⟩
  cylinder _ _ _ _ _ := ⟨_, rfl⟩
  box _ _ := ⟨_, rfl⟩
  sphere _ _ := ⟨_, rfl⟩

theorem boundedKernel_faithful : Faithful boundedKernel where
  vertex := idealKernel_faithful.vertex
  edge := idealKernel_faithful.edge
  ellipseWire := idealKernel_faithful.ellipseWire
  ellipseEdge := idealKernel_faithful.ellipseEdge
  emptyTrim := idealKernel_faithful.emptyTrim
  ellipseFace := idealKernel_faithful.ellipseFace
  wireFace := idealKernel_faithful.wireFace
  cylinder := idealKernel_faithful.cylinder
  box := idealKernel_faithful.box
  sphere := idealKernel_faithful.sphere
  extrema := idealKernel_faithful.extrema

theorem precheck_passes {I : IsKernel} (hK : Faithful I.shapes) (hB : BoundsContain I.shapes) {a b : DistArg}
    (ha : ValidArg a) (hb : ValidArg b) (ba : InSomeBox (argPoints a)) (bb : InSomeBox (argPoints b))
    {s t : Shape} (hs : getShape I.shapes a = .val s) (ht : getShape I.shapes b = .val t) {p : V3} (h1 : p ∈ argPoints a) (h2 : p ∈ argPoints b) {eps : ℝ}
    (he : 0 < eps) {α : Type} (e : α) (algo : Outcome α) : preChecked I a b eps e algo = algo := by
  have hd : doIntersect (I.shapes.bounds s) (I.shapes.bounds t) eps :=
    C05_common_point_detected _ _ p eps he
      (hB s (by rw [shape_points hK ha hs]; exact ba) p (by rw [shape_points hK ha hs]; exact h1))
      (hB t (by rw [shape_points hK hb ht]; exact bb) p (by rw [shape_points hK hb ht]; exact h2))
  simp only [preChecked, getBoundingBox, hs, ht, Outcome.val_bind, Outcome.pure_eq]
  rw [if_neg (not_not.2 hd)]

theorem precheck_cases {I : IsKernel} (hK : Faithful I.shapes) (hB : BoundsContain I.shapes) {a b : DistArg}
    (ha : ValidArg a) (hb : ValidArg b) (ba : InSomeBox (argPoints a)) (bb : InSomeBox (argPoints b))
    {s t : Shape} (hs : getShape I.shapes a = .val s) (ht : getShape I.shapes b = .val t) {eps : ℝ} (he : 0 < eps) {α : Type} (e : α) (algo : Outcome α) :
    preChecked I a b eps e algo = algo ∨
      (preChecked I a b eps e algo = .val e ∧ ∀ p, p ∈ argPoints a → p ∉ argPoints b) := by
  by_cases hp : ∃ p, p ∈ argPoints a ∧ p ∈ argPoints b
  · obtain ⟨p, h1, h2⟩ := hp
    exact .inl (precheck_passes hK hB ha hb ba bb hs ht h1 h2 he e algo)
  · simp only [preChecked, getBoundingBox, hs, ht, Outcome.val_bind, Outcome.pure_eq]
    by_cases hd : doIntersect (I.shapes.bounds s) (I.shapes.bounds t) eps
    · rw [if_neg (not_not.2 hd)]
      exact .inl rfl
    · rw [if_pos hd]
      exact .inr ⟨rfl, fun p h1 h2 => hp ⟨p, h1, h2⟩⟩

/-- The algorithm for a pair of geometries, without check of the bounding boxes. -/
noncomputable def algorithmFor (I : IsKernel) (eps : ℝ) : AnyGeometry → AnyGeometry → Option (Outcome IsResult)
  | .segment s1, .segment s2 => some (do
      let g ← intersectSegmentSegment I.algo s1 s2 eps
      pure (.single g))
  | .disk d1, .disk d2 => some (do
      let g ← intersectDiskDisk I.algo d1 d2 (I.ops (.disk d1)) (I.ops (.disk d2)) eps
      pure (.single g))
  | .quadrilateral q1, .quadrilateral q2 => some (do
      let g ← intersectQuadQuad I.algo q1 q2 (I.ops (.quadrilateral q1)) (I.ops (.quadrilateral q2)) eps
      pure (.single g))
  | .polygon p1, .polygon p2 => some (do
      let g ← intersectPolygonPolygon I.algo p1 p2 (I.ops (.polygon p1)) (I.ops (.polygon p2)) eps
      pure (.single g))
  | .quadrilateral q, .disk d => some (do
      let g ← intersectQuadDisk I.algo q d (I.ops (.quadrilateral q)) (I.ops (.disk d)) eps
      pure (.single g))
  | .polygon p, .disk d => some (do
      let g ← intersectPolygonDisk I.algo p d (I.ops (.polygon p)) (I.ops (.disk d)) eps
      pure (.single g))
  | .cylinderSurface c, .disk d => some (do
      let g ← intersectCylinderDisk I.algo c d (I.ops (.disk d)) (I.cylOps c (.disk d) eps) eps
      pure (.list g))
  | .cylinderSurface c, .quadrilateral q => some (do
      let g ← intersectCylinderQuad I.algo c q (I.ops (.quadrilateral q)) (I.cylOps c (.quadrilateral q) eps) eps
      pure (.list g))
  | .cylinderSurface c, .polygon p => some (do
      let g ← intersectCylinderPolygon I.algo c p (I.ops (.polygon p)) (I.cylOps c (.polygon p) eps) eps
      pure (.list g))
  | _, _ => none

/-- The result of `intersect` is the one of the algorithm for the pair, except that the algorithm may be
skipped, with an empty intersection as result, if the geometries have no point in common. -/
theorem C77_bounding_boxes (I : IsKernel) (hK : Faithful I.shapes) (hN : NeverFails I.shapes)
    (hB : BoundsContain I.shapes) (g1 g2 : AnyGeometry) (h1 : ValidGeom g1) (h2 : ValidGeom g2) (eps : ℝ)
    (he : 0 < eps) (algo : Outcome IsResult) (ha : algorithmFor I eps g1 g2 = some algo) :
    intersect I (.geom g1) (.geom g2) eps = (do let r ← algo; pure (.geoms r)) ∨
    ((∀ p, p ∈ pointsOf g1 → p ∉ pointsOf g2) ∧
      ∃ r, intersect I (.geom g1) (.geom g2) eps = .val (.geoms r) ∧ isEmptyIntersection r = true) := by
  have sh : ∀ g, ValidGeom g → (∀ t, g ≠ .triangle t) → (∀ c, g ≠ .hollowCylinder c) →
      ¬ ClosedArc g → ∃ s, getShape I.shapes (.geom g) = .val s :=
    fun g hg ht hc hx => (C72_supported I.shapes g).1 hN hg ht hc hx
  have key : ∀ {g g' : AnyGeometry} (e : IsResult) (o : Outcome IsResult), ValidGeom g → ValidGeom g' →
      (∀ t, g ≠ .triangle t) → (∀ c, g ≠ .hollowCylinder c) →
      (∀ t, g' ≠ .triangle t) → (∀ c, g' ≠ .hollowCylinder c) → ¬ ClosedArc g → ¬ ClosedArc g' →
      isEmptyIntersection e = true →
      ∀ r : Outcome Intersected, r = preChecked I (.geom g) (.geom g') eps (.geoms e) (do let x ← o; pure (.geoms x)) →
      r = (do let r ← o; pure (.geoms r)) ∨
      ((∀ p, p ∈ pointsOf g → p ∉ pointsOf g') ∧
        ∃ x, r = .val (.geoms x) ∧ isEmptyIntersection x = true) := by
    intro g g' e o v1 v2 n1 n2 n3 n4 x1 x2 hE r hr
    obtain ⟨s, hs⟩ := sh g v1 n1 n2 x1
    obtain ⟨t, ht⟩ := sh g' v2 n3 n4 x2
    rcases precheck_cases hK hB (a := .geom g) (b := .geom g') v1 v2 (geom_inSomeBox v1)
      (geom_inSomeBox v2) hs ht he (Intersected.geoms e)
      (do let x ← o; pure (Intersected.geoms x)) with h | ⟨h, hp⟩
    · exact .inl (hr.trans h)
    · exact .inr ⟨hp, e, hr.trans h, hE⟩
  have assoc1 : ∀ o : Outcome IsGeom, singleResult o =
      (do let x ← (do let g ← o; pure (IsResult.single g)); pure (Intersected.geoms x)) := by
    intro o; cases o <;> rfl
  have assoc2 : ∀ o : Outcome (List IsGeom), listResult o =
      (do let x ← (do let g ← o; pure (IsResult.list g)); pure (Intersected.geoms x)) := by
    intro o; cases o <;> rfl
  unfold algorithmFor at ha
  split at ha <;> cases ha <;>
  first
  | (refine key (.single .empty) _ h1 h2 (fun _ h => by cases h) (fun _ h => by cases h)
      (fun _ h => by cases h) (fun _ h => by cases h) (by simp [ClosedArc]) (by simp [ClosedArc]) rfl _ ?_
     rw [← assoc1]; rfl)
  | (refine key (.list [.empty]) _ h1 h2 (fun _ h => by cases h) (fun _ h => by cases h)
      (fun _ h => by cases h) (fun _ h => by cases h) (by simp [ClosedArc]) (by simp [ClosedArc]) rfl _ ?_
     rw [← assoc2]; rfl)

/-- Two faces: the list of their intersections, or an empty one if they have no point in common. -/
theorem C77_faces (I : IsKernel) (hK : Faithful I.shapes) (hB : BoundsContain I.shapes) (f1 f2 : Shape)
    (h1 : f1.kind = .face) (h2 : f2.kind = .face) (b1 : InSomeBox f1.points) (b2 : InSomeBox f2.points)
    (eps : ℝ) (he : 0 < eps) :
    intersect I (.shape f1) (.shape f2) eps =
      .val (.geoms (.list (intersectFaceFace (I.faceOps f1 f2 eps) I.ends eps))) ∨
    ((∀ p, p ∈ f1.points → p ∉ f2.points) ∧
      intersect I (.shape f1) (.shape f2) eps = .val (.geoms (.list [.empty]))) := by
  simp only [intersect]
  rw [if_pos ⟨h1, h2⟩]
  rcases precheck_cases hK hB (a := .shape f1) (b := .shape f2) trivial trivial b1 b2 rfl rfl he emptyList
    (listResult (.val (intersectFaceFace (I.faceOps f1 f2 eps) I.ends eps))) with h | ⟨h, hp⟩
  · exact .inl h
  · exact .inr ⟨hp, h⟩

/-- A geometry and a face are intersected as the shape of the geometry and the face. -/
theorem C77_geometry_face (I : IsKernel) (hK : Faithful I.shapes) (g : AnyGeometry) (f s : Shape)
    (hf : f.kind = .face) (hv : ValidGeom g) (ht : Spec.HasAlgorithm (typeOf (.geom g)) .face)
    (hs : getShape I.shapes (.geom g) = .val s) (eps : ℝ) :
    intersect I (.geom g) (.shape f) eps = intersect I (.shape s) (.shape f) eps ∧
    s.points = pointsOf g := by
  obtain ⟨hp, hk⟩ := C72_shape_partial I.shapes hK g hv s hs
  refine ⟨?_, hp⟩
  cases g with
  | quadrilateral q =>
    have hsk : s.kind = .face := by simpa [KindFits, AnyGeometry.dimension] using hk
    simp only [intersect, hf, hsk, and_self, if_true, intersectPlanarFace, hs, Outcome.val_bind]
  | polygon q =>
    have hsk : s.kind = .face := by simpa [KindFits, AnyGeometry.dimension] using hk
    simp only [intersect, hf, hsk, and_self, if_true, intersectPlanarFace, hs, Outcome.val_bind]
  | disk q =>
    have hsk : s.kind = .face := by simpa [KindFits, AnyGeometry.dimension] using hk
    simp only [intersect, hf, hsk, and_self, if_true, intersectPlanarFace, hs, Outcome.val_bind]
  | cylinderSurface q =>
    have hsk : s.kind = .face := by simpa [KindFits, AnyGeometry.dimension] using hk
    simp only [intersect, hf, hsk, and_self, if_true, intersectSurfaceFace, intersectFaces, preChecked,
      getBoundingBox, hs, Outcome.val_bind]
    rfl
  | _ => exact absurd ht (by simp only [typeOf]; decide)

/-! ### Default tolerance -/

/-- The geometry is not degenerate. -/
def PositiveSize : AnyGeometry → Prop
  | .segment s => s.source ≠ s.target
  | .circle c => 0 < c.majLen
  | .ellipse e => 0 < e.majLen ∧ 0 < e.minLen
  | .disk d => 0 < d.majLen ∧ 0 < d.minLen
  | .quadrilateral q => 0 < q.area
  | .polygon pg => ∃ a, pg.area = .val a ∧ 0 < a
  | .cylinderSurface c => 0 < c.radius ∧ 0 < c.height
  | .box b => b.xMin < b.xMax
  | .sphere s => 0 < s.radius
  | _ => True

theorem defaultEpsilon_pos (K : ShapeKernel) (g : AnyGeometry) (hv : ValidGeom g) (hp : PositiveSize g) :
    ∃ e, defaultEpsilon K (.geom g) = .val e ∧ 0 < e := by
  have hc := confusion_pos
  cases g with
  | segment s =>
    have hl : 0 < s.length := V3.len_pos.2 (fun h => hp (sub_eq_zero.1 h).symm)
    exact ⟨_, rfl, mul_pos hc hl⟩
  | circle c =>
    have h : 0 < c.majLen := hp
    exact ⟨_, rfl, mul_pos hc h⟩
  | ellipse e =>
    obtain ⟨h1, h2⟩ : 0 < e.majLen ∧ 0 < e.minLen := hp
    exact ⟨_, rfl, mul_pos (mul_pos hc (by norm_num)) (add_pos h1 h2)⟩
  | disk d =>
    obtain ⟨h1, h2⟩ : 0 < d.majLen ∧ 0 < d.minLen := hp
    have hd : ValidElliptical d := hv
    refine ⟨_, by simp only [defaultEpsilon, boundingEllipse_val hd, Outcome.val_bind]; rfl, ?_⟩
    exact mul_pos (mul_pos hc (by norm_num)) (add_pos h1 h2)
  | quadrilateral q =>
    have h : 0 < q.area := hp
    exact ⟨_, rfl, mul_pos (mul_pos (by norm_num) (Real.sqrt_pos.2 h)) hc⟩
  | polygon pg =>
    obtain ⟨a, ha, h⟩ : ∃ a, pg.area = .val a ∧ 0 < a := hp
    refine ⟨0.5 * Real.sqrt a * confusion, by simp only [defaultEpsilon, ha, Outcome.val_bind]; rfl, ?_⟩
    exact mul_pos (mul_pos (by norm_num) (Real.sqrt_pos.2 h)) hc
  | cylinderSurface c =>
    obtain ⟨h1, h2⟩ : 0 < c.radius ∧ 0 < c.height := hp
    exact ⟨_, rfl, mul_pos (mul_pos hc (by norm_num)) (add_pos h1 h2)⟩
  | box b =>
    have h : b.xMin < b.xMax := hp
    refine ⟨_, rfl, ?_⟩
    have e : b.defaultEps = confusion * (Box.hi b - Box.lo b).len := rfl
    rw [e]
    refine mul_pos hc (V3.len_pos.2 fun q => ?_)
    have := congrArg V3.x q
    simp only [Box.hi, Box.lo, V3.sub_x, V3.zero_x] at this
    linarith
  | sphere s =>
    have h : 0 < s.radius := hp
    exact ⟨_, rfl, mul_pos hc h⟩
  | _ => exact ⟨_, rfl, hc⟩

/-- Without given tolerance, the smaller one of the default tolerances of both geometries is used, which
is positive. -/
theorem C77_default (I : IsKernel) (g1 g2 : AnyGeometry) (h1 : ValidGeom g1) (h2 : ValidGeom g2)
    (p1 : PositiveSize g1) (p2 : PositiveSize g2) :
    ∃ e1 e2, defaultEpsilon I.shapes (.geom g1) = .val e1 ∧ defaultEpsilon I.shapes (.geom g2) = .val e2 ∧
      0 < e1 ∧ 0 < e2 ∧
      ∃ e, 0 < e ∧ e ≤ e1 ∧ e ≤ e2 ∧ (e = e1 ∨ e = e2) ∧
        intersectDefault I (.geom g1) (.geom g2) = intersect I (.geom g1) (.geom g2) e := by
  obtain ⟨e1, he1, q1⟩ := defaultEpsilon_pos I.shapes g1 h1 p1
  obtain ⟨e2, he2, q2⟩ := defaultEpsilon_pos I.shapes g2 h2 p2
  refine ⟨e1, e2, he1, he2, q1, q2, min e1 e2, lt_min q1 q2, min_le_left _ _, min_le_right _ _, ?_, ?_⟩
  · rcases min_choice e1 e2 with h | h
    · exact .inl h
    · exact .inr h
  · simp only [intersectDefault, isArgEpsilon, he1, he2, Outcome.val_bind]

/-! ### Python -/

/-- In Python the same pairs are available, except for those with lines and planes, and the result is the
one of the C++ function. -/
theorem C77_python (I : IsKernel) (a b : IsArg) (eps : Option ℝ) :
    (Spec.HasAlgorithm (typeOf a) (typeOf b) ∧ typeOf a ≠ .line ∧ typeOf b ≠ .line ∧ typeOf a ≠ .plane →
      pyIntersect I a b eps =
        match eps with
        | some e => intersect I a b e
        | none => intersectDefault I a b) ∧
    (¬ (Spec.HasAlgorithm (typeOf a) (typeOf b) ∧ typeOf a ≠ .line ∧ typeOf b ≠ .line ∧ typeOf a ≠ .plane) →
      (pyIntersect I a b eps).isThrown) := by
  have key : pyIntersectRegistered a b = true ↔
      (Spec.HasAlgorithm (typeOf a) (typeOf b) ∧ typeOf a ≠ .line ∧ typeOf b ≠ .line ∧ typeOf a ≠ .plane) := by
    rcases a with (_|_|_|_|_|_|_|_|_|_|_|_|_|_)|_|_|s <;>
    rcases b with (_|_|_|_|_|_|_|_|_|_|_|_|_|_)|_|_|t <;>
    simp only [pyIntersectRegistered, typeOf, decide_eq_true_eq] <;>
    first
    | decide
    | (split_ifs <;> first | (simp_all; done) | (simp_all; decide))
  constructor
  · intro h
    simp only [pyIntersect]
    rw [if_pos (key.2 h)]
    cases eps <;> rfl
  · intro h
    simp only [pyIntersect]
    rw [if_neg (fun hr => h (key.1 hr))]
    exact trivial

/-! ### C50 for the function `intersect` -/

theorem interface_result {I : IsKernel} (hK : Faithful I.shapes) (hN : NeverFails I.shapes)
    (hB : BoundsContain I.shapes) {g1 g2 : AnyGeometry} (h1 : ValidGeom g1) (h2 : ValidGeom g2)
    (t1 : ∀ t, g1 ≠ .triangle t) (c1 : ∀ c, g1 ≠ .hollowCylinder c)
    (t2 : ∀ t, g2 ≠ .triangle t) (c2 : ∀ c, g2 ≠ .hollowCylinder c)
    (x1 : ¬ ClosedArc g1) (x2 : ¬ ClosedArc g2) {eps : ℝ} (he : 0 < eps)
    {algo : Outcome IsGeom} {r : Intersected} {R1 R2 : V3 → Prop} {l : Line}
    (e1 : ∀ p, R1 p → p ∈ pointsOf g1) (e2 : ∀ p, R2 p → p ∈ pointsOf g2)
    (hr : preChecked I (.geom g1) (.geom g2) eps emptySingle (singleResult algo) = .val r)
    (hres : ∀ g, algo = .val g → PairResult R1 R2 l eps g) :
    ∃ g, r = .geoms (.single g) ∧ PairResult R1 R2 l eps g := by
  obtain ⟨s, hs⟩ := (C72_supported I.shapes g1).1 hN h1 t1 c1 x1
  obtain ⟨t, ht⟩ := (C72_supported I.shapes g2).1 hN h2 t2 c2 x2
  rcases precheck_cases hK hB (a := .geom g1) (b := .geom g2) h1 h2 (geom_inSomeBox h1)
    (geom_inSomeBox h2) hs ht he emptySingle
    (singleResult algo) with h | ⟨h, hp⟩
  · rw [h] at hr
    obtain ⟨g, hg, hr⟩ := Outcome.bind_eq_val.1 hr
    cases hr
    exact ⟨g, rfl, hres g hg⟩
  · rw [h] at hr
    cases hr
    exact ⟨.empty, rfl, .inl rfl, fun _ p p1 p2 => absurd (e2 p p2) (hp p (e1 p p1)),
      fun ⟨p, p1, p2⟩ => absurd (e2 p p2) (hp p (e1 p p1)), fun ⟨p, p1, p2⟩ => absurd (e2 p p2) (hp p (e1 p p1))⟩

/-- Two disks: the result of `intersect`. -/
theorem C50_interface_disks_partial (I : IsKernel) (hK : Faithful I.shapes) (hN : NeverFails I.shapes)
    (hB : BoundsContain I.shapes) (d1 d2 : Elliptical) (eps : ℝ) (l : Line) (r : Intersected)
    (h1 : ValidElliptical d1) (h2 : ValidElliptical d2)
    (hmin1 : d1.minLen ≤ d1.majLen) (hmin2 : d2.minLen ≤ d2.majLen)
    (he : 0 < eps) (hle : eps ≤ 19 * diskDiskCharLength d1 d2)
    (hl : ExactLine I.algo d1.supportingPlane d2.supportingPlane eps l)
    (hc1 : ExactCut (diskFace d1 (I.ops (.disk d1))) (Elliptical.region d1)
      (probingSegment d1.center l (diskDiskCharLength d1 d2)) (0.1 * eps))
    (hc2 : ExactCut (diskFace d2 (I.ops (.disk d2))) (Elliptical.region d2)
      (probingSegment d2.center l (diskDiskCharLength d1 d2)) (0.1 * eps))
    (hr : intersect I (.geom (.disk d1)) (.geom (.disk d2)) eps = .val r) :
    ∃ g, r = .geoms (.single g) ∧ PairResult (Elliptical.region d1) (Elliptical.region d2) l eps g :=
  interface_result hK hN hB (g1 := .disk d1) (g2 := .disk d2) h1 h2 (fun _ h => by cases h)
    (fun _ h => by cases h) (fun _ h => by cases h) (fun _ h => by cases h)
    (by simp [ClosedArc]) (by simp [ClosedArc]) he (fun _ h => h) (fun _ h => h) hr
    fun g hg => C50_disk_disk_partial I.algo d1 d2 _ _ eps l g h1 h2 hmin1 hmin2 he hle hl hc1 hc2 hg

theorem hull_swap {a b c d p : V3} (h : Spec.InHull [a, b, c, d] p) : Spec.InHull [a, b, d, c] p := by
  obtain ⟨w, hl, hn, hs, hx, hy, hz⟩ := h
  match w, hl with
  | [w0, w1, w2, w3], _ =>
    refine ⟨[w0, w1, w3, w2], rfl, ?_, ?_, ?_, ?_, ?_⟩
    · intro x hx
      apply hn
      simp only [List.mem_cons, List.not_mem_nil, or_false] at hx ⊢
      tauto
    all_goals simp at *; linarith

/-- A quadrilateral and a disk: the result of `intersect`. -/
theorem C50_interface_quadrilateral_disk_partial (I : IsKernel) (hK : Faithful I.shapes)
    (hN : NeverFails I.shapes) (hB : BoundsContain I.shapes) (p0 p1 p2 p3 : V3) (d : Elliptical)
    (f : FaceGeom) (eps : ℝ) (l : Line) (r : Intersected)
    (hf : quadFace (Quadrilateral.make p0 p1 p2 p3) (I.ops (.quadrilateral (Quadrilateral.make p0 p1 p2 p3)))
      = .val f)
    (hq : ConvexFigure [p0, p1, p3, p2])
    (hpl : ∀ c ∈ [p0, p1, p2, p3], Spec.OnPlane f.plane.supp f.plane.normal c)
    (h : ValidElliptical d) (hmin : d.minLen ≤ d.majLen)
    (he : 0 < eps) (hle : eps ≤ 18 * quadDiskCharLength (Quadrilateral.make p0 p1 p2 p3) d)
    (hl : ExactLine I.algo f.plane d.supportingPlane eps l)
    (hc1 : ExactCut f (Spec.InHull [p0, p1, p2, p3])
      (probingSegment f.center l (quadDiskCharLength (Quadrilateral.make p0 p1 p2 p3) d)) (0.1 * eps))
    (hc2 : ExactCut (diskFace d (I.ops (.disk d))) (Elliptical.region d)
      (probingSegment d.center l (quadDiskCharLength (Quadrilateral.make p0 p1 p2 p3) d)) (0.1 * eps))
    (hr : intersect I (.geom (.quadrilateral (Quadrilateral.make p0 p1 p2 p3))) (.geom (.disk d)) eps = .val r) :
    ∃ g, r = .geoms (.single g) ∧
      PairResult (Spec.InHull [p0, p1, p2, p3]) (Elliptical.region d) l eps g :=
  interface_result hK hN hB (g1 := .quadrilateral (Quadrilateral.make p0 p1 p2 p3)) (g2 := .disk d) hq h
    (fun _ h => by cases h) (fun _ h => by cases h) (fun _ h => by cases h) (fun _ h => by cases h)
    (by simp [ClosedArc]) (by simp [ClosedArc]) he
    (fun _ h => hull_swap h) (fun _ h => h) hr
    fun g hg => C50_quadrilateral_disk_partial I.algo p0 p1 p2 p3 d _ _ f eps l g hf hpl h hmin he hle hl
      hc1 hc2 hg

/-- Two quadrilaterals: the result of `intersect`. -/
theorem C50_interface_quadrilaterals_partial (I : IsKernel) (hK : Faithful I.shapes)
    (hN : NeverFails I.shapes) (hB : BoundsContain I.shapes) (a0 a1 a2 a3 b0 b1 b2 b3 : V3)
    (f1 f2 : FaceGeom) (eps : ℝ) (l : Line) (r : Intersected)
    (hf1 : quadFace (Quadrilateral.make a0 a1 a2 a3) (I.ops (.quadrilateral (Quadrilateral.make a0 a1 a2 a3)))
      = .val f1)
    (hf2 : quadFace (Quadrilateral.make b0 b1 b2 b3) (I.ops (.quadrilateral (Quadrilateral.make b0 b1 b2 b3)))
      = .val f2)
    (hq1 : ConvexFigure [a0, a1, a3, a2]) (hq2 : ConvexFigure [b0, b1, b3, b2])
    (hpl1 : ∀ c ∈ [a0, a1, a2, a3], Spec.OnPlane f1.plane.supp f1.plane.normal c)
    (hpl2 : ∀ c ∈ [b0, b1, b2, b3], Spec.OnPlane f2.plane.supp f2.plane.normal c)
    (he : 0 < eps) (hle : eps ≤ 18 *
      quadQuadCharLength (Quadrilateral.make a0 a1 a2 a3) (Quadrilateral.make b0 b1 b2 b3))
    (hl : ExactLine I.algo f1.plane f2.plane eps l)
    (hc1 : ExactCut f1 (Spec.InHull [a0, a1, a2, a3]) (probingSegment f1.center l
      (quadQuadCharLength (Quadrilateral.make a0 a1 a2 a3) (Quadrilateral.make b0 b1 b2 b3))) (0.1 * eps))
    (hc2 : ExactCut f2 (Spec.InHull [b0, b1, b2, b3]) (probingSegment f2.center l
      (quadQuadCharLength (Quadrilateral.make a0 a1 a2 a3) (Quadrilateral.make b0 b1 b2 b3))) (0.1 * eps))
    (hr : intersect I (.geom (.quadrilateral (Quadrilateral.make a0 a1 a2 a3)))
      (.geom (.quadrilateral (Quadrilateral.make b0 b1 b2 b3))) eps = .val r) :
    ∃ g, r = .geoms (.single g) ∧
      PairResult (Spec.InHull [a0, a1, a2, a3]) (Spec.InHull [b0, b1, b2, b3]) l eps g :=
  interface_result hK hN hB (g1 := .quadrilateral (Quadrilateral.make a0 a1 a2 a3))
    (g2 := .quadrilateral (Quadrilateral.make b0 b1 b2 b3)) hq1 hq2
    (fun _ h => by cases h) (fun _ h => by cases h) (fun _ h => by cases h) (fun _ h => by cases h)
    (by simp [ClosedArc]) (by simp [ClosedArc]) he
    (fun _ h => hull_swap h) (fun _ h => hull_swap h) hr
    fun g hg => C50_quadrilateral_quadrilateral_partial I.algo a0 a1 a2 a3 b0 b1 b2 b3 _ _ f1 f2 eps l g
      hf1 hf2 hpl1 hpl2 he hle hl hc1 hc2 hg

/-- Two polygons: the result of `intersect`. -/
theorem C50_interface_polygons_partial (I : IsKernel) (hK : Faithful I.shapes)
    (hN : NeverFails I.shapes) (hB : BoundsContain I.shapes) (pg1 pg2 : Polygon) (cs1 cs2 : List V3)
    (f1 f2 : FaceGeom) (eps : ℝ) (l : Line) (r : Intersected)
    (hm1 : Polygon.make cs1 = .val pg1) (hm2 : Polygon.make cs2 = .val pg2)
    (hf1 : polygonFace pg1 (I.ops (.polygon pg1)) = .val f1)
    (hf2 : polygonFace pg2 (I.ops (.polygon pg2)) = .val f2)
    (hq1 : 3 ≤ cs1.length ∧ ConvexFigure cs1) (hq2 : 3 ≤ cs2.length ∧ ConvexFigure cs2)
    (hpl1 : ∀ c ∈ cs1, Spec.OnPlane f1.plane.supp f1.plane.normal c)
    (hpl2 : ∀ c ∈ cs2, Spec.OnPlane f2.plane.supp f2.plane.normal c)
    (he : 0 < eps) (hle : eps ≤ 19 * polygonPolygonCharLength cs1 f1.center cs2 f2.center)
    (hl : ExactLine I.algo f1.plane f2.plane eps l)
    (hc1 : ExactCut f1 (Spec.InHull cs1) (probingSegment f1.center l
      (polygonPolygonCharLength cs1 f1.center cs2 f2.center)) (0.1 * eps))
    (hc2 : ExactCut f2 (Spec.InHull cs2) (probingSegment f2.center l
      (polygonPolygonCharLength cs1 f1.center cs2 f2.center)) (0.1 * eps))
    (hr : intersect I (.geom (.polygon pg1)) (.geom (.polygon pg2)) eps = .val r) :
    ∃ g, r = .geoms (.single g) ∧ PairResult (Spec.InHull cs1) (Spec.InHull cs2) l eps g := by
  have k1 := polygon_corners hm1
  have k2 := polygon_corners hm2
  refine interface_result hK hN hB (g1 := .polygon pg1) (g2 := .polygon pg2) ?_ ?_
    (fun _ h => by cases h) (fun _ h => by cases h) (fun _ h => by cases h) (fun _ h => by cases h)
    (by simp [ClosedArc]) (by simp [ClosedArc]) he
    ?_ ?_ hr fun g hg => C50_polygon_polygon_partial I.algo pg1 pg2 cs1 cs2 _ _ f1 f2 eps l g hm1 hm2 hf1 hf2
      hpl1 hpl2 he hle hl hc1 hc2 hg
  · show 3 ≤ pg1.corners.length ∧ ConvexFigure pg1.corners
    rw [k1]; exact hq1
  · show 3 ≤ pg2.corners.length ∧ ConvexFigure pg2.corners
    rw [k2]; exact hq2
  · intro p hp
    show Spec.InHull pg1.corners p
    rw [k1]; exact hp
  · intro p hp
    show Spec.InHull pg2.corners p
    rw [k2]; exact hp

/-! ### Examples -/

/-- Algorithms for disks that meet in the x-axis. -/
noncomputable def crossIsKernel : IsKernel where
  algo := xAxisKernel
  shapes := boundedKernel
  ops _ := crossOps
  cylOps _ _ _ := ⟨false, [], [], []⟩
  faceOps _ _ _ := ⟨[], [], fun _ _ => false, fun _ => [], fun _ => [], [], [], fun _ => false, fun _ => false⟩
  ends _ := (0, 0)

/-- Two disks around the origin satisfy the hypotheses of `C50_interface_disks_partial` and
`C77_bounding_boxes`: as they have common points, the result is the one of the algorithm. -/
theorem cross_intersect : ∃ g, intersect crossIsKernel (.geom (.disk (flatDisk 0))) (.geom (.disk (uprightDisk 0))) 1
    = .val (.geoms (.single g)) ∧
    PairResult (Elliptical.region (flatDisk 0)) (Elliptical.region (uprightDisk 0)) xLine 1 g := by
  obtain ⟨g, hg, hp⟩ := cross_result
  refine ⟨g, ?_, hp⟩
  rcases C77_bounding_boxes crossIsKernel boundedKernel_faithful boundedKernel_neverFails
    boundedKernel_contains (.disk (flatDisk 0)) (.disk (uprightDisk 0)) (flatDisk_valid 0) (uprightDisk_valid 0)
    1 one_pos _ rfl with h | ⟨h, _⟩
  · rw [h]
    show (do let r ← (do
      let g ← intersectDiskDisk xAxisKernel (flatDisk 0) (uprightDisk 0) crossOps crossOps 1
      pure (IsResult.single g)); pure (Intersected.geoms r)) = _
    rw [hg]
    rfl
  · exact absurd ((upright_region_axis 0 ⟨1, 0, 0⟩).2 (by norm_num)).2
      (h ⟨1, 0, 0⟩ ((flat_region_axis 0 ⟨1, 0, 0⟩).2 (by norm_num)).2)

/-- A segment and a disk do not have an order (`C77_order`), and the default tolerances are positive
(`C77_default`). -/
example : PositiveSize (.segment ⟨0, ⟨1, 0, 0⟩⟩) ∧ PositiveSize (.disk (flatDisk 0)) ∧
    ValidGeom (.segment ⟨0, ⟨1, 0, 0⟩⟩) ∧ ValidGeom (.disk (flatDisk 0)) ∧
    typeOf (.geom (.segment ⟨0, ⟨1, 0, 0⟩⟩)) ≠ typeOf (.geom (.disk (flatDisk 0))) :=
  ⟨fun h => by have := congrArg V3.x h; norm_num at this, by simp [PositiveSize, flatDisk], trivial,
    flatDisk_valid 0, by simp only [typeOf]; decide⟩

end Props
