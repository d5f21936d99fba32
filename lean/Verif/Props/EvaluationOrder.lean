import Verif.Props.AcceptedPlanar

/-!
# C125 The order of the entities does not matter for the constraints
-/

namespace Props
open Verif Frackit
open Spec.Constraints (config Config parts NoIntersection AtLeast PointOk AcceptBy NotLess BoundaryOkBy)
open Frackit.Constraints (Op run evaluate evaluateSet evaluateSets evaluateEntitySet)

/-- The functions used by `evaluate` return the same for both orders of the entities. -/
structure OrderFree {E : Type} (eng : Engine E) (a b : E) : Prop where
  intersect : ∀ e r, eng.intersect a b e = .val r → eng.intersect b a e = .val r
  angle : ∀ r, (∀ x, eng.angle a b r = .val x → eng.angle b a r = .val x) ∧
    (eng.angle a b r = .nan → eng.angle b a r = .nan)
  distance : ∀ x, eng.distance a b = .val x → eng.distance b a = .val x

theorem accepts_swap {E : Type} {eng : Engine E} {a b : E} (h : OrderFree eng a b) (ops : List Op)
    (ha : evaluate eng (run ops) a b = .val true) : evaluate eng (run ops) b a = .val true := by
  by_cases hact : (config ops.reverse).Inactive
  · exact C35_inactive eng ops b a hact
  rw [C35_accepts_exact eng ops _ _ hact] at ha ⊢
  obtain ⟨r, hr, hc⟩ := ha
  refine ⟨r, h.intersect _ _ hr, ?_⟩
  rcases hc with ⟨hn, hd⟩ | ⟨hn, h1, h2, h3, h4⟩
  · refine .inl ⟨hn, fun d hd' => ?_⟩
    obtain ⟨x, hx, hl⟩ := hd d hd'
    exact ⟨x, h.distance x hx, hl⟩
  · refine .inr ⟨hn, h1, h2, fun t ht => ?_, fun t ht g hg => (h4 t ht g hg).symm⟩
    rcases h3 t ht with hx | ⟨x, hx, hl⟩
    · exact .inl ((h.angle r).2 hx)
    · exact .inr ⟨x, (h.angle r).1 x hx, hl⟩

/-- Surfaces that can be entities of a network: disks, quadrilaterals and polygons with any corners, cylinder surfaces
and faces. -/
def SurfaceEntity : DistArg → Prop
  | .geom (.disk _) => True
  | .geom (.quadrilateral q) => ∃ p0 p1 p2 p3, q = Quadrilateral.make p0 p1 p2 p3
  | .geom (.polygon pg) => ∃ cs, Polygon.make cs = .val pg
  | .geom (.cylinderSurface _) => True
  | .shape s => s.kind = .face
  | _ => False

theorem mkDirection_cases (v : V3) : mkDirection v = .nan ∨ ∃ d, mkDirection v = .val d := by
  unfold mkDirection
  split_ifs
  · exact .inl rfl
  · exact .inr ⟨_, rfl⟩

theorem ofPoints_cases (p q r : V3) : Plane.ofPoints p q r = .nan ∨ ∃ d, Plane.ofPoints p q r = .val d := by
  unfold Plane.ofPoints
  rcases mkDirection_cases (q - p) with h | ⟨b1, h⟩
  · rw [h]; exact .inl rfl
  rw [h, Outcome.val_bind]
  rcases mkDirection_cases (b1.cross (r - p)) with h | ⟨n, h⟩
  · rw [h]; exact .inl rfl
  rw [h, Outcome.val_bind]
  rcases mkDirection_cases (n.cross b1) with h | ⟨b2, h⟩
  · rw [h]; exact .inl rfl
  rw [h, Outcome.val_bind]
  exact .inr ⟨_, rfl⟩

/-- The outcome is a value or not a number. -/
def NumberOrNaN {α : Type} (o : Outcome α) : Prop := o = .nan ∨ ∃ x, o = .val x

theorem comm_bind {α β γ : Type} {x : Outcome α} {y : Outcome β} (hx : NumberOrNaN x) (hy : NumberOrNaN y)
    (f : α → β → Outcome γ) : (x >>= fun a => y >>= fun b => f a b) = y >>= fun b => x >>= fun a => f a b := by
  rcases hx with rfl | ⟨a, rfl⟩ <;> rcases hy with rfl | ⟨b, rfl⟩ <;> rfl

theorem ofNormal_cases (p n : V3) : NumberOrNaN (Plane.ofNormal p n) := by
  unfold Plane.ofNormal
  rcases mkDirection_cases (makeOrthogonalVector n) with h | ⟨b1, h⟩
  · rw [h]; exact .inl rfl
  rw [h, Outcome.val_bind]
  rcases mkDirection_cases (n.cross b1) with h | ⟨b2, h⟩
  · rw [h]; exact .inl rfl
  rw [h, Outcome.val_bind]
  exact .inr ⟨_, rfl⟩

theorem surfacePlaneAt_cases (s : SurfaceGeom) (p : V3) (u v : ℝ) : NumberOrNaN (surfacePlaneAt s p u v) := by
  unfold surfacePlaneAt
  simp only
  rcases mkDirection_cases ((s.d1 u v).1.cross (s.d1 u v).2) with h | ⟨b1, h⟩
  · rw [h]; exact .inl rfl
  rw [h, Outcome.val_bind]
  exact ofNormal_cases _ _

theorem planeAngle_comm (p q : Plane) : planeAngle p q = planeAngle q p := by
  unfold planeAngle; rw [V3.dot_comm]

theorem faceFaceAngleAt_comm (s t : SurfaceGeom) (p : V3) : faceFaceAngleAt s t p = faceFaceAngleAt t s p := by
  unfold faceFaceAngleAt
  rw [comm_bind (surfacePlaneAt_cases _ _ _ _) (surfacePlaneAt_cases _ _ _ _)]
  simp only [planeAngle_comm]

theorem angleGeom_comm (curves : ℕ → CurveGeom) (a b : AngleGeo) (g : IsGeom) :
    angleGeom curves a b g = angleGeom curves b a g := by
  cases a with
  | planar p =>
    cases b with
    | planar q => cases g <;> simp only [angleGeom, planeAngle_comm p q]
    | cylSurface c => rfl
    | face s => rfl
  | cylSurface c =>
    cases b with
    | planar q => rfl
    | cylSurface c => cases g <;> rfl
    | face s => cases g <;> rfl
  | face s =>
    cases b with
    | planar q => rfl
    | cylSurface c => cases g <;> rfl
    | face t => cases g <;> simp only [angleGeom, faceFaceAngleAt_comm s t, funext (faceFaceAngleAt_comm s t)]

/-- Intersection angles do not depend on the order of the geometries. -/
theorem intersectionAngle_comm (curves : ℕ → CurveGeom) (a b : AngleGeo) (r : IsResult) :
    intersectionAngle curves a b r = intersectionAngle curves b a r := by
  cases r with
  | single g => exact angleGeom_comm curves a b g
  | list gs => simp only [intersectionAngle, funext (angleGeom_comm curves a b)]

theorem angleArgument_cases (L : LibraryKernel) {a : DistArg} (h : SurfaceEntity a) : NumberOrNaN (angleArgument L a) := by
  rcases a with (_|_|_|_|_|_|q|pg|_|_|_|_|_|_)|_|_ <;> try exact h.elim
  · obtain ⟨p0, p1, p2, p3, rfl⟩ := h
    rcases ofPoints_cases p0 p1 p2 with h | ⟨pl, h⟩
    · left
      simp only [angleArgument, Quadrilateral.make, h]; rfl
    · right
      exact ⟨.planar pl, by simp only [angleArgument, Quadrilateral.make, h, Outcome.val_bind]; rfl⟩
  · obtain ⟨cs, h⟩ := h
    have hpl : pg.plane = Plane.ofPoints (cs.getD 0 0) (cs.getD 1 0) (cs.getD 2 0) := by
      unfold Polygon.make at h
      split_ifs at h
      obtain ⟨_, _, h⟩ := Outcome.bind_eq_val.1 h
      simp only [Outcome.pure_eq, Outcome.val.injEq] at h
      rw [← h]
    rcases ofPoints_cases (cs.getD 0 0) (cs.getD 1 0) (cs.getD 2 0) with h | ⟨pl, h⟩
    · left
      simp only [angleArgument, hpl, h]; rfl
    · right
      exact ⟨.planar pl, by simp only [angleArgument, hpl, h, Outcome.val_bind]; rfl⟩
  all_goals exact .inr ⟨_, rfl⟩

/-- C53: only disks, quadrilaterals, polygons, lateral surfaces of cylinders and shapes can be passed to the angle
computation.  With a line, a segment, a point, a circle, an ellipse, an arc, a triangle or a three-dimensional geometry it
throws an exception (if the other geometry has no plane, its angles are not a number in the first place). -/
theorem C53_entities (L : LibraryKernel) (a b : DistArg) (r : IsResult)
    (ha : (∃ l, a = .line l) ∨ (∃ t, a = .geom (.triangle t)) ∨ ∃ g : AnyGeometry, g.dimension ≠ 2 ∧ a = .geom g) :
    ((libraryEngine L).angle a b r).isThrown ∧
      (SurfaceEntity b → ((libraryEngine L).angle b a r).isThrown ∨ (libraryEngine L).angle b a r = .nan) := by
  have ht : angleArgument L a = .thrown "Intersection angle not implemented" := by
    rcases ha with ⟨l, rfl⟩ | ⟨t, rfl⟩ | ⟨g, hg, rfl⟩
    · rfl
    · rfl
    · cases g <;> first | rfl | exact absurd rfl hg
  have h1 : ∀ c, (libraryEngine L).angle a c r = .thrown "Intersection angle not implemented" := by
    intro c
    simp only [libraryEngine, ht]
    rfl
  refine ⟨by rw [h1]; trivial, fun hb => ?_⟩
  rcases angleArgument_cases L hb with h | ⟨x, h⟩
  · right
    simp only [libraryEngine, h]
    rfl
  · left
    simp only [libraryEngine, h, ht]
    exact trivial

example (L : LibraryKernel) (l : Line) (r : IsResult) (c : Elliptical) :
    ((libraryEngine L).angle (.line l) (.geom (.disk c)) r).isThrown :=
  (C53_entities L _ _ r (.inl ⟨l, rfl⟩)).1

/-- The distance computed by `BRepExtrema_DistShapeShape` does not depend on the order of the shapes. -/
def SymmetricExtrema (K : ShapeKernel) : Prop := ∀ s t, K.extrema s t = K.extrema t s

theorem distance_swap {K : ShapeKernel} (h : SymmetricExtrema K) {a b : DistArg} (ha : SurfaceEntity a) (hb : SurfaceEntity b)
    {x : ℝ} (hx : computeDistance K a b = .val x) : computeDistance K b a = .val x := by
  have hn : ∀ {a b : DistArg}, SurfaceEntity a → closedDistance a b = none := by
    intro a b ha
    rcases a with (_|_|_|_|_|_|_|_|_|_|_|_|_|_)|_|_ <;> first | exact ha.elim | skip
    all_goals rcases b with (_|_|_|_|_|_|_|_|_|_|_|_|_|_)|_|_ <;> rfl
  simp only [computeDistance, hn ha, hn hb] at hx ⊢
  obtain ⟨s, hs, hx⟩ := Outcome.bind_eq_val.1 hx
  obtain ⟨t, ht, hx⟩ := Outcome.bind_eq_val.1 hx
  rw [hs, ht, Outcome.val_bind, Outcome.val_bind]
  unfold distShapes at hx ⊢
  rw [h t s]; exact hx

theorem library_orderFree {L : LibraryKernel} (hK : SymmetricExtrema L.isk.shapes) {a b : DistArg}
    (ha : SurfaceEntity a) (hb : SurfaceEntity b) (hab : typeOf a.toIs ≠ typeOf b.toIs) :
    OrderFree (libraryEngine L) a b where
  intersect e r hr := by
    cases e with
    | some e =>
      show (do let r ← intersect L.isk b.toIs a.toIs e; r.toResult) = _
      rw [← C77_order L.isk _ _ _ hab]
      exact hr
    | none =>
      have hr' : (do let r ← intersectDefault L.isk a.toIs b.toIs; r.toResult) = .val r := hr
      obtain ⟨x, hx, _⟩ := Outcome.bind_eq_val.1 hr'
      obtain ⟨e1, h1, hx⟩ := Outcome.bind_eq_val.1 hx
      obtain ⟨e2, h2, hx⟩ := Outcome.bind_eq_val.1 hx
      show (do let r ← intersectDefault L.isk b.toIs a.toIs; r.toResult) = _
      rw [← C77_default_order L.isk _ _ hab e1 e2 h1 h2]
      exact hr'
  angle r := by
    have : (libraryEngine L).angle a b r = (libraryEngine L).angle b a r := by
      show (angleArgument L a >>= fun g1 => angleArgument L b >>= fun g2 => intersectionAngle L.curves g1 g2 r) =
        angleArgument L b >>= fun g1 => angleArgument L a >>= fun g2 => intersectionAngle L.curves g1 g2 r
      rw [comm_bind (angleArgument_cases L ha) (angleArgument_cases L hb)]
      simp only [intersectionAngle_comm]
    rw [this]
    exact ⟨fun x h => h, fun h => h⟩
  distance x hx := distance_swap hK ha hb hx

open Classical in
theorem boundedKernel_symmetric : SymmetricExtrema boundedKernel := by
  intro s t
  show (if h : ∃ d, Spec.SetDist s.points t.points d then some h.choose else none) =
    if h : ∃ d, Spec.SetDist t.points s.points d then some h.choose else none
  by_cases h : ∃ d, Spec.SetDist s.points t.points d
  · have h' : ∃ d, Spec.SetDist t.points s.points d := ⟨h.choose, h.choose_spec.symm⟩
    rw [dif_pos h, dif_pos h', h.choose_spec.unique h'.choose_spec.symm]
  · have h' : ¬ ∃ d, Spec.SetDist t.points s.points d := fun ⟨d, hd⟩ => h ⟨d, hd.symm⟩
    rw [dif_neg h, dif_neg h']

/-- Entities of different types are accepted in both orders or in none, and the values returned are the same.  Missing:
entities of the same type (`C125_disproof`). -/
theorem C125_types_partial (L : LibraryKernel) (hK : SymmetricExtrema L.isk.shapes) (ops : List Op) (a b : DistArg)
    (ha : SurfaceEntity a) (hb : SurfaceEntity b) (hab : typeOf a.toIs ≠ typeOf b.toIs) :
    (evaluate (libraryEngine L) (run ops) a b = .val true ↔ evaluate (libraryEngine L) (run ops) b a = .val true) ∧
    ∀ x y, evaluate (libraryEngine L) (run ops) a b = .val x → evaluate (libraryEngine L) (run ops) b a = .val y →
      x = y := by
  have h : evaluate (libraryEngine L) (run ops) a b = .val true ↔ evaluate (libraryEngine L) (run ops) b a = .val true :=
    ⟨accepts_swap (library_orderFree hK ha hb hab) ops, accepts_swap (library_orderFree hK hb ha hab.symm) ops⟩
  refine ⟨h, fun x y hx hy => ?_⟩
  rw [hx, hy] at h
  simp only [Outcome.val.injEq] at h
  rcases x with _ | _ <;> rcases y with _ | _ <;> simp_all

/-- A disk, a quadrilateral and a cylinder surface fulfil the hypotheses, with the exact distances between shapes. -/
example : SymmetricExtrema crossLibrary.isk.shapes ∧ SurfaceEntity (.geom (.disk (flatDisk 0))) ∧
    SurfaceEntity (.geom (.quadrilateral (Quadrilateral.make 0 ⟨1, 0, 0⟩ ⟨0, 0, 1⟩ ⟨1, 0, 1⟩))) ∧
    typeOf (DistArg.geom (.disk (flatDisk 0))).toIs ≠
      typeOf (DistArg.geom (.quadrilateral (Quadrilateral.make 0 ⟨1, 0, 0⟩ ⟨0, 0, 1⟩ ⟨1, 0, 1⟩))).toIs :=
  ⟨boundedKernel_symmetric, trivial, ⟨_, _, _, _, rfl⟩, by simp [DistArg.toIs, typeOf]⟩

/-- The same for two sets of entities. -/
theorem C125_sets_partial (L : LibraryKernel) (hK : SymmetricExtrema L.isk.shapes) (ops : List Op) (A B : List DistArg)
    (hA : ∀ a ∈ A, SurfaceEntity a) (hB : ∀ b ∈ B, SurfaceEntity b)
    (hab : ∀ a ∈ A, ∀ b ∈ B, typeOf a.toIs ≠ typeOf b.toIs) :
    evaluateSets (libraryEngine L) (run ops) A B = .val true ↔ evaluateSets (libraryEngine L) (run ops) B A = .val true := by
  rw [C37_sets, C37_sets]
  exact ⟨fun h b hb a ha => (C125_types_partial L hK ops _ _ (hA a ha) (hB b hb) (hab a ha b hb)).1.2 (h a ha b hb),
    fun h a ha b hb => (C125_types_partial L hK ops _ _ (hA a ha) (hB b hb) (hab a ha b hb)).1.1 (h b hb a ha)⟩

/-- Planar entities of any types with exact algorithms: an order of the entities in which they are accepted and one in
which they are rejected exist only if the entities fulfil the constraints up to the tolerances, and violate one of them up
to the tolerances. -/
theorem C125_borderline_partial (L : LibraryKernel) (hS : SoundShapes L.isk.shapes) (ops : List Op) (a b : DistArg)
    (eps : ℝ) (tA tB : BoundaryTol) (p q : Plane) (l l' : Line) (he : 0 < eps)
    (h : MeetExactly L.isk eps l a b p q tA tB) (h' : MeetExactly L.isk eps l' b a q p tB tA)
    (hact : ¬ (config ops.reverse).Inactive) (hu : UsedEps L (config ops.reverse) a b eps)
    (hu' : UsedEps L (config ops.reverse) b a eps)
    (htouch : OnlyTouch l (argPoints a) (argPoints b) → ∃ d, (config ops.reverse).minDistance = some d ∧ 0 < d)
    (hmax : ∀ t, (config ops.reverse).minBoundaryDistance = some t → t ≤ doubleMax)
    (hacc : evaluate (libraryEngine L) (run ops) a b = .val true)
    (hrej : evaluate (libraryEngine L) (run ops) b a = .val false) :
    Spec.Fulfilled (config ops.reverse) (argPoints a) (argPoints b) (boundaryOf a) (boundaryOf b) p.normal q.normal
      eps tA.near tB.near ∧
    Spec.Violated (config ops.reverse) (argPoints b) (argPoints a) (boundaryOf b) (boundaryOf a) q.normal p.normal
      eps (tB.off - eps) (tB.near + eps) (tA.off - eps) (tA.near + eps) :=
  ⟨C124_accepted_partial L hS ops a b eps tA tB p q l he h hact hu htouch hacc,
    C124_rejected L hS ops b a eps tB tA q p l' he h' hu' hmax hrej⟩

/-! ## Entities of the same type (`order_meet` below shows two disks that meet the hypotheses of
`C125_borderline_partial`) -/

/-- The property. -/
def C125_full : Prop :=
  ∀ (L : LibraryKernel), SoundShapes L.isk.shapes → SymmetricExtrema L.isk.shapes → ∀ (ops : List Op) (a b : DistArg)
    (eps : ℝ) (tA tB : BoundaryTol) (p q : Plane) (l l' : Line), 0 < eps → MeetExactly L.isk eps l a b p q tA tB →
    MeetExactly L.isk eps l' b a q p tB tA → UsedEps L (config ops.reverse) a b eps →
    UsedEps L (config ops.reverse) b a eps → evaluate (libraryEngine L) (run ops) a b = .val true →
    evaluate (libraryEngine L) (run ops) b a = .val true

/-- Disk around the origin in the plane `y = 0`, with the radius 1.05 along the x axis. -/
noncomputable def wideDisk : Elliptical := ⟨0, ⟨1, 0, 0⟩, ⟨0, 0, 1⟩, ⟨0, -1, 0⟩, 21 / 20, 1⟩

theorem wideDisk_valid : ValidElliptical wideDisk :=
  ⟨by norm_num [wideDisk, Spec.RightHandedOrthonormal, Spec.IsUnit, Spec.Orthogonal, Spec.inner, Spec.det],
    by norm_num [wideDisk], by norm_num [wideDisk]⟩

theorem wide_region_axis (p : V3) :
    (Spec.OnLine xLine.supp xLine.dir p ∧ Elliptical.region wideDisk p) ↔
      Spec.OnSegment ⟨-(21 / 20), 0, 0⟩ ⟨21 / 20, 0, 0⟩ p := by
  constructor
  · rintro ⟨⟨k, hx, hy, hz⟩, x, y, h, hp⟩
    simp [xLine] at hx hy hz
    have hpx := congrArg V3.x hp
    have hpz := congrArg V3.z hp
    simp [Spec.localPoint, wideDisk] at hpx hpz h
    have hy0 : y = 0 := by linarith
    rw [hy0] at h
    have h1 : -(21 / 20) ≤ x ∧ x ≤ 21 / 20 := by
      norm_num at h
      have := abs_le.1 h
      constructor <;> linarith [this.1, this.2]
    exact ⟨(p.x + 21 / 20) / (21 / 10), by rw [hpx]; linarith [h1.1], by rw [hpx]; linarith [h1.2], by simp; ring,
      by simpa using hy, by simpa using hz⟩
  · rintro ⟨t, h0, h1, hx, hy, hz⟩
    simp at hx hy hz
    refine ⟨⟨p.x, by simp [xLine], by simpa [xLine] using hy, by simpa [xLine] using hz⟩, p.x, 0, ?_, ?_⟩
    · rw [hx]
      simp [wideDisk]
      rw [abs_le]
      constructor <;> linarith
    · ext <;> simp [Spec.localPoint, wideDisk, hy, hz]

/-- The part of the line in a planar geometry, if it is an edge. -/
theorem planarLine_edge {K : Kernel} {f : FaceGeom} {l : Line} {L ce eps : ℝ} {a b : V3} (he : 0 < eps)
    (hin : ∀ p, Spec.OnLine l.supp l.dir p → Spec.OnPlane f.plane.supp f.plane.normal p)
    (hE : f.commonEdges (probingSegment f.center l L) (0.1 * eps) = [[a, b]]) :
    intersectPlanarLine K f l L ce eps = .val (.segment ⟨a, b⟩) := by
  unfold intersectPlanarLine
  rw [intersectPlaneLine_inplane he hin, Outcome.val_bind]
  simp only
  rw [hE]
  rfl

/-- If both ends of the second of two collinear segments are in the first one up to the tolerance, the second one is
returned. -/
theorem overlap_second (K : Kernel) {o d : V3} (hd : Spec.IsUnit d) {a1 b1 a2 b2 eps : ℝ} (h1 : a1 < b1) (h2 : a2 < b2)
    (he : 0 < eps) (ha : a1 - eps < a2) (hb : b2 < b1 + eps) :
    intersectSegmentSegment K ⟨onAxis o d a1, onAxis o d b1⟩ ⟨onAxis o d a2, onAxis o d b2⟩ eps =
      .val (.segment ⟨onAxis o d a2, onAxis o d b2⟩) := by
  obtain ⟨e1, m1, q1⟩ : ∃ e, mkDirection (onAxis o d b1 - onAxis o d a1) = .val e ∧ (e = d ∨ e = -d) := by
    rcases onAxis_direction (o := o) hd h1.ne with h | h
    · exact ⟨_, h, .inl rfl⟩
    · exact ⟨_, h, .inr rfl⟩
  obtain ⟨e2, m2, q2⟩ : ∃ e, mkDirection (onAxis o d b2 - onAxis o d a2) = .val e ∧ (e = d ∨ e = -d) := by
    rcases onAxis_direction (o := o) hd h2.ne with h | h
    · exact ⟨_, h, .inl rfl⟩
    · exact ⟨_, h, .inr rfl⟩
  have hl : (⟨onAxis o d a1, onAxis o d b1⟩ : Segment).supportingLine = .val ⟨onAxis o d a1, e1⟩ := by
    unfold Segment.supportingLine Segment.direction
    simp only [m1, Outcome.val_bind, Outcome.pure_eq]
  have hn := (Spec.isUnit_iff d).1 hd
  have hcont : (⟨onAxis o d a1, e1⟩ : Line).contains (onAxis o d a2) eps := by
    have hz : (⟨onAxis o d a1, e1⟩ : Line).projection (onAxis o d a2) = onAxis o d a2 := by
      unfold Line.projection onAxis
      rcases q1 with rfl | rfl
      · simp only
        rw [show o + a2 • e1 - (o + a1 • e1) = (a2 - a1) • e1 by module, V3.dot_smul,
          ← V3.sqLen_eq_dot, hn]; module
      · simp only
        rw [show o + a2 • d - (o + a1 • d) = (a2 - a1) • d by module, V3.dot_smul, V3.neg_dot,
          ← V3.sqLen_eq_dot, hn]; module
    unfold Line.contains
    rw [hz, sub_self]
    simp [V3.sqLen]; positivity
  unfold intersectSegmentSegment
  simp only [m1, m2, Outcome.val_bind]
  rw [if_pos (gpIsParallel_same hd q1 q2), hl]
  have c12 := fun x => onAxis_contains (o := o) hd h1.ne x eps he
  unfold parallelOverlap
  simp only [Outcome.val_bind, hcont, not_true_eq_false, if_false, c12]
  rw [if_pos (by rw [min_eq_left h1.le, max_eq_right h1.le]; exact ⟨⟨ha, by linarith⟩, ⟨by linarith, hb⟩⟩)]
  rfl

/-- Exact operations for the two disks. -/
noncomputable def orderOps (d : Elliptical) : ShapeOps := ⟨fun _ _ => [[⟨-d.majLen, 0, 0⟩, ⟨d.majLen, 0, 0⟩]], fun _ _ => []⟩

/-- Algorithms for disks that meet in the x axis. -/
noncomputable def orderLibrary : LibraryKernel :=
  { touchLibrary with isk := { crossIsKernel with ops := fun g => match g with | .disk d => orderOps d | _ => crossOps } }

theorem order_exactLine (eps : ℝ) :
    ExactLine xAxisKernel (flatDisk 0).supportingPlane wideDisk.supportingPlane eps xLine ∧
    ExactLine xAxisKernel wideDisk.supportingPlane (flatDisk 0).supportingPlane eps xLine := by
  have h := xAxis_exactLine 0 0 eps
  have e : wideDisk.supportingPlane = (uprightDisk 0).supportingPlane := rfl
  rw [e]
  refine ⟨h, ⟨?_, rfl, h.unit, fun p => (h.line p).trans and_comm⟩⟩
  intro hp
  apply h.not_parallel
  unfold gpIsParallel gpAngle at hp ⊢
  rw [V3.dot_comm, mul_comm]
  exact hp

theorem order_charLength :
    diskDiskCharLength (flatDisk 0) wideDisk = 21 / 20 ∧ diskDiskCharLength wideDisk (flatDisk 0) = 21 / 20 := by
  constructor <;> norm_num [diskDiskCharLength, flatDisk, wideDisk]

theorem order_cut {d : Elliptical} {c : V3} {u : ℝ} (hu : u = d.majLen) (hpos : 0 < u)
    (hcov : ∀ p, Spec.OnLine xLine.supp xLine.dir p → Elliptical.region d p →
      CoveredBy (probingSegment c xLine (21 / 20)) 1 p)
    (h : ∀ p, (Spec.OnLine xLine.supp xLine.dir p ∧ Elliptical.region d p) ↔ Spec.OnSegment ⟨-u, 0, 0⟩ ⟨u, 0, 0⟩ p) :
    ExactCut (diskFace d (orderOps d)) (Elliptical.region d) (probingSegment c xLine (21 / 20)) (0.1 * (1 / 10)) := by
  subst hu
  refine .crossing ⟨-d.majLen, 0, 0⟩ ⟨d.majLen, 0, 0⟩ ?_ (cut_of_line hcov h) rfl
  intro h
  have := congrArg V3.x h
  simp only at this
  linarith

theorem order_cover (p : V3) (hp : Spec.OnLine xLine.supp xLine.dir p) :
    (Elliptical.region (flatDisk 0) p → CoveredBy (probingSegment (flatDisk 0).center xLine (21 / 20)) 1 p) ∧
    (Elliptical.region wideDisk p → CoveredBy (probingSegment wideDisk.center xLine (21 / 20)) 1 p) := by
  have := C54_disk_disk (flatDisk 0) wideDisk xLine (flatDisk_valid 0) wideDisk_valid
    (by simp [flatDisk]) (by norm_num [wideDisk]) (by norm_num [xLine, Spec.IsUnit]) p hp
  simp only [order_charLength.1] at this
  exact ⟨fun h => (this.1 h).mono (by norm_num), fun h => (this.2 h).mono (by norm_num)⟩

theorem order_meet :
    MeetExactly orderLibrary.isk (1 / 10) xLine (.geom (.disk (flatDisk 0))) (.geom (.disk wideDisk))
      (flatDisk 0).supportingPlane wideDisk.supportingPlane (diskTol (flatDisk 0)) (diskTol wideDisk) ∧
    MeetExactly orderLibrary.isk (1 / 10) xLine (.geom (.disk wideDisk)) (.geom (.disk (flatDisk 0)))
      wideDisk.supportingPlane (flatDisk 0).supportingPlane (diskTol wideDisk) (diskTol (flatDisk 0)) := by
  have c1 : ExactCut (diskFace (flatDisk 0) (orderOps (flatDisk 0))) (Elliptical.region (flatDisk 0))
      (probingSegment (flatDisk 0).center xLine (21 / 20)) (0.1 * (1 / 10)) :=
    order_cut (u := 1) rfl one_pos (fun p hp => (order_cover p hp).1) (cross_iff (flat_region_axis 0))
  have c2 : ExactCut (diskFace wideDisk (orderOps wideDisk)) (Elliptical.region wideDisk)
      (probingSegment wideDisk.center xLine (21 / 20)) (0.1 * (1 / 10)) :=
    order_cut (u := 21 / 20) rfl (by norm_num) (fun p hp => (order_cover p hp).2) wide_region_axis
  exact ⟨.disks _ _ (flatDisk_valid 0) wideDisk_valid (by simp [flatDisk]) (by norm_num [wideDisk])
      (by rw [order_charLength.1]; norm_num) (order_exactLine _).1 (by rw [order_charLength.1]; exact c1)
      (by rw [order_charLength.1]; exact c2),
    .disks _ _ wideDisk_valid (flatDisk_valid 0) (by norm_num [wideDisk]) (by simp [flatDisk])
      (by rw [order_charLength.2]; norm_num) (order_exactLine _).2 (by rw [order_charLength.2]; exact c2)
      (by rw [order_charLength.2]; exact c1)⟩

/-- The intersection of the disks is the part of the axis in the second one. -/
theorem order_algorithm :
    intersectDiskDisk xAxisKernel (flatDisk 0) wideDisk (orderOps (flatDisk 0)) (orderOps wideDisk) (1 / 10) =
      .val (.segment ⟨onAxis 0 ⟨1, 0, 0⟩ (-(21 / 20)), onAxis 0 ⟨1, 0, 0⟩ (21 / 20)⟩) ∧
    intersectDiskDisk xAxisKernel wideDisk (flatDisk 0) (orderOps wideDisk) (orderOps (flatDisk 0)) (1 / 10) =
      .val (.segment ⟨onAxis 0 ⟨1, 0, 0⟩ (-1), onAxis 0 ⟨1, 0, 0⟩ 1⟩) := by
  have hu : Spec.IsUnit (⟨1, 0, 0⟩ : V3) := by norm_num [Spec.IsUnit]
  have hp : (0 : ℝ) < 1 / 10 := by norm_num
  have e1 : ∀ L ce, intersectPlanarLine xAxisKernel (diskFace (flatDisk 0) (orderOps (flatDisk 0))) xLine L ce (1 / 10) =
      .val (.segment ⟨onAxis 0 ⟨1, 0, 0⟩ (-1), onAxis 0 ⟨1, 0, 0⟩ 1⟩) := by
    intro L ce
    refine planarLine_edge hp (fun p hp => (((order_exactLine (1 / 10)).1.line p).1 hp).1) ?_
    simp [diskFace, orderOps, onAxis, flatDisk]
    ext <;> simp
  have e2 : ∀ L ce, intersectPlanarLine xAxisKernel (diskFace wideDisk (orderOps wideDisk)) xLine L ce (1 / 10) =
      .val (.segment ⟨onAxis 0 ⟨1, 0, 0⟩ (-(21 / 20)), onAxis 0 ⟨1, 0, 0⟩ (21 / 20)⟩) := by
    intro L ce
    refine planarLine_edge hp (fun p hp => (((order_exactLine (1 / 10)).1.line p).1 hp).2) ?_
    simp [diskFace, orderOps, onAxis, wideDisk]
    constructor <;> ext <;> simp
  constructor
  · unfold intersectDiskDisk intersectPlanarPlanar intersectPlanePlane
    have hl := (order_exactLine (1 / 10)).1
    rw [if_neg (show ¬ gpIsParallel (diskFace _ _).plane.normal (diskFace _ _).plane.normal angular from hl.not_parallel),
      show xAxisKernel.planePlane (diskFace _ _).plane (diskFace _ _).plane _ = some (xLine.supp, xLine.dir) from hl.kernel]
    simp only
    rw [mkDirection_of_unit hl.unit]
    show Outcome.bind _ _ = _
    simp only [Outcome.val_bind, Outcome.pure_eq, Outcome.bind]
    rw [e1, Outcome.val_bind, e2, Outcome.val_bind]
    simp only [combineOnLine]
    rw [overlap_second xAxisKernel hu (by norm_num) (by norm_num) hp (by norm_num) (by norm_num)]
    rfl
  · unfold intersectDiskDisk intersectPlanarPlanar intersectPlanePlane
    have hl := (order_exactLine (1 / 10)).2
    rw [if_neg (show ¬ gpIsParallel (diskFace _ _).plane.normal (diskFace _ _).plane.normal angular from hl.not_parallel),
      show xAxisKernel.planePlane (diskFace _ _).plane (diskFace _ _).plane _ = some (xLine.supp, xLine.dir) from hl.kernel]
    simp only
    rw [mkDirection_of_unit hl.unit]
    show Outcome.bind _ _ = _
    simp only [Outcome.val_bind, Outcome.pure_eq, Outcome.bind]
    rw [e2, Outcome.val_bind, e1, Outcome.val_bind]
    simp only [combineOnLine]
    rw [overlap_second xAxisKernel hu (by norm_num) (by norm_num) hp (by norm_num) (by norm_num)]
    rfl

theorem order_engine {d d' : Elliptical} {s : Segment} (hd : ValidElliptical d) (hd' : ValidElliptical d')
    (h0 : Elliptical.region d 0 ∧ Elliptical.region d' 0)
    (h : intersectDiskDisk xAxisKernel d d' (orderOps d) (orderOps d') (1 / 10) = .val (.segment s)) :
    (libraryEngine orderLibrary).intersect (.geom (.disk d)) (.geom (.disk d')) (some (1 / 10)) =
      .val (.single (.segment s)) := by
  have hi : intersect orderLibrary.isk (.geom (.disk d)) (.geom (.disk d')) (1 / 10) =
      .val (.geoms (.single (.segment s))) := by
    rcases C77_bounding_boxes orderLibrary.isk boundedKernel_faithful boundedKernel_neverFails
      boundedKernel_contains (.disk d) (.disk d') hd hd' (1 / 10) (by norm_num) _ rfl with h' | ⟨h', _⟩
    · rw [h']
      show (do let r ← (do
        let g ← intersectDiskDisk xAxisKernel d d' (orderOps d) (orderOps d') (1 / 10)
        pure (IsResult.single g)); pure (Intersected.geoms r)) = _
      rw [h]
      rfl
    · exact absurd h0.2 (h' 0 h0.1)
  show (do let r ← intersect orderLibrary.isk (.geom (.disk d)) (.geom (.disk d')) (1 / 10)
           r.toResult) = _
  rw [hi]
  rfl

theorem order_origin : Elliptical.region (flatDisk 0) 0 ∧ Elliptical.region wideDisk 0 :=
  ⟨((flat_region_axis 0 0).2 (by norm_num)).2, ((wide_region_axis 0).2 ⟨1 / 2, by norm_num⟩).2⟩

/-- The property does not hold: a segment of the length 2 or 2.1 results from the two orders, so only one of them is
accepted if the minimum length is 2.05. -/
theorem C125_disproof : ¬ C125_full := by
  intro h
  have hu : Spec.IsUnit (⟨1, 0, 0⟩ : V3) := by norm_num [Spec.IsUnit]
  have i1 := order_engine (flatDisk_valid 0) wideDisk_valid order_origin order_algorithm.1
  have i2 := order_engine wideDisk_valid (flatDisk_valid 0) order_origin.symm order_algorithm.2
  have hlen : ∀ a b : ℝ, a ≤ b → (⟨onAxis 0 ⟨1, 0, 0⟩ a, onAxis 0 ⟨1, 0, 0⟩ b⟩ : Segment).length = b - a := by
    intro a b hab
    have := onAxis_dist (o := 0) hu b a
    rw [Spec.dist_eq_len, abs_of_nonneg (by linarith)] at this
    exact this
  have hacc : evaluate (libraryEngine orderLibrary)
      (run [.setMinIntersectionMagnitude (41 / 20), .setIntersectionEpsilon (1 / 10)])
      (.geom (.disk (flatDisk 0))) (.geom (.disk wideDisk)) = .val true := by
    refine (C35_accepts_exact (libraryEngine orderLibrary) _ _ _ (by rintro ⟨_, _, h, _⟩; cases h)).2
      ⟨_, i1, .inr ⟨?_, ?_, ?_, ?_, ?_⟩⟩
    · simp [NoIntersection, parts]
    · intro _ g hg
      simp only [parts, List.mem_singleton] at hg
      subst hg
      exact ⟨by show (0 : ℤ) ≤ 2 - 1; norm_num, fun _ => by show (1 : ℤ) ≤ 2 - 1; norm_num,
        fun h => by rcases h with ⟨_, h⟩ | ⟨_, h⟩ <;> cases h⟩
    · rintro m hm g hg _
      simp only [parts, List.mem_singleton] at hg
      subst hg
      rw [show m = 41 / 20 from (Option.some.inj hm).symm]
      refine ⟨_, rfl, ?_⟩
      show (41 / 20 : ℝ) ≤ Segment.length _
      rw [hlen _ _ (by norm_num)]
      norm_num
    · intro t ht
      cases ht
    · intro t ht
      cases ht
  have hS : SoundShapes orderLibrary.isk.shapes :=
    ⟨boundedKernel_faithful, boundedKernel_neverFails, boundedKernel_contains⟩
  have hsym : SymmetricExtrema orderLibrary.isk.shapes :=
    boundedKernel_symmetric
  have hrev := h orderLibrary hS hsym _ _ _ (1 / 10) _ _ _ _ _ _ (by norm_num) order_meet.1 order_meet.2 (.inl rfl)
    (.inl rfl) hacc
  obtain ⟨r, hr, hc⟩ := (C35_accepts_exact (libraryEngine orderLibrary) _ _ _ (by rintro ⟨_, _, h, _⟩; cases h)).1 hrev
  have hr' := i2.symm.trans hr
  simp only [Outcome.val.injEq] at hr'
  subst hr'
  rcases hc with ⟨hn, _⟩ | ⟨_, _, hm, _⟩
  · simp [NoIntersection, parts] at hn
  · obtain ⟨x, hx, hl⟩ := hm _ rfl _ (List.mem_singleton.2 rfl) (by simp [Spec.Constraints.IsCurve])
    have hx' : x = (⟨onAxis 0 ⟨1, 0, 0⟩ (-1), onAxis 0 ⟨1, 0, 0⟩ 1⟩ : Segment).length := (Outcome.val.inj hx).symm
    rw [hx', hlen _ _ (by norm_num)] at hl
    norm_num at hl

end Props
