import Verif.Props.TunnelExample

/-!
# A network of example 4
-/

namespace Props
open Verif Frackit Frackit.Appl
open Spec.Constraints Spec.Network

/-- A square in the plane with the given x-coordinate, around the tunnel. -/
noncomputable def ringPolygon (x : ℝ) : Polygon where
  corners := [⟨x, -10, -10⟩, ⟨x, 10, -10⟩, ⟨x, 10, 10⟩, ⟨x, -10, 10⟩]
  plane := .val ⟨⟨x, -10, -10⟩, ⟨0, 1, 0⟩, ⟨0, 0, 1⟩, ⟨1, 0, 0⟩⟩
  center := .val ⟨x, 0, 0⟩
  area_ := 400
  isConvex := True

theorem ring_valid (x : ℝ) : ValidGeom (.polygon (ringPolygon x)) := by
  refine ⟨by simp [ringPolygon], ⟨1, 0, 0⟩, ⟨x, -10, -10⟩, by norm_num [Spec.IsUnit], ?_, ?_, ?_⟩
  · simp only [ringPolygon, List.nodup_cons, List.mem_cons, V3.mk.injEq, List.not_mem_nil, or_false, not_or, List.nodup_nil,
      not_false_eq_true, and_true]
    norm_num
  · intro c hc
    simp only [ringPolygon, List.mem_cons, List.not_mem_nil, or_false] at hc
    rcases hc with rfl | rfl | rfl | rfl <;> norm_num [Spec.OnPlane]
  · intro e he c hc
    simp only [ringPolygon, Spec.polyEdges, List.tail_cons, List.take_succ_cons, List.take_zero, List.cons_append, List.nil_append,
      List.zip_cons_cons, List.zip_nil_left, List.mem_cons, List.not_mem_nil, or_false] at he hc
    rcases he with rfl | rfl | rfl | rfl <;> rcases hc with rfl | rfl | rfl | rfl <;> norm_num [Spec.turn, Spec.det, Spec.inner]

theorem ring_proper (x : ℝ) : ProperPolygon (ringPolygon x) := by
  refine ⟨ring_valid x, ⟨x, -10, -10⟩, by simp [ringPolygon], ⟨x, 10, -10⟩, by simp [ringPolygon], ⟨x, 10, 10⟩,
    by simp [ringPolygon], ?_⟩
  rw [collinear_iff_cross]
  intro h
  have := congrArg V3.x h
  norm_num [V3.cross] at this

theorem ring_area (x : ℝ) : (ringPolygon x).area = .val 400 := by
  unfold Polygon.area
  rw [if_pos (show (ringPolygon x).isConvex from trivial)]
  rfl

theorem ring_hull (x : ℝ) (p : V3) : Spec.InHull (ringPolygon x).corners p ↔ p.x = x ∧ (-10 ≤ p.y ∧ p.y ≤ 10) ∧ (-10 ≤ p.z ∧ p.z ≤ 10) := by
  constructor
  · rintro ⟨w, hl, hn, hs, hx, hy, hz⟩
    match w, hl with
    | [a, b, c, d], _ =>
      have ha := hn a (by simp)
      have hb := hn b (by simp)
      have hc := hn c (by simp)
      have hd := hn d (by simp)
      simp only [ringPolygon, List.zipWith_cons_cons, List.zipWith_nil_right, List.sum_cons, List.sum_nil] at hs hx hy hz
      refine ⟨?_, ⟨?_, ?_⟩, ?_, ?_⟩
      · rw [hx]; linear_combination x * hs
      all_goals linarith
  · rintro ⟨hx, ⟨y0, y1⟩, z0, z1⟩
    refine ⟨[(10 - p.y) * (10 - p.z) / 400, (10 + p.y) * (10 - p.z) / 400, (10 + p.y) * (10 + p.z) / 400,
      (10 - p.y) * (10 + p.z) / 400], rfl, ?_, ?_, ?_, ?_, ?_⟩
    · intro r hr
      have a1 : 0 ≤ 10 - p.y := by linarith
      have a2 : 0 ≤ 10 + p.y := by linarith
      have a3 : 0 ≤ 10 - p.z := by linarith
      have a4 : 0 ≤ 10 + p.z := by linarith
      simp only [List.mem_cons, List.not_mem_nil, or_false] at hr
      rcases hr with rfl | rfl | rfl | rfl <;> positivity
    · simp only [List.sum_cons, List.sum_nil]; ring
    all_goals simp only [ringPolygon, List.zipWith_cons_cons, List.zipWith_nil_right, List.sum_cons, List.sum_nil]
    · rw [hx]; ring
    · ring
    · ring

/-- The shape of the square. -/
theorem ring_shape (x : ℝ) : ∃ s, getShape wallKernel (.geom (.polygon (ringPolygon x))) = .val s ∧ s.kind = .face ∧
    (∀ p, p ∈ s.points ↔ p.x = x ∧ (-10 ≤ p.y ∧ p.y ≤ 10) ∧ (-10 ≤ p.z ∧ p.z ≤ 10)) ∧
    (∀ p ∈ s.outer, p.x = x ∧ (p.y = -10 ∨ p.y = 10 ∨ p.z = -10 ∨ p.z = 10) ∧ (-10 ≤ p.y ∧ p.y ≤ 10) ∧ (-10 ≤ p.z ∧ p.z ≤ 10)) ∧
    (⟨x, -10, -10⟩ : V3) ∈ s.outer ∧ (⟨x, 10, -10⟩ : V3) ∈ s.outer := by
  obtain ⟨s, hs⟩ := (C72_supported wallKernel (.polygon (ringPolygon x))).1 wallKernel_neverFails (ring_valid x) (by simp)
    (by simp) (by simp [ClosedArc])
  obtain ⟨hp, hk⟩ := C72_shape_partial _ wallKernel_faithful _ (ring_valid x) s hs
  have ho : s.outer = {p | ∃ e ∈ [((⟨x, -10, -10⟩ : V3), (⟨x, 10, -10⟩ : V3)), (⟨x, 10, -10⟩, ⟨x, 10, 10⟩),
      (⟨x, 10, 10⟩, ⟨x, -10, 10⟩), (⟨x, -10, 10⟩, ⟨x, -10, -10⟩)], Spec.OnSegment e.1 e.2 p} := by
    obtain rfl := Outcome.val.inj hs
    simp only [List.range', List.map_cons, List.map_nil, List.getD_cons_zero, List.getD_cons_succ, List.length_cons, List.length_nil,
      Nat.reduceAdd, Nat.reduceSub, Nat.reduceMod]
  refine ⟨s, hs, by simpa [KindFits, AnyGeometry.dimension] using hk, fun p => by rw [hp]; exact ring_hull x p, ?_, ?_, ?_⟩
  · rw [ho]
    rintro p ⟨e, he, t, t0, t1, hx, hy, hz⟩
    simp only [List.mem_cons, List.not_mem_nil, or_false] at he
    rcases he with rfl | rfl | rfl | rfl <;> simp only at hx hy hz
    · exact ⟨by linarith, .inr (.inr (.inl (by linarith))), ⟨by linarith, by linarith⟩, by linarith, by linarith⟩
    · exact ⟨by linarith, .inr (.inl (by linarith)), ⟨by linarith, by linarith⟩, by linarith, by linarith⟩
    · exact ⟨by linarith, .inr (.inr (.inr (by linarith))), ⟨by linarith, by linarith⟩, by linarith, by linarith⟩
    · exact ⟨by linarith, .inl (by linarith), ⟨by linarith, by linarith⟩, by linarith, by linarith⟩
  · rw [ho]
    exact ⟨_, List.mem_cons_self, 0, by norm_num, by norm_num, by ring, by ring, by ring⟩
  · rw [ho]
    exact ⟨_, List.mem_cons_self, 1, by norm_num, by norm_num, by ring, by ring, by ring⟩

/-- The surface of the tunnel. -/
theorem wall_surface : ∃ cyl lat tun, tunnel4 = .val cyl ∧ cyl.lateralFace = .val lat ∧ SurfaceOf lat ⟨-25, 0, 0⟩ ⟨1, 0, 0⟩ 5 50 ∧
    ValidSurface lat ∧ getShape wallKernel (.geom (.cylinderSurface lat)) = .val tun ∧ tun.kind = .face ∧ tun.points = tunnelWall ∧
    ∀ p, p ∈ tun.outer ↔ Spec.OnTunnelWall p ∧ (p.x = -25 ∨ p.x = 25) := by
  obtain ⟨cyl, hc, hv, v1, v2, v3, v4⟩ := tunnel4_spec
  obtain ⟨⟨k, s, e1, e2, hs⟩, -⟩ := C69_surface_construction ⟨-25, 0, 0⟩ ⟨1, 0, 0⟩ 5 50 (by norm_num [Spec.IsUnit])
  have hb : s.bottom.majLen = 5 := hs.radius
  refine ⟨cyl, s, ⟨.face, {p | Spec.OnLateral ⟨-25, 0, 0⟩ ⟨1, 0, 0⟩ 5 50 p}, {p | Spec.OnLateral ⟨-25, 0, 0⟩ ⟨1, 0, 0⟩ 5 50 p ∧
    (Spec.axial ⟨-25, 0, 0⟩ ⟨1, 0, 0⟩ p = 0 ∨ Spec.axial ⟨-25, 0, 0⟩ ⟨1, 0, 0⟩ p = 50)}⟩, hc, ?_, hs, ⟨⟨?_, ?_, ?_⟩, ?_, ?_⟩, ?_, rfl, ?_, ?_⟩
  · unfold Cylinder.lateralFace
    rw [v1, v2, v3, e1, Outcome.val_bind, v4, e2]
  · rw [hs.bottom_normal]; exact hs.frame
  · rw [hb]; norm_num
  · rw [hs.bottom_minLen]; norm_num
  · rw [hs.top_center, hs.bottom_center, hs.height, hs.bottom_normal]
  · rw [hs.height]; norm_num
  · show cylinderSurfaceShape wallKernel s = _
    unfold cylinderSurfaceShape
    rw [hs.bottom_center, hs.bottom_normal, hb, hs.height]
    rfl
  · ext p; exact onTunnel_iff p
  · intro p
    show (Spec.OnLateral _ _ _ _ p ∧ _) ↔ _
    rw [onTunnel_iff]
    unfold Spec.axial
    simp only [sub_zero]
    constructor
    · rintro ⟨h, h1 | h1⟩
      · exact ⟨h, .inl (by linarith)⟩
      · exact ⟨h, .inr (by linarith)⟩
    · rintro ⟨h, h1 | h1⟩
      · exact ⟨h, .inl (by linarith)⟩
      · exact ⟨h, .inr (by linarith)⟩

theorem circle_wall (t : ℝ) : Spec.OnTunnelWall (wallCircle.value t) := by
  refine ⟨by norm_num [wallCircle], ?_⟩
  show (5 * Real.cos t) ^ 2 + (5 * Real.sin t) ^ 2 = 5 ^ 2
  linear_combination 25 * Real.sin_sq_add_cos_sq t

/-- The face of the sphere. -/
def sphereShell : Shape := ⟨.face, {p | Spec.dist ⟨0, 0, 0⟩ p = 25}, ∅⟩

theorem wall_sphere : sphereSurface4 wallTunnel = .val sphereShell := by
  have h : wallTunnel.faces ⟨.solid, {p | Spec.InBall ⟨0, 0, 0⟩ 25 p}, {p | Spec.dist ⟨0, 0, 0⟩ p = 25}⟩ = [sphereShell] := by
    simp [wallTunnel, sphereShell]
  show onlyOne "We expect the sphere to consist of a single face"
    (wallTunnel.faces ⟨.solid, {p | Spec.InBall ⟨0, 0, 0⟩ 25 p}, {p | Spec.dist ⟨0, 0, 0⟩ p = 25}⟩) = _
  rw [h]
  rfl

section
variable {d s tun : Shape} {lat : CylinderSurface}

/-- The part of the square in the domain. -/
def ringPart (s d : Shape) : Shape := ⟨.face, s.points ∩ d.points, s.outer⟩

theorem ring_contained (hs : getShape wallKernel (.geom (.polygon (ringPolygon 0))) = .val s)
    (hp : ∀ p, p ∈ s.points ↔ p.x = 0 ∧ (-10 ≤ p.y ∧ p.y ≤ 10) ∧ (-10 ≤ p.z ∧ p.z ≤ 10))
    (hd : ∀ p, Spec.InsideTunnelDomain p → p ∈ d.points) :
    HasThree (s.points ∩ d.points) ∧
    (tunnelModel wallTunnel d tun sphereShell lat).contained (ringPolygon 0) = .val [.shape (ringPart s d)] := by
  have h3 : HasThree (s.points ∩ d.points) := by
    refine ⟨⟨0, 6, 0⟩, ⟨0, 7, 0⟩, ⟨0, 7, 1⟩, ?_, ?_⟩
    · rw [collinear_iff_cross]
      intro h
      have := congrArg V3.x h
      norm_num [V3.cross] at this
    · rintro q (rfl | rfl | rfl) <;>
        exact ⟨(hp _).2 (by norm_num), hd _ (by norm_num [Spec.InsideTunnelDomain])⟩
  refine ⟨h3, ?_⟩
  show (getShape wallKernel (.geom (.polygon (ringPolygon 0))) >>= fun s => occIntersect wallTunnel.bool s d 1e-6 >>= fun r =>
    pure ((wallTunnel.faces r).map DistArg.shape)) = _
  rw [hs, Outcome.val_bind]
  show (Outcome.val ((wallTunnel.faces ⟨.compound, s.points ∩ d.points, s.outer⟩).map DistArg.shape)) = _
  simp only [wallTunnel, reduceCtorEq, if_false]
  rw [if_pos h3]
  rfl

theorem ring_flat (hp : ∀ p, p ∈ s.points ↔ p.x = 0 ∧ (-10 ≤ p.y ∧ p.y ≤ 10) ∧ (-10 ≤ p.z ∧ p.z ≤ 10))
    (h3 : HasThree (s.points ∩ d.points)) : FlatFace wallLibrary (ringPart s d) ⟨1, 0, 0⟩ := by
  have plane : ∀ p ∈ (ringPart s d).points, ∀ q ∈ (ringPart s d).points, Spec.OnPlane p ⟨1, 0, 0⟩ q := by
    intro p h1 q h2
    have e1 := ((hp p).1 h1.1).1
    have e2 := ((hp q).1 h2.1).1
    simp [Spec.OnPlane, e1, e2]
  have hn : (⟨1, 0, 0⟩ : V3) ≠ 0 := fun h => by
    have := congrArg V3.x h
    norm_num at this
  refine ⟨rfl, ⟨⟨0, -10, -10⟩, ⟨0, 10, 10⟩, fun p h => ?_⟩, hn, plane, fun u v => someSurface_normal _ _ hn plane h3 u v⟩
  obtain ⟨h1, h2, h3⟩ := (hp p).1 h.1
  exact ⟨h1.ge, h1.le, h2.1, h2.2, h3.1, h3.2⟩

theorem wall_not_plane (ht : tun.points = tunnelWall) : ¬ (InOnePlane tun.points ∧ HasThree tun.points) := by
  rintro ⟨⟨n, hn, hpl⟩, _⟩
  rw [ht] at hpl
  have h1 : (⟨0, 5, 0⟩ : V3) ∈ tunnelWall := by constructor <;> norm_num
  have h2 : (⟨1, 5, 0⟩ : V3) ∈ tunnelWall := by constructor <;> norm_num
  have h3 : (⟨0, -5, 0⟩ : V3) ∈ tunnelWall := by constructor <;> norm_num
  have h4 : (⟨0, 0, 5⟩ : V3) ∈ tunnelWall := by constructor <;> norm_num
  have e2 := hpl _ h1 _ h2
  have e3 := hpl _ h1 _ h3
  have e4 := hpl _ h1 _ h4
  simp only [Spec.OnPlane] at e2 e3 e4
  apply hn
  ext <;> simp only [V3.zero_x, V3.zero_y, V3.zero_z] <;> linarith

/-- The square is orthogonal to the wall of the tunnel. -/
theorem wall_angle (ht : tun.points = tunnelWall) (hf : FlatFace wallLibrary (ringPart s d) ⟨1, 0, 0⟩) {p : V3}
    (hp : Spec.OnTunnelWall p) : faceFaceAngleAt (someSurface tun) (someSurface (ringPart s d)) p = .val (Real.pi / 2) := by
  have hne : (⟨0, -p.y, -p.z⟩ : V3) ≠ 0 := by
    intro h
    have h1 := congrArg V3.y h
    have h2 := congrArg V3.z h
    simp only [V3.zero_y, V3.zero_z, neg_eq_zero] at h1 h2
    have := hp.2
    rw [h1, h2] at this
    norm_num at this
  obtain ⟨d1, r1, hd1, u1, _, e1⟩ := exists_direction hne
  obtain ⟨t1, ht1, _, n1, _⟩ := C03_plane_from_normal p d1 u1
  obtain ⟨k, hk, he⟩ := hf.surface ((someSurface (ringPart s d)).params p).1 ((someSurface (ringPart s d)).params p).2
  have h0 : ((someSurface (ringPart s d)).d1 ((someSurface (ringPart s d)).params p).1 ((someSurface (ringPart s d)).params p).2).1.cross
      ((someSurface (ringPart s d)).d1 ((someSurface (ringPart s d)).params p).1 ((someSurface (ringPart s d)).params p).2).2 ≠ 0 := by
    rw [show ((someSurface (ringPart s d)).d1 ((someSurface (ringPart s d)).params p).1 ((someSurface (ringPart s d)).params p).2).1.cross
      ((someSurface (ringPart s d)).d1 ((someSurface (ringPart s d)).params p).1 ((someSurface (ringPart s d)).params p).2).2 = k • ⟨1, 0, 0⟩ from he]
    exact smul_ne_zero hk hf.normal
  obtain ⟨d2, r2, hd2, u2, hr2, e2⟩ := exists_direction h0
  obtain ⟨t2, ht2, _, n2, _⟩ := C03_plane_from_normal p d2 u2
  have hs : someSurface tun = ⟨fun p => (p.y, p.z), fun _ => 0, fun u v => (⟨1, 0, 0⟩, ⟨0, -v, u⟩)⟩ := by
    unfold someSurface
    rw [dif_neg (wall_not_plane ht)]
  have w1 : surfacePlaneAt (someSurface tun) p ((someSurface tun).params p).1 ((someSurface tun).params p).2 = .val t1 := by
    rw [hs]
    unfold surfacePlaneAt
    simp only
    rw [show (⟨1, 0, 0⟩ : V3).cross ⟨0, -p.z, p.y⟩ = ⟨0, -p.y, -p.z⟩ by ext <;> simp [V3.cross], hd1, Outcome.val_bind, ht1]
  have w2 : surfacePlaneAt (someSurface (ringPart s d)) p ((someSurface (ringPart s d)).params p).1
      ((someSurface (ringPart s d)).params p).2 = .val t2 := by
    unfold surfacePlaneAt
    simp only
    rw [hd2, Outcome.val_bind, ht2]
  unfold faceFaceAngleAt
  rw [w1, w2, Outcome.val_bind, Outcome.val_bind]
  show Outcome.val (planeAngle t1 t2) = _
  unfold planeAngle
  have hx1 : d1.x = 0 := by
    have := congrArg V3.x e1
    simp only [V3.smul_x] at this
    rcases mul_eq_zero.1 this.symm with h | h
    · rw [h, zero_smul] at e1
      exact absurd e1 hne
    · exact h
  have hyz : d2.y = 0 ∧ d2.z = 0 := by
    have he' : k • (⟨1, 0, 0⟩ : V3) = r2 • d2 := he.symm.trans e2
    have a := congrArg V3.y he'
    have b := congrArg V3.z he'
    simp only [V3.smul_y, V3.smul_z, mul_zero] at a b
    exact ⟨(mul_eq_zero.1 a.symm).resolve_left hr2.ne', (mul_eq_zero.1 b.symm).resolve_left hr2.ne'⟩
  rw [n1, n2, show d1.dot d2 = 0 by simp [V3.dot, hx1, hyz.1, hyz.2], abs_zero, Real.arccos_zero]

theorem ring_circle (hp : ∀ p, p ∈ s.points ↔ p.x = 0 ∧ (-10 ≤ p.y ∧ p.y ≤ 10) ∧ (-10 ≤ p.z ∧ p.z ≤ 10))
    (hd : ∀ p, Spec.InTunnelDomain p → p.x ^ 2 + p.y ^ 2 + p.z ^ 2 < 25 ^ 2 → -20 < p.z ∧ p.z < 20 → p ∈ d.points) (t : ℝ) :
    wallCircle.value t ∈ (ringPart s d).points := by
  have h1 := Real.neg_one_le_cos t
  have h2 := Real.cos_le_one t
  have h3 := Real.neg_one_le_sin t
  have h4 := Real.sin_le_one t
  have h5 := (circle_wall t).2
  have hx : (wallCircle.value t).x = 0 := rfl
  have hy : (wallCircle.value t).y = 5 * Real.cos t := rfl
  have hz : (wallCircle.value t).z = 5 * Real.sin t := rfl
  refine ⟨(hp _).2 ⟨hx, ⟨by rw [hy]; linarith, by rw [hy]; linarith⟩, by rw [hz]; linarith, by rw [hz]; linarith⟩,
    hd _ ⟨?_, ⟨by rw [hz]; linarith, by rw [hz]; linarith⟩, h5.ge⟩ ?_ ⟨by rw [hz]; linarith, by rw [hz]; linarith⟩⟩
  · rw [hx]; linarith
  · rw [hx]; linarith

/-- Tolerances of sets with two points. -/
theorem box_tol {A : Set V3} (hb : InSomeBox A) {p q : V3} (hp : p ∈ A) (hq : q ∈ A) (h : p ≠ q) (k : ShapeKind) (o : Set V3) :
    0 < shapeTol wallLibrary ⟨k, A, o⟩ :=
  shapeTol_pos (T := wallTunnel) wallKernel_contains hb ⟨p, hp, q, hq, h⟩

theorem wall_box : InSomeBox tunnelWall := ⟨⟨-25, -5, -5⟩, ⟨25, 5, 5⟩, fun p ⟨hx, hyz⟩ => by
    have hy := abs_le.1 (abs_le_of_sq_le_sq (a := p.y) (b := 5) (by nlinarith [sq_nonneg p.z]) (by norm_num))
    have hz := abs_le.1 (abs_le_of_sq_le_sq (a := p.z) (b := 5) (by nlinarith [sq_nonneg p.y]) (by norm_num))
    exact ⟨hx.1, hx.2, hy.1, hy.2, hz.1, hz.2⟩⟩

theorem sphere_box : InSomeBox sphereShell.points := ⟨⟨-25, -25, -25⟩, ⟨25, 25, 25⟩, fun p hp => by
    have hp : Spec.dist ⟨0, 0, 0⟩ p = 25 := hp
    obtain ⟨h1, h2, h3⟩ := coord_dist ⟨0, 0, 0⟩ p
    rw [hp] at h1 h2 h3
    have h1 := abs_le.1 h1
    have h2 := abs_le.1 h2
    have h3 := abs_le.1 h3
    simp only at h1 h2 h3
    exact ⟨by simp only; linarith, by simp only; linarith, by simp only; linarith, by simp only; linarith, by simp only; linarith,
      by simp only; linarith⟩⟩

/-- The square meets the wall of the tunnel in a circle and fulfils the constraints. -/
theorem ring_tunnel (hk : tun.kind = .face) (ht : tun.points = tunnelWall)
    (ho : ∀ p, p ∈ tun.outer ↔ Spec.OnTunnelWall p ∧ (p.x = -25 ∨ p.x = 25))
    (hf : FlatFace wallLibrary (ringPart s d) ⟨1, 0, 0⟩) (hcirc : ∀ t, wallCircle.value t ∈ (ringPart s d).points)
    (hso : ∀ p ∈ s.outer, p.x = 0 ∧ (p.y = -10 ∨ p.y = 10 ∨ p.z = -10 ∨ p.z = 10) ∧ (-10 ≤ p.y ∧ p.y ≤ 10) ∧ (-10 ≤ p.z ∧ p.z ≤ 10))
    (o1 : (⟨0, -10, -10⟩ : V3) ∈ s.outer) (o2 : (⟨0, 10, -10⟩ : V3) ∈ s.outer) :
    Compatible (libraryEngine wallLibrary) 1 (Real.pi / 18) 0.1 0.1 (.shape tun) (.shape (ringPart s d)) := by
  have hops : ∀ e, wallLibrary.isk.faceOps tun (ringPart s d) e = edgeOps [0] (fun _ => [⟨0, 5, 0⟩]) := by
    intro e
    simp only [wallLibrary]
    rw [if_pos ⟨fun t => by rw [ht]; exact circle_wall t, hcirc⟩]
  have c0 : wallCircle.value 0 = ⟨0, 5, 0⟩ := by simp [wallCircle]
  have w0 : (⟨0, 5, 0⟩ : V3) ∈ tun.points := by rw [ht, ← c0]; exact circle_wall 0
  have r0 : (⟨0, 5, 0⟩ : V3) ∈ (ringPart s d).points := by rw [← c0]; exact hcirc 0
  have c1 : wallCircle.value Real.pi = ⟨0, -5, 0⟩ := by simp [wallCircle]
  have w1 : (⟨0, -5, 0⟩ : V3) ∈ tun.points := by rw [ht, ← c1]; exact circle_wall _
  have r1 : (⟨0, -5, 0⟩ : V3) ∈ (ringPart s d).points := by rw [← c1]; exact hcirc _
  have hne : (⟨0, 5, 0⟩ : V3) ≠ ⟨0, -5, 0⟩ := by norm_num
  have bt : InSomeBox tun.points := by rw [ht]; exact wall_box
  have he : 0 < pairTol wallLibrary tun (ringPart s d) :=
    lt_min (shapeTol_pos (T := wallTunnel) wallKernel_contains bt ⟨_, w0, _, w1, hne⟩)
      (shapeTol_pos (T := wallTunnel) wallKernel_contains hf.bounded ⟨_, r0, _, r1, hne⟩)
  refine accept_edges_of (vs := fun _ => [⟨0, 5, 0⟩]) (es := [0]) (e := pairTol wallLibrary tun (ringPart s d)) (by simp) ?_ ?_ ?_ ?_
  · show (intersect wallLibrary.isk (.shape tun) (.shape (ringPart s d)) (pairTol wallLibrary tun (ringPart s d)) >>=
      fun r => r.toResult) = _
    rcases C77_faces wallLibrary.isk wallKernel_faithful wallKernel_contains tun (ringPart s d) hk rfl bt hf.bounded _ he with h | ⟨h, _⟩
    · rw [h, hops]; rfl
    · exact absurd r0 (h _ w0)
  · intro l hl k _
    obtain rfl : (0.1 : ℝ) = l := Option.some.inj hl
    show (0.1 : ℝ) ≤ 10 * Real.pi
    have := Real.two_le_pi
    norm_num
    linarith
  · intro k _
    obtain ⟨θ, h1, ⟨t, _, _, h2⟩, _⟩ := C53_edge_samples wallLibrary.curves (.face (someSurface tun)) (.face (someSurface (ringPart s d)))
      k ⟨0, 5, 0⟩ ⟨0, 5, 0⟩ (fun _ => Real.pi / 2) (.inl ⟨_, _, rfl, rfl⟩) (by show (0 : ℝ) ≤ 2 * Real.pi; positivity) (by
        intro t _ _
        exact wall_angle ht hf (circle_wall t))
    refine ⟨θ, h1, h2.le, fun t ht => ?_⟩
    obtain rfl : (Real.pi / 18 : ℝ) = t := Option.some.inj ht
    rw [h2]
    have := Real.pi_pos
    linarith
  · intro b hb k _ x hx
    obtain rfl : (0.1 : ℝ) = b := Option.some.inj hb
    have hx : x = ⟨0, 5, 0⟩ := by rcases hx with h | h <;> exact h
    subst hx
    have q1 : (⟨-25, 5, 0⟩ : V3) ∈ tun.outer := (ho _).2 ⟨by constructor <;> norm_num, .inl rfl⟩
    have q2 : (⟨25, 5, 0⟩ : V3) ∈ tun.outer := (ho _).2 ⟨by constructor <;> norm_num, .inr rfl⟩
    have bo : InSomeBox tun.outer := inSomeBox_mono wall_box fun p hp => ((ho p).1 hp).1
    have bs : InSomeBox s.outer := ⟨⟨0, -10, -10⟩, ⟨0, 10, 10⟩, fun p hp => by
      obtain ⟨h1, _, h2, h3⟩ := hso p hp
      exact ⟨h1.ge, h1.le, h2.1, h2.2, h3.1, h3.2⟩⟩
    refine ⟨bounded_point_ok (L := wallLibrary) rfl rfl hk (faceTol_pos wallKernel_contains bo q1 q2 (by norm_num)) ⟨_, q1⟩ (.inr fun q hq => ?_),
      bounded_point_ok (L := wallLibrary) (s := ringPart s d) rfl rfl rfl (faceTol_pos wallKernel_contains bs o1 o2 (by norm_num)) ⟨_, o1⟩ (.inr fun q hq => ?_)⟩
    · have h := (coord_dist ⟨0, 5, 0⟩ q).1
      rcases ((ho q).1 hq).2 with h' | h' <;> rw [h'] at h <;> norm_num at h ⊢ <;> linarith
    · obtain ⟨_, h', _⟩ := hso q hq
      obtain ⟨_, hy, hz⟩ := coord_dist ⟨0, 5, 0⟩ q
      rcases h' with h' | h' | h' | h'
      · rw [h'] at hy; norm_num at hy ⊢; linarith
      · rw [h'] at hy; norm_num at hy ⊢; linarith
      · rw [h'] at hz; norm_num at hz ⊢; linarith
      · rw [h'] at hz; norm_num at hz ⊢; linarith

/-- The square is away from the sphere. -/
theorem ring_sphere (hp : ∀ p, p ∈ s.points ↔ p.x = 0 ∧ (-10 ≤ p.y ∧ p.y ≤ 10) ∧ (-10 ≤ p.z ∧ p.z ≤ 10))
    (hf : FlatFace wallLibrary (ringPart s d) ⟨1, 0, 0⟩) (hcirc : ∀ t, wallCircle.value t ∈ (ringPart s d).points) :
    Compatible (libraryEngine wallLibrary) 1 (Real.pi / 18) 0.1 0.1 (.shape sphereShell) (.shape (ringPart s d)) := by
  have far : ∀ p ∈ sphereShell.points, ∀ q ∈ (ringPart s d).points, 1 ≤ Spec.dist p q := by
    intro p h1 q h2
    have h1 : Spec.dist ⟨0, 0, 0⟩ p = 25 := h1
    obtain ⟨hx, hy, hz⟩ := (hp q).1 h2.1
    have h3 : Spec.dist ⟨0, 0, 0⟩ q ≤ 20 := by
      unfold Spec.dist
      rw [Real.sqrt_le_left (by norm_num)]
      simp only [hx]
      nlinarith
    have h4 := dist_triangle ⟨0, 0, 0⟩ q p
    rw [Spec.dist_comm q p] at h4
    linarith
  have hops : ∀ e, wallLibrary.isk.faceOps sphereShell (ringPart s d) e = edgeOps [] (fun _ => []) := by
    intro e
    simp only [wallLibrary]
    rw [if_neg]
    rintro ⟨h, _⟩
    have := far _ (h 0) _ (hcirc 0)
    rw [dist_self_zero] at this
    norm_num at this
  have c0 : wallCircle.value 0 = ⟨0, 5, 0⟩ := by simp [wallCircle]
  have r0 : (⟨0, 5, 0⟩ : V3) ∈ (ringPart s d).points := by rw [← c0]; exact hcirc 0
  have c1 : wallCircle.value Real.pi = ⟨0, -5, 0⟩ := by simp [wallCircle]
  have r1 : (⟨0, -5, 0⟩ : V3) ∈ (ringPart s d).points := by rw [← c1]; exact hcirc _
  have s0 : (⟨25, 0, 0⟩ : V3) ∈ sphereShell.points := by
    show Spec.dist ⟨0, 0, 0⟩ ⟨25, 0, 0⟩ = 25
    norm_num [Spec.dist]
    rw [Real.sqrt_eq_iff_mul_self_eq (by norm_num) (by norm_num)]
    norm_num
  have s1 : (⟨-25, 0, 0⟩ : V3) ∈ sphereShell.points := by
    show Spec.dist ⟨0, 0, 0⟩ ⟨-25, 0, 0⟩ = 25
    norm_num [Spec.dist]
    rw [Real.sqrt_eq_iff_mul_self_eq (by norm_num) (by norm_num)]
    norm_num
  have he : 0 < pairTol wallLibrary sphereShell (ringPart s d) :=
    lt_min (shapeTol_pos (T := wallTunnel) wallKernel_contains sphere_box ⟨_, s0, _, s1, by norm_num⟩)
      (shapeTol_pos (T := wallTunnel) wallKernel_contains hf.bounded ⟨_, r0, _, r1, by norm_num⟩)
  obtain ⟨v, hv, hset⟩ := bounded_setDist (s := sphereShell) (t := ringPart s d) ⟨_, s0⟩ ⟨_, r0⟩
  refine ⟨.list [.empty], ?_, .inl ⟨fun g hg => List.mem_singleton.1 hg, fun m hm => ⟨v, ?_, ?_⟩⟩⟩
  · show (intersect wallLibrary.isk (.shape sphereShell) (.shape (ringPart s d)) (pairTol wallLibrary sphereShell (ringPart s d)) >>=
      fun r => r.toResult) = _
    rcases C77_faces wallLibrary.isk wallKernel_faithful wallKernel_contains sphereShell (ringPart s d) rfl rfl sphere_box hf.bounded _ he
      with h | ⟨_, h⟩
    · rw [h, hops]; rfl
    · rw [h]; rfl
  · show doneOr _ (boundedKernel.extrema sphereShell (ringPart s d)) = _
    rw [hv]; rfl
  · obtain rfl : (1 : ℝ) = m := Option.some.inj hm
    by_contra hc
    obtain ⟨p, h1, q, h2, h3⟩ := hset.2 (1 - v) (by linarith)
    have := far p h1 q h2
    linarith

/-- The square meets the wall of the tunnel in a circle. -/
theorem ring_meets (hs : SurfaceOf lat ⟨-25, 0, 0⟩ ⟨1, 0, 0⟩ 5 50) (hv : ValidSurface lat) :
    ∃ e, (tunnelModel wallTunnel d tun sphereShell lat).isTunnel (ringPolygon 0) = .val (.list [.ellipse e]) ∧ ValidElliptical e ∧
      ∀ p, Spec.OnEllipse e.center e.major e.minor e.majLen e.minLen p → p.x = 0 ∧ p.y ^ 2 + p.z ^ 2 = 5 ^ 2 := by
  have hrad : lat.radius = 5 := hs.radius
  have hval : ValidGeom (.cylinderSurface lat) :=
    ⟨⟨-25, 0, 0⟩, ⟨1, 0, 0⟩, by rw [hrad, hs.height]; exact hs, by rw [hrad]; norm_num, by rw [hs.height]; norm_num⟩
  have e1 : isArgEpsilon wallLibrary.isk (.geom (.cylinderSurface lat)) = .val (confusion * 0.5 * (lat.radius + lat.height)) := rfl
  have e2 : isArgEpsilon wallLibrary.isk (.geom (.polygon (ringPolygon 0))) = .val (0.5 * Real.sqrt 400 * confusion) := by
    show ((ringPolygon 0).area >>= fun a => pure (0.5 * Real.sqrt a * confusion)) = _
    rw [ring_area]; rfl
  have p1 : 0 < confusion * 0.5 * (lat.radius + lat.height) := by
    rw [hrad, hs.height]
    exact mul_pos (mul_pos confusion_pos (by norm_num)) (by norm_num)
  have p2 : 0 < 0.5 * Real.sqrt 400 * confusion := mul_pos (mul_pos (by norm_num) (Real.sqrt_pos.2 (by norm_num))) confusion_pos
  set eps := min (confusion * 0.5 * (lat.radius + lat.height)) (0.5 * Real.sqrt 400 * confusion) with heps
  have he : 0 < eps := lt_min p1 p2
  obtain ⟨e, h1, h2, h3⟩ := C52_orthogonal wallLibrary.isk.algo lat ⟨⟨⟨0, -10, -10⟩, ⟨0, 1, 0⟩, ⟨0, 0, 1⟩, ⟨1, 0, 0⟩⟩, ⟨0, 0, 0⟩,
    fun p eps => (ringPolygon 0).contains p eps false, (wallLibrary.isk.ops (.polygon (ringPolygon 0))).commonEdges,
    (wallLibrary.isk.ops (.polygon (ringPolygon 0))).cutVertices⟩ (cylPolygonCharLength (ringPolygon 0).corners ⟨0, 0, 0⟩) eps hv
    (.inl hs.bottom_normal.symm)
  refine ⟨e, ?_, h2, fun p hp => ?_⟩
  · have ha : intersectCylinderPolygon wallLibrary.isk.algo lat (ringPolygon 0) (wallLibrary.isk.ops (.polygon (ringPolygon 0)))
        (wallLibrary.isk.cylOps lat (.polygon (ringPolygon 0)) eps) eps = .val [.ellipse e] := by
      unfold intersectCylinderPolygon
      rw [if_neg (not_not.2 (show (ringPolygon 0).isConvex from trivial))]
      show intersectCylinderPlanar _ _ _ _ _ _ = _
      unfold intersectCylinderPlanar
      rw [h1]
      rfl
    show (isArgEpsilon wallLibrary.isk (.geom (.cylinderSurface lat)) >>= fun eps1 =>
      isArgEpsilon wallLibrary.isk (.geom (.polygon (ringPolygon 0))) >>= fun eps2 =>
      intersect wallLibrary.isk (.geom (.cylinderSurface lat)) (.geom (.polygon (ringPolygon 0))) (min eps1 eps2)) >>= (fun r => r.toResult) = _
    rw [e1, e2, Outcome.val_bind, Outcome.val_bind, ← heps]
    rcases C77_bounding_boxes wallLibrary.isk wallKernel_faithful wallKernel_neverFails wallKernel_contains (.cylinderSurface lat)
      (.polygon (ringPolygon 0)) hval (ring_valid 0) eps he _ rfl with h | ⟨h, _⟩
    · rw [h, ha]; rfl
    · refine absurd ((ring_hull 0 ⟨0, 5, 0⟩).2 (by norm_num)) (h ⟨0, 5, 0⟩ ?_)
      show Spec.OnLateral lat.bottom.center lat.bottom.normal lat.radius lat.height ⟨0, 5, 0⟩
      rw [hs.bottom_center, hs.bottom_normal, hrad, hs.height]
      exact (onTunnel_iff _).2 (by constructor <;> norm_num)
  · obtain ⟨hx, hr⟩ := (h3 p).1 hp
    have hx : p.x = 0 := by simpa [Spec.OnPlane] using hx
    refine ⟨hx, ?_⟩
    rw [hs.bottom_center, hs.bottom_normal, hrad] at hr
    have hr : Spec.radial ⟨-25, 0, 0⟩ ⟨1, 0, 0⟩ p = 5 := hr
    unfold Spec.radial Spec.axial Spec.dist at hr
    rw [Real.sqrt_eq_iff_mul_self_eq (by positivity) (by norm_num)] at hr
    simp only [hx] at hr
    linarith

/-- The corners of the square are away from the circle. -/
theorem ring_clear (hs : getShape wallKernel (.geom (.polygon (ringPolygon 0))) = .val s) {e : Elliptical} (he : ValidElliptical e)
    (h : ∀ p, Spec.OnEllipse e.center e.major e.minor e.majLen e.minLen p → p.x = 0 ∧ p.y ^ 2 + p.z ^ 2 = 5 ^ 2) :
    ClearOf (tunnelModel wallTunnel d tun sphereShell lat) ((tunnelModel wallTunnel d tun sphereShell lat).vertices (ringPolygon 0))
      (.list [.ellipse e]) := by
  intro v hv
  have hvs : (tunnelModel wallTunnel d tun sphereShell lat).vertices (ringPolygon 0) = cornersOf s := by
    show (match getShape wallKernel (.geom (.polygon (ringPolygon 0))) with | .val s => cornersOf s | _ => []) = _
    rw [hs]
  rw [hvs] at hv
  have hpts : s.points = {p | Spec.InHull (ringPolygon 0).corners p} := (C72_shape_partial _ wallKernel_faithful _ (ring_valid 0) s hs).1
  have hv := (mem_cornersOf hpts v).1 hv
  rw [hpts] at hv
  have hv := corner_given hv
  obtain ⟨t, ht⟩ := (C72_supported wallKernel (.ellipse e)).1 wallKernel_neverFails he (by simp) (by simp) (by simp [ClosedArc])
  have htp : t.points = pointsOf (.ellipse e) := (C72_shape_partial _ wallKernel_faithful (.ellipse e) he t ht).1
  have hne : t.points.Nonempty := by
    rw [htp]
    exact ⟨_, e.majLen, 0, by rw [div_self he.maj_pos.ne']; norm_num, rfl⟩
  obtain ⟨r, hr, hset⟩ := bounded_setDist (s := ⟨.vertex, {v}, ∅⟩) (t := t) ⟨v, rfl⟩ hne
  have hfar : 1e-3 ≤ r := by
    by_contra hc
    obtain ⟨p, h1, q, h2, h3⟩ := hset.2 (1e-3 - r) (by linarith)
    rw [Set.mem_singleton_iff.1 h1] at h3
    rw [htp] at h2
    obtain ⟨qx, qyz⟩ := h q h2
    have hy := abs_le.1 (abs_le_of_sq_le_sq (a := q.y) (b := 5) (by nlinarith [sq_nonneg q.z]) (by norm_num))
    have hd := abs_le.1 (coord_dist v q).2.1
    simp only [ringPolygon, List.mem_cons, List.not_mem_nil, or_false] at hv
    rcases hv with rfl | rfl | rfl | rfl <;> simp only at hd <;> norm_num at h3 <;> linarith
  have hd : vertexDistance wallTunnel v (.ellipse e) = .val r := by
    show (getShape wallKernel (.geom (.ellipse e)) >>= fun t => doneOr _ (boundedKernel.extrema ⟨.vertex, {v}, ∅⟩ t)) = _
    rw [ht, Outcome.val_bind, hr]
    rfl
  refine ⟨min doubleMax r, ?_, le_min ?_ hfar⟩
  · show distLoop (vertexDistance wallTunnel v) doubleMax [.ellipse e] = _
    simp only [distLoop, hd, Outcome.val_bind]
  · exact le_trans (by norm_num) doubleMax_large

/-- The square with x = 20 does not meet the part of the square with x = 0. -/
theorem ring_apart (hp : ∀ p, p ∈ s.points ↔ p.x = 0 ∧ (-10 ≤ p.y ∧ p.y ≤ 10) ∧ (-10 ≤ p.z ∧ p.z ≤ 10))
    (hf : FlatFace wallLibrary (ringPart s d) ⟨1, 0, 0⟩) (hcirc : ∀ t, wallCircle.value t ∈ (ringPart s d).points) :
    (tunnelModel wallTunnel d tun sphereShell lat).isEntity (ringPolygon 20) (.shape (ringPart s d)) = .val (.list [.empty]) := by
  obtain ⟨u, hu, huk, hup, _⟩ := ring_shape 20
  have e1 : isArgEpsilon wallLibrary.isk (.geom (.polygon (ringPolygon 20))) = .val (0.5 * Real.sqrt 400 * confusion) := by
    show ((ringPolygon 20).area >>= fun a => pure (0.5 * Real.sqrt a * confusion)) = _
    rw [ring_area]; rfl
  have e2 : isArgEpsilon wallLibrary.isk (.shape (ringPart s d)) = .val (shapeTol wallLibrary (ringPart s d)) := rfl
  have c0 : wallCircle.value 0 = ⟨0, 5, 0⟩ := by simp [wallCircle]
  have r0 : (⟨0, 5, 0⟩ : V3) ∈ (ringPart s d).points := by rw [← c0]; exact hcirc 0
  have c1 : wallCircle.value Real.pi = ⟨0, -5, 0⟩ := by simp [wallCircle]
  have r1 : (⟨0, -5, 0⟩ : V3) ∈ (ringPart s d).points := by rw [← c1]; exact hcirc _
  have he : 0 < min (0.5 * Real.sqrt 400 * confusion) (shapeTol wallLibrary (ringPart s d)) :=
    lt_min (mul_pos (mul_pos (by norm_num) (Real.sqrt_pos.2 (by norm_num))) confusion_pos)
      (shapeTol_pos (T := wallTunnel) wallKernel_contains hf.bounded ⟨_, r0, _, r1, by norm_num⟩)
  show (isArgEpsilon wallLibrary.isk (.geom (.polygon (ringPolygon 20))) >>= fun eps1 =>
    isArgEpsilon wallLibrary.isk (.shape (ringPart s d)) >>= fun eps2 =>
    intersect wallLibrary.isk (.geom (.polygon (ringPolygon 20))) (.shape (ringPart s d)) (min eps1 eps2)) >>= (fun r => r.toResult) = _
  rw [e1, e2, Outcome.val_bind, Outcome.val_bind]
  rw [(C77_geometry_face wallLibrary.isk wallKernel_faithful (.polygon (ringPolygon 20)) (ringPart s d) u rfl (ring_valid 20)
    (by simp only [typeOf]; decide) hu _).1]
  have bu : InSomeBox u.points := ⟨⟨20, -10, -10⟩, ⟨20, 10, 10⟩, fun p h => by
    obtain ⟨h1, h2, h3⟩ := (hup p).1 h
    exact ⟨h1.ge, h1.le, h2.1, h2.2, h3.1, h3.2⟩⟩
  have hops : ∀ e, wallLibrary.isk.faceOps u (ringPart s d) e = edgeOps [] (fun _ => []) := by
    intro e
    simp only [wallLibrary]
    rw [if_neg]
    rintro ⟨h, _⟩
    have := ((hup _).1 (h 0)).1
    rw [c0] at this
    norm_num at this
  rcases C77_faces wallLibrary.isk wallKernel_faithful wallKernel_contains u (ringPart s d) huk rfl bu hf.bounded _ he with h | ⟨_, h⟩
  · rw [h, hops]; rfl
  · rw [h]; rfl

end

/-- Non-trivial instance of the hypotheses: a square around the tunnel is accepted as fracture of the first set, squares without contact
to it are not accepted as fractures of the second set. -/
example : ∃ N, tunnelNetwork wallTunnel (fun s => s.count) ops42 ops43 (fun _ => .val (ringPolygon 0)) (fun _ _ _ => .val (ringPolygon 20))
    (fun _ _ _ => .val (ringPolygon 20)) 1 0 2 = .val (some N) ∧ N.set1.length = 1 ∧
    (∀ x ∈ N.set1, FractureOf wallTunnel (ringPolygon 0) x) ∧
    (∀ k c, (fun _ : ℕ => Outcome.val (ringPolygon 0)) k = .val c → ProperPolygon c) := by
  obtain ⟨d, hd, hin⟩ := wall_domain
  obtain ⟨_, _, hins⟩ := C137_domain wallTunnel wallKernel_faithful wallTunnel_exact d hd
  obtain ⟨s, hs, hk, hp, hso, o1, o2⟩ := ring_shape 0
  obtain ⟨cyl, lat, tun, hc, hl, hsurf, hv, ht, htk, htp, hto⟩ := wall_surface
  obtain ⟨h3, hcont⟩ := ring_contained (d := d) (tun := tun) (lat := lat) hs hp hins
  have hf := ring_flat hp h3
  have hcirc := ring_circle hp hin
  obtain ⟨e, he, hev, hec⟩ := ring_meets (d := d) (tun := tun) hsurf hv
  have hproper : ∀ k c, (fun _ : ℕ => Outcome.val (ringPolygon 0)) k = .val c → ProperPolygon c := fun _ c h => by
    obtain rfl := Outcome.val.inj h
    exact ring_proper 0
  have hproper' : ∀ (i : ℕ) (e : DistArg) (t : ℕ) (c : Polygon), (fun (_ : ℕ) (_ : DistArg) (_ : ℕ) => Outcome.val (ringPolygon 20)) i e t = .val c →
      ProperPolygon c := fun _ _ _ c h => by
    obtain rfl := Outcome.val.inj h
    exact ring_proper 20
  have hpart : PartOf (tunnelModel wallTunnel d tun sphereShell lat) (ringPolygon 0) (.shape (ringPart s d)) (400 - 25 * Real.pi) :=
    ⟨hcont, rfl, 400, ring_area 0, by have := Real.pi_le_four; norm_num; linarith⟩
  have hcand : ∀ k < 1, ∃ ar, candidate1 (libraryEngine wallLibrary) (tunnelModel wallTunnel d tun sphereShell lat)
      ((List.range k).map fun _ => DistArg.shape (ringPart s d)) (ringPolygon 0) = .val (some (.shape (ringPart s d), ar)) := by
    intro k hk
    obtain rfl : k = 0 := by omega
    refine ⟨_, candidate1_of he ?_ (ring_clear hs hev hec) hpart (by simp) ⟨?_, ?_⟩⟩
    · intro h
      have := h (.ellipse e) (by simp [Spec.Constraints.parts])
      cases this
    · exact ring_tunnel htk htp hto hf hcirc hso o1 o2
    · exact ring_sphere hp hf hcirc
  obtain ⟨st, hst, hset⟩ := stage1_all (eng := libraryEngine wallLibrary) (g := tunnelModel wallTunnel d tun sphereShell lat)
    (fun _ => ringPolygon 0) (fun _ => DistArg.shape (ringPart s d)) 1 hcand
  have hset : st.set = [.shape (ringPart s d)] := by rw [hset]; rfl
  have hnear : ∀ checks, candidateNear (libraryEngine wallLibrary) (tunnelModel wallTunnel d tun sphereShell lat) checks
      (.shape (ringPart s d)) (ringPolygon 20) = .val none := fun checks =>
    candidateNear_empty (ring_apart hp hf hcirc) rfl
  have hnet : ∃ N, tunnelNetwork wallTunnel (fun s => s.count) ops42 ops43 (fun _ => .val (ringPolygon 0)) (fun _ _ _ => .val (ringPolygon 20))
      (fun _ _ _ => .val (ringPolygon 20)) 1 0 2 = .val (some N) := by
    unfold tunnelNetwork
    rw [hd, wall_sphere, hc, Outcome.val_bind, Outcome.val_bind, Outcome.val_bind, hl, Outcome.val_bind,
      show getShape wallTunnel.lib.isk.shapes (.geom (.cylinderSurface lat)) = .val tun from ht, Outcome.val_bind]
    unfold network4
    rw [show stage1 (libraryEngine wallTunnel.lib) (tunnelModel wallTunnel d tun sphereShell lat) (fun s => s.count)
      (fun _ => .val (ringPolygon 0)) 1 2 = _ from hst, Outcome.val_bind]
    have hsearch : ∀ checks (x : Stage DistArg), search 2 0 (candidateNear (libraryEngine wallTunnel.lib) (tunnelModel wallTunnel d tun sphereShell lat)
        checks (.shape (ringPart s d))) (fun _ => .val (ringPolygon 20)) 0 x = .val (x.reject, 1) := by
      intro checks x
      rw [search, if_pos (le_refl _)]
      simp only [Outcome.val_bind]
      rw [show candidateNear (libraryEngine wallTunnel.lib) (tunnelModel wallTunnel d tun sphereShell lat) checks
        (.shape (ringPart s d)) (ringPolygon 20) = _ from hnear checks, Outcome.val_bind]
      simp only
      rw [search, if_neg (by norm_num)]
      rfl
    simp only [hset, stageNear, hsearch, Outcome.val_bind, Outcome.pure_eq]
    exact ⟨_, rfl⟩
  obtain ⟨N, hN⟩ := hnet
  obtain ⟨⟨h1, _⟩, h2, _⟩ := C137_network wallTunnel wallKernel_faithful wallKernel_contains wallTunnel_exact _ (fun _ => List.Perm.refl _)
    _ _ _ _ evaluate_ops42 evaluate_ops43 _ _ _ hproper hproper' hproper' 1 0 2 N hN
  refine ⟨N, hN, h1, fun x hx => ?_, hproper⟩
  obtain ⟨k, c, hk, hx⟩ := h2 x hx
  obtain rfl := Outcome.val.inj hk
  exact hx

end Props
