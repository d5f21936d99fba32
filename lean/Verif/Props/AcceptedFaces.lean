import Verif.Props.AcceptedPlanar
import Verif.Props.IntersectionLists
import Verif.Spec.AcceptedFaces

/-!
# C134 Accepted faces fulfil the constraints geometrically
-/

namespace Props
open Verif Frackit
open Spec.Constraints (config Config parts NoIntersection AtLeast PointOk AcceptBy NotLess BoundaryOkBy IsCurve)
open Frackit.Constraints (Op run evaluate)

/-! ### Normals -/

theorem perp_two {u v n : V3} (hu : u.dot n = 0) (hv : v.dot n = 0) (hc : u.cross v ≠ 0) :
    ∃ k : ℝ, n = k • u.cross v := by
  have hs : 0 < (u.cross v).sqLen := by
    have := V3.len_pos.2 hc
    rw [← V3.len_mul_self]; positivity
  refine ⟨n.dot (u.cross v) / (u.cross v).sqLen, ?_⟩
  have key : (u.cross v).sqLen • n = n.dot (u.cross v) • u.cross v := by
    unfold V3.dot at hu hv
    ext <;> simp only [V3.smul_x, V3.smul_y, V3.smul_z, V3.sqLen, V3.cross, V3.dot]
    · linear_combination (v.x * (u.x * v.x + u.y * v.y + u.z * v.z) - u.x * (v.x * v.x + v.y * v.y + v.z * v.z)) * (-1) * hu +
        (u.x * (u.x * v.x + u.y * v.y + u.z * v.z) - v.x * (u.x * u.x + u.y * u.y + u.z * u.z)) * (-1) * hv
    · linear_combination (v.y * (u.x * v.x + u.y * v.y + u.z * v.z) - u.y * (v.x * v.x + v.y * v.y + v.z * v.z)) * (-1) * hu +
        (u.y * (u.x * v.x + u.y * v.y + u.z * v.z) - v.y * (u.x * u.x + u.y * u.y + u.z * u.z)) * (-1) * hv
    · linear_combination (v.z * (u.x * v.x + u.y * v.y + u.z * v.z) - u.z * (v.x * v.x + v.y * v.y + v.z * v.z)) * (-1) * hu +
        (u.z * (u.x * v.x + u.y * v.y + u.z * v.z) - v.z * (u.x * u.x + u.y * u.y + u.z * u.z)) * (-1) * hv
  rw [div_eq_inv_mul, mul_smul, ← key, smul_smul, inv_mul_cancel₀ hs.ne', one_smul]

theorem cross_of_not_parallel {n m : V3} (h : ¬ Spec.Parallel n m) : n.cross m ≠ 0 := by
  intro hc
  apply h
  by_cases hn : n = 0
  · exact .inr ⟨0, by rw [zero_smul]; exact hn⟩
  have hs : 0 < n.sqLen := by
    have := V3.len_pos.2 hn
    rw [← V3.len_mul_self]; positivity
  refine .inl ⟨n.dot m / n.sqLen, ?_⟩
  have key : n.sqLen • m = n.dot m • n := by
    have hx := congrArg V3.x hc
    have hy := congrArg V3.y hc
    have hz := congrArg V3.z hc
    simp only [V3.cross, V3.zero_x, V3.zero_y, V3.zero_z] at hx hy hz
    ext <;> simp only [V3.smul_x, V3.smul_y, V3.smul_z, V3.sqLen, V3.dot]
    · linear_combination n.z * hy - n.y * hz
    · linear_combination n.x * hz - n.z * hx
    · linear_combination n.y * hx - n.x * hy
  rw [div_eq_inv_mul, mul_smul, ← key, smul_smul, inv_mul_cancel₀ hs.ne', one_smul]

/-! ### Faces and their intersections -/

/-- A face of limited extent in a plane with normal `n`. -/
structure FlatFace (L : LibraryKernel) (s : Shape) (n : V3) : Prop where
  kind : s.kind = .face
  bounded : InSomeBox s.points
  normal : n ≠ 0
  plane : ∀ p ∈ s.points, ∀ q ∈ s.points, Spec.OnPlane p n q
  surface : ∀ u v, ∃ k : ℝ, k ≠ 0 ∧ ((L.surface s).d1 u v).1.cross ((L.surface s).d1 u v).2 = k • n

/-- The points of an edge. -/
def edgePoints (L : LibraryKernel) (e : ℕ) : Set V3 :=
  {p | ∃ t, (L.curves e).first ≤ t ∧ t ≤ (L.curves e).last ∧ (L.curves e).value t = p}

/-- The results of the boolean operations between two faces are exact: common faces contain three points that are not on
a line; edges and candidates for touching points consist of common points; an edge within a line is the segment
between its ends; nothing is missing. -/
structure ExactFaceOps (L : LibraryKernel) (f g : Shape) (eps : ℝ) : Prop where
  faces : ∀ k ∈ (L.isk.faceOps f g eps).commonFaces, ∃ a b c, ¬ Spec.Collinear a b c ∧
    ∀ p, p = a ∨ p = b ∨ p = c → p ∈ f.points ∧ p ∈ g.points
  edges : ∀ e ∈ (L.isk.faceOps f g eps).edgesOnFace, ∀ p ∈ edgePoints L e, p ∈ f.points ∧ p ∈ g.points
  ends : ∀ e ∈ (L.isk.faceOps f g eps).edgesOnFace, (L.isk.ends e).1 ∈ edgePoints L e ∧ (L.isk.ends e).2 ∈ edgePoints L e ∧
    ∀ v ∈ (L.isk.faceOps f g eps).edgeVertices e, v ∈ edgePoints L e
  straight : ∀ e ∈ (L.isk.faceOps f g eps).edgesOnFace, (∃ q d, ∀ p ∈ edgePoints L e, Spec.OnLine q d p) →
    (∀ p, p ∈ edgePoints L e ↔ Spec.OnSegment (L.isk.ends e).1 (L.isk.ends e).2 p) ∧
    L.edgeLength e = Spec.dist (L.isk.ends e).1 (L.isk.ends e).2
  points : ∀ p, p ∈ (L.isk.faceOps f g eps).wireCut1 ∧ (L.isk.faceOps f g eps).onFace2 p = true ∨
    p ∈ (L.isk.faceOps f g eps).wireCut2 ∧ (L.isk.faceOps f g eps).onFace1 p = true → p ∈ f.points ∧ p ∈ g.points
  covered : ∀ p, p ∈ f.points → p ∈ g.points → (L.isk.faceOps f g eps).commonFaces ≠ [] ∨
    (∃ e ∈ (L.isk.faceOps f g eps).edgesOnFace, p ∈ edgePoints L e) ∨
    (p ∈ (L.isk.faceOps f g eps).wireCut1 ∧ (L.isk.faceOps f g eps).onFace2 p = true ∨
      p ∈ (L.isk.faceOps f g eps).wireCut2 ∧ (L.isk.faceOps f g eps).onFace1 p = true)

/-- The tolerance of the boundary of a face: the default tolerance of its outer wire. -/
noncomputable def faceTol (L : LibraryKernel) (s : Shape) : ℝ :=
  ((⟨(L.isk.shapes.bounds (s.boundary .wire)).xMax, (L.isk.shapes.bounds (s.boundary .wire)).yMax,
    (L.isk.shapes.bounds (s.boundary .wire)).zMax⟩ : V3) - ⟨(L.isk.shapes.bounds (s.boundary .wire)).xMin,
    (L.isk.shapes.bounds (s.boundary .wire)).yMin, (L.isk.shapes.bounds (s.boundary .wire)).zMin⟩).len * confusion

theorem face_point_ok {L : LibraryKernel} (hK : Faithful L.isk.shapes) {s : Shape} (hs : s.kind = .face) {t : ℝ} {p : V3}
    (h : PointOk (libraryEngine L) (.shape s) t p) : Spec.OnOrAway s.outer t (faceTol L s) 0 p := by
  rcases h with h | ⟨_, r, hr, htr⟩
  · left
    obtain ⟨e, _, h⟩ := Outcome.bind_eq_val.1 h
    have h : (if s.kind = .face then pointOnGeometry L.isk.shapes p (.shape (s.boundary .wire)) (faceTol L s)
      else .thrown "Point on boundary not implemented") = .val true := h
    rw [if_pos hs] at h
    exact (point_on hK (b := .shape (s.boundary .wire)) trivial (fun _ h => by cases h) h).1 rfl
  · right
    intro q hq
    have := (C74_kernel_boundary L.isk.shapes hK (.geom (.point p)) (.shape s) trivial trivial trivial r hr).1 p rfl q hq
    linarith

theorem flat_angle_at {L : LibraryKernel} {f g : Shape} {n m : V3} (hf : FlatFace L f n) (hg : FlatFace L g m) (p : V3) :
    ∃ θ, faceFaceAngleAt (L.surface f) (L.surface g) p = .val θ ∧ Spec.IsPlaneAngle n m θ ∧ θ ≤ Real.pi / 2 := by
  have plane : ∀ {s : Shape} {n : V3}, FlatFace L s n → ∀ u v, ∃ (t : Plane) (k : ℝ),
      surfacePlaneAt (L.surface s) p u v = .val t ∧ Spec.IsUnit t.normal ∧ k ≠ 0 ∧ t.normal = k • n := by
    intro s n hs u v
    obtain ⟨k, hk, he⟩ := hs.surface u v
    have h0 : ((L.surface s).d1 u v).1.cross ((L.surface s).d1 u v).2 ≠ 0 := by
      rw [he]; exact smul_ne_zero hk hs.normal
    obtain ⟨d, r, hd, hu, hr, hdr⟩ := exists_direction h0
    obtain ⟨t, ht, _, htn, _⟩ := C03_plane_from_normal p d hu
    refine ⟨t, k / r, ?_, htn ▸ hu, div_ne_zero hk hr.ne', ?_⟩
    · unfold surfacePlaneAt
      simp only
      rw [hd, Outcome.val_bind, ht]
    · rw [htn, div_eq_inv_mul, mul_smul, ← he, hdr, smul_smul, inv_mul_cancel₀ hr.ne', one_smul]
  obtain ⟨t1, k1, h1, u1, k1', e1⟩ := plane hf ((L.surface f).params p).1 ((L.surface f).params p).2
  obtain ⟨t2, k2, h2, u2, k2', e2⟩ := plane hg ((L.surface g).params p).1 ((L.surface g).params p).2
  refine ⟨planeAngle t1 t2, ?_, ?_, Real.arccos_le_pi_div_two.2 (abs_nonneg _)⟩
  · unfold faceFaceAngleAt
    rw [h1, Outcome.val_bind, h2]; rfl
  · have := planeAngle_isPlaneAngle u1 u2
    rw [e1, e2, isPlaneAngle_smul k2', isPlaneAngle_comm, isPlaneAngle_smul k1', isPlaneAngle_comm] at this
    exact this

theorem planeAngle_unique {n m : V3} {θ φ : ℝ} (h1 : Spec.IsPlaneAngle n m θ) (h2 : Spec.IsPlaneAngle n m φ) : θ = φ := by
  unfold Spec.IsPlaneAngle at h1 h2
  rw [h1, h2]

theorem planeAngle_parallel {n m : V3} (hn : n ≠ 0) (hm : m ≠ 0) (h : Spec.Parallel n m) : Spec.IsPlaneAngle n m 0 := by
  have self : ∀ {n : V3}, n ≠ 0 → Spec.IsPlaneAngle n n 0 := by
    intro n hn
    have h0 : 0 < n.len := V3.len_pos.2 hn
    have : Spec.vecAngle n n = 0 := by
      unfold Spec.vecAngle
      rw [Spec.inner_eq_dot, Spec.norm_eq_len, show n.dot n = n.len * n.len by rw [V3.len_mul_self]; rfl,
        div_self (by positivity), Real.arccos_one]
    unfold Spec.IsPlaneAngle
    rw [this, sub_zero, min_eq_left Real.pi_pos.le]
  rcases h with ⟨k, rfl⟩ | ⟨k, rfl⟩
  · exact (isPlaneAngle_smul (fun hk => hm (by rw [hk, zero_smul]))).2 (self hn)
  · exact isPlaneAngle_comm.1 ((isPlaneAngle_smul (fun hk => hn (by rw [hk, zero_smul]))).2 (self hm))

section
variable {L : LibraryKernel} {f g : Shape} {n m : V3} {eps : ℝ}

/-- The three kinds of parts of the list, or nothing. -/
theorem faceFace_list (ops : FaceFaceOps) (ends : ℕ → V3 × V3) (eps : ℝ) :
    (intersectFaceFace ops ends eps = [.empty] ∧ pointIntersections ops eps = [] ∧ edgeIntersections ops = [] ∧
      ops.commonFaces = []) ∨
    (intersectFaceFace ops ends eps ≠ [] ∧ ∀ x, x ∈ intersectFaceFace ops ends eps ↔
      (∃ p ∈ pointIntersections ops eps, x = .point p) ∨
      (∃ e ∈ edgeIntersections ops, x = .edge e (ends e).1 (ends e).2) ∨ ∃ k ∈ ops.commonFaces, x = .face k) := by
  unfold intersectFaceFace
  simp only
  split_ifs with h
  · left
    rw [List.isEmpty_iff, List.append_eq_nil_iff, List.append_eq_nil_iff, List.map_eq_nil_iff,
      List.map_eq_nil_iff, List.map_eq_nil_iff] at h
    exact ⟨rfl, h.1.1, h.1.2, h.2⟩
  · right
    refine ⟨fun h' => h (by rw [h']; rfl), fun x => ?_⟩
    simp only [List.mem_append, List.mem_map]
    constructor
    · rintro ((⟨p, hp, rfl⟩ | ⟨p, hp, rfl⟩) | ⟨p, hp, rfl⟩)
      · exact .inl ⟨p, hp, rfl⟩
      · exact .inr (.inl ⟨p, hp, rfl⟩)
      · exact .inr (.inr ⟨p, hp, rfl⟩)
    · rintro (⟨p, hp, rfl⟩ | ⟨p, hp, rfl⟩ | ⟨p, hp, rfl⟩)
      · exact .inl (.inl ⟨p, hp, rfl⟩)
      · exact .inl (.inr ⟨p, hp, rfl⟩)
      · exact .inr ⟨p, hp, rfl⟩

theorem candidate_mem {ops : FaceFaceOps} {p : V3} : p ∈ faceCandidates ops ↔
    p ∈ ops.wireCut1 ∧ ops.onFace2 p = true ∨ p ∈ ops.wireCut2 ∧ ops.onFace1 p = true := by
  unfold faceCandidates
  simp only [List.mem_append, List.mem_filter]

/-- The list is empty exactly if the faces have no common point. -/
theorem faces_empty (hx : ExactFaceOps L f g eps) (he : 0 < eps) :
    (pointIntersections (L.isk.faceOps f g eps) eps = [] ∧ edgeIntersections (L.isk.faceOps f g eps) = [] ∧
      (L.isk.faceOps f g eps).commonFaces = []) ↔ ∀ p ∈ f.points, p ∉ g.points := by
  constructor
  · rintro ⟨h1, h2, h3⟩ p hp hq
    rcases hx.covered p hp hq with h | ⟨e, he', _⟩ | h
    · exact h h3
    · have : e ∈ edgeIntersections (L.isk.faceOps f g eps) :=
        ((edgeIntersections_spec _).2 e).2 ⟨he', by rw [h3]; simp⟩
      rw [h2] at this
      cases this
    · obtain ⟨q, hq, _⟩ := pointIntersections_complete _ eps he p (candidate_mem.2 h)
      rw [h1] at hq
      rcases hq with hq | hq
      · unfold curIsPoints at hq
        rw [h2, h3] at hq
        cases hq
      · cases hq
  · intro h
    refine ⟨?_, ?_, ?_⟩
    · refine List.eq_nil_iff_forall_not_mem.2 fun p hp => ?_
      have := hx.points p (candidate_mem.1 ((pointIntersections_spec _ eps).2 p hp).1)
      exact h p this.1 this.2
    · refine List.eq_nil_iff_forall_not_mem.2 fun e he => ?_
      have he := (((edgeIntersections_spec _).2 e).1 he).1
      have := hx.edges e he _ (hx.ends e he).1
      exact h _ this.1 this.2
    · refine List.eq_nil_iff_forall_not_mem.2 fun k hk => ?_
      obtain ⟨a, _, _, _, ha⟩ := hx.faces k hk
      have := ha a (.inl rfl)
      exact h a this.1 this.2

/-- Faces in planes that are not parallel have no face in common. -/
theorem faces_parallel (hf : FlatFace L f n) (hg : FlatFace L g m) (hx : ExactFaceOps L f g eps) {k : ℕ}
    (hk : k ∈ (L.isk.faceOps f g eps).commonFaces) : Spec.Parallel n m := by
  obtain ⟨a, b, c, hc, hp⟩ := hx.faces k hk
  have hc' : (b - a).cross (c - a) ≠ 0 := fun h => hc ((collinear_iff_cross _ _ _).2 h)
  have ha := hp a (.inl rfl)
  have hb := hp b (.inr (.inl rfl))
  have hcc := hp c (.inr (.inr rfl))
  have perp : ∀ {s : Shape} {n : V3}, FlatFace L s n → a ∈ s.points → b ∈ s.points → c ∈ s.points →
      ∃ k : ℝ, n = k • (b - a).cross (c - a) := by
    intro s n hs h1 h2 h3
    have e1 := (Spec.onPlane_iff _ _ _).1 (hs.plane a h1 b h2)
    have e2 := (Spec.onPlane_iff _ _ _).1 (hs.plane a h1 c h3)
    rw [V3.dot_comm] at e1 e2
    exact perp_two e1 e2 hc'
  obtain ⟨k1, e1⟩ := perp hf ha.1 hb.1 hcc.1
  obtain ⟨k2, e2⟩ := perp hg ha.2 hb.2 hcc.2
  have hk1 : k1 ≠ 0 := by
    rintro rfl
    exact hf.normal (by rw [e1, zero_smul])
  refine .inl ⟨k2 / k1, ?_⟩
  rw [e1, smul_smul, div_mul_cancel₀ _ hk1, ← e2]

/-- The common points of faces in planes that are not parallel are on a line. -/
theorem faces_line (hf : FlatFace L f n) (hg : FlatFace L g m) (hnp : ¬ Spec.Parallel n m) {q p : V3}
    (hq : q ∈ f.points ∧ q ∈ g.points) (hp : p ∈ f.points ∧ p ∈ g.points) : Spec.OnLine q (n.cross m) p := by
  have e1 := (Spec.onPlane_iff _ _ _).1 (hf.plane q hq.1 p hp.1)
  have e2 := (Spec.onPlane_iff _ _ _).1 (hg.plane q hq.2 p hp.2)
  obtain ⟨k, hk⟩ := perp_two e1 e2 (cross_of_not_parallel hnp)
  exact (Spec.onLine_iff _ _ _).2 ⟨k, by rw [← hk]; abel⟩

/-- The angle that is computed is the angle between the planes. -/
theorem faces_angle (hf : FlatFace L f n) (hg : FlatFace L g m) (hx : ExactFaceOps L f g eps)
    (hne : intersectFaceFace (L.isk.faceOps f g eps) L.isk.ends eps ≠ [.empty]) :
    ∃ v, (libraryEngine L).angle (.shape f) (.shape g)
      (.list (intersectFaceFace (L.isk.faceOps f g eps) L.isk.ends eps)) = .val v ∧ Spec.IsPlaneAngle n m v := by
  rcases faceFace_list (L.isk.faceOps f g eps) L.isk.ends eps with h | ⟨hn, h⟩
  · exact absurd h.1 hne
  obtain ⟨θ, hθ, hpa, hle⟩ := flat_angle_at hf hg 0
  have at' : ∀ p, faceFaceAngleAt (L.surface f) (L.surface g) p = .val θ := by
    intro p
    obtain ⟨φ, h1, h2, _⟩ := flat_angle_at hf hg p
    rw [h1, planeAngle_unique h2 hpa]
  have hbig : θ ≤ doubleMax := by
    have := doubleMax_large
    have := Real.pi_le_four
    linarith
  have hall : ∀ x ∈ intersectFaceFace (L.isk.faceOps f g eps) L.isk.ends eps,
      intersectionAngle L.curves (.face (L.surface f)) (.face (L.surface g)) (.single x) = .val θ := by
    intro x hx'
    rcases (h x).1 hx' with ⟨p, _, rfl⟩ | ⟨k, _, rfl⟩ | ⟨k, hk, rfl⟩
    · exact at' p
    · show kernelEdgeAngle (faceFaceAngleAt (L.surface f) (L.surface g)) (L.curves k) = .val θ
      obtain ⟨v, hv, h1, h2, h3⟩ := minFold_val (fun t => faceFaceAngleAt (L.surface f) (L.surface g)
        ((L.curves k).value ((L.curves k).first + t * ((L.curves k).last - (L.curves k).first)))) (fun _ => θ) fiveParams
        (fun t _ => at' _) doubleMax
      have : v = θ := by
        rcases h3 with h3 | ⟨_, _, h3⟩
        · have := h2 0 (by simp [fiveParams])
          linarith
        · exact h3
      unfold kernelEdgeAngle minAngle
      rw [hv, this]
    · have h0 := planeAngle_unique hpa (planeAngle_parallel hf.normal hg.normal (faces_parallel hf hg hx hk))
      show Outcome.val 0 = Outcome.val θ
      rw [h0]
  obtain ⟨v, hv, _, x, hx', e⟩ := C53_list_minimum L.curves (.face (L.surface f)) (.face (L.surface g)) _ (fun _ => θ) hn
    (fun x hx' => ⟨hall x hx', hle⟩)
  refine ⟨v, hv, ?_⟩
  rw [e]; exact hpa

/-- Accepted faces fulfil the constraints. -/
theorem accepted_faces (hK : Faithful L.isk.shapes) (hB : BoundsContain L.isk.shapes) (hf : FlatFace L f n)
    (hg : FlatFace L g m) (hx : ExactFaceOps L f g eps) (he : 0 < eps) {c : Config}
    (hu : UsedEps L c (.shape f) (.shape g) eps) (hacc : AcceptBy (libraryEngine L) NotLess c (.shape f) (.shape g)) :
    Spec.FacesFulfilled c f.points g.points f.outer g.outer n m eps (faceTol L f) (faceTol L g) := by
  obtain ⟨r, hr, hacc⟩ := hacc
  have hi : intersect L.isk (.shape f) (.shape g) eps = .val (.geoms r) := used_intersect hu hr
  have disjoint : (∀ p ∈ f.points, p ∉ g.points) → Spec.CommonSegments f.points g.points eps [] := fun h =>
    ⟨(fun _ hs => by cases hs), fun p h1 h2 => absurd h2 (h p h1)⟩
  have apart : ∀ d, AtLeast ((libraryEngine L).distance (.shape f) (.shape g)) d →
      ∀ p ∈ f.points, ∀ q ∈ g.points, d ≤ Spec.dist p q := by
    rintro d ⟨x, hx, hdx⟩ p hp q hq
    exact hdx.trans ((C73_distance L.isk.shapes hK (.shape f) (.shape g) trivial trivial (fun h => h) x hx).1 p hp q hq)
  -- no intersection reported
  have none_case : r = .list [.empty] → (∀ p ∈ f.points, p ∉ g.points) →
      Spec.FacesFulfilled c f.points g.points f.outer g.outer n m eps (faceTol L f) (faceTol L g) := by
    intro hr0 hd
    refine ⟨fun d hmd _ => ?_, fun t _ ⟨p, h1, h2⟩ => absurd h2 (hd p h1), fun _ => ⟨[], disjoint hd, ?_, ?_⟩⟩
    · rcases hacc with ⟨_, h⟩ | ⟨h, _⟩
      · exact apart d (h d hmd)
      · exact absurd (by rw [hr0]; intro x hx; exact List.mem_singleton.1 hx) h
    · exact fun _ _ _ hs => by cases hs
    · exact fun _ _ _ hs => by cases hs
  rcases C77_faces L.isk hK hB f g hf.kind hg.kind hf.bounded hg.bounded eps he with h | ⟨hd, h⟩
  · rw [hi] at h
    have hr' : r = .list (intersectFaceFace (L.isk.faceOps f g eps) L.isk.ends eps) := by
      simpa using h
    rcases faceFace_list (L.isk.faceOps f g eps) L.isk.ends eps with ⟨h0, h1⟩ | ⟨hn, hmem⟩
    · exact none_case (by rw [hr', h0]) ((faces_empty hx he).1 h1)
    · have hne : intersectFaceFace (L.isk.faceOps f g eps) L.isk.ends eps ≠ [.empty] := by
        intro h0
        have := (hmem .empty).1 (by rw [h0]; simp)
        simp at this
      have hni : ¬ NoIntersection r := by
        intro h0
        obtain ⟨x, hx⟩ := List.exists_mem_of_ne_nil _ hn
        have := h0 x (by rw [hr']; exact hx)
        subst this
        have := (hmem .empty).1 hx
        simp at this
      rcases hacc with ⟨h0, _⟩ | ⟨_, _, hmag, hang, hbnd⟩
      · exact absurd h0 hni
      have hcommon : ¬ ∀ p ∈ f.points, p ∉ g.points := by
        intro h0
        obtain ⟨h1, h2, h3⟩ := (faces_empty hx he).2 h0
        obtain ⟨x, hx⟩ := List.exists_mem_of_ne_nil _ hn
        have := (hmem x).1 hx
        rw [h1, h2, h3] at this
        simp at this
      refine ⟨fun d _ h0 => absurd h0 hcommon, fun t ht _ θ hθ => ?_, fun hnp => ?_⟩
      · obtain ⟨v, hv, hpa⟩ := faces_angle hf hg hx hne
        have h0 := hang t ht
        rw [hr', hv] at h0
        rcases h0 with h0 | ⟨v', hv', htv⟩
        · cases h0
        · rw [← Outcome.val.inj hv', ← planeAngle_unique hθ hpa] at htv
          exact htv
      · have hcf : (L.isk.faceOps f g eps).commonFaces = [] :=
          List.eq_nil_iff_forall_not_mem.2 fun k hk => hnp (faces_parallel hf hg hx hk)
        have edge : ∀ e ∈ edgeIntersections (L.isk.faceOps f g eps),
            (∀ p, p ∈ edgePoints L e ↔ Spec.OnSegment (L.isk.ends e).1 (L.isk.ends e).2 p) ∧
            L.edgeLength e = Spec.dist (L.isk.ends e).1 (L.isk.ends e).2 := by
          intro e he'
          have he'' := (((edgeIntersections_spec _).2 e).1 he').1
          refine hx.straight e he'' ⟨(L.isk.ends e).1, n.cross m, fun p hp => ?_⟩
          exact faces_line hf hg hnp (hx.edges e he'' _ (hx.ends e he'').1) (hx.edges e he'' p hp)
        refine ⟨(pointIntersections (L.isk.faceOps f g eps) eps).map (fun p => (p, p)) ++
          (edgeIntersections (L.isk.faceOps f g eps)).map L.isk.ends, ⟨?_, ?_⟩, ?_, ?_⟩
        · intro s hs p hp
          rcases List.mem_append.1 hs with hs | hs
          · obtain ⟨q, hq, rfl⟩ := List.mem_map.1 hs
            obtain rfl : p = q := by
              obtain ⟨t, _, _, rfl⟩ := (Spec.onSegment_iff _ _ _).1 hp
              simp
            exact hx.points p (candidate_mem.1 ((pointIntersections_spec _ eps).2 p hq).1)
          · obtain ⟨e, he', rfl⟩ := List.mem_map.1 hs
            exact hx.edges e (((edgeIntersections_spec _).2 e).1 he').1 p (((edge e he').1 p).2 hp)
        · intro p h1 h2
          rcases hx.covered p h1 h2 with h | ⟨e, he', hp⟩ | h
          · exact absurd hcf h
          · have hei : e ∈ edgeIntersections (L.isk.faceOps f g eps) :=
              ((edgeIntersections_spec _).2 e).2 ⟨he', by rw [hcf]; simp⟩
            exact ⟨_, List.mem_append_right _ (List.mem_map_of_mem hei), p, ((edge e hei).1 p).1 hp,
              by rw [dist_self_zero]; exact he⟩
          · obtain ⟨q, hq, hqe⟩ := pointIntersections_complete _ eps he p (candidate_mem.2 h)
            have hd : Spec.dist p q < eps := by
              unfold pointIsEqual at hqe
              rw [Spec.dist_eq_len]
              rw [← V3.len_mul_self] at hqe
              exact lt_of_mul_self_lt_mul_self₀ he.le hqe
            rcases hq with hq | hq
            · unfold curIsPoints at hq
              rw [hcf] at hq
              obtain ⟨e, hei, hv⟩ := List.mem_flatMap.1 (by simpa using hq)
              have he' := (((edgeIntersections_spec _).2 e).1 hei).1
              exact ⟨_, List.mem_append_right _ (List.mem_map_of_mem hei), q,
                ((edge e hei).1 q).1 ((hx.ends e he').2.2 q hv), hd⟩
            · exact ⟨(q, q), List.mem_append_left _ (List.mem_map.2 ⟨q, hq, rfl⟩), q, segment_source _ _, hd⟩
        · intro l hl s hs hne'
          rcases List.mem_append.1 hs with hs | hs
          · obtain ⟨q, _, rfl⟩ := List.mem_map.1 hs
            exact absurd rfl hne'
          · obtain ⟨e, hei, rfl⟩ := List.mem_map.1 hs
            obtain ⟨v, hv, hlv⟩ := hmag l hl (.edge e (L.isk.ends e).1 (L.isk.ends e).2)
              (by rw [hr']; exact (hmem _).2 (.inr (.inl ⟨e, hei, rfl⟩))) (.inl (.inr (.inr (.inr ⟨_, _, _, rfl⟩))))
            have hv : Outcome.val (L.edgeLength e) = .val v := hv
            rw [← Outcome.val.inj hv, (edge e hei).2] at hlv
            exact hlv
        · intro b hb s hs x hxs
          rcases List.mem_append.1 hs with hs | hs
          · obtain ⟨q, hq, rfl⟩ := List.mem_map.1 hs
            obtain ⟨b1, b2⟩ := hbnd b hb (.point q) (by rw [hr']; exact (hmem _).2 (.inl ⟨q, hq, rfl⟩))
            obtain rfl : x = q := by rcases hxs with h | h <;> exact h
            exact ⟨face_point_ok hK hf.kind b1, face_point_ok hK hg.kind b2⟩
          · obtain ⟨e, hei, rfl⟩ := List.mem_map.1 hs
            obtain ⟨b1, b2⟩ := hbnd b hb (.edge e (L.isk.ends e).1 (L.isk.ends e).2)
              (by rw [hr']; exact (hmem _).2 (.inr (.inl ⟨e, hei, rfl⟩)))
            rcases hxs with rfl | rfl
            · exact ⟨face_point_ok hK hf.kind b1.1, face_point_ok hK hg.kind b2.1⟩
            · exact ⟨face_point_ok hK hf.kind b1.2, face_point_ok hK hg.kind b2.2⟩
  · rw [hi] at h
    exact none_case (by simpa using h) hd

end

end Props
