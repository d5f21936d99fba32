import Verif.Props.AcceptedFaces
import Verif.Props.ExactLibrary
import Verif.Props.GeneratedExample

/-!
# C134 Accepted faces fulfil the constraints geometrically: the property and an example
-/

namespace Props
open Verif Frackit
open Spec.Constraints (config Config parts NoIntersection AtLeast PointOk AcceptBy NotLess BoundaryOkBy IsCurve IsSurface
  DimAtMost)
open Frackit.Constraints (Op run evaluate)

/-! ## C134 Accepted faces fulfil the constraints geometrically -/

/-- After any configuration history with at least one constraint configured, and with a library, the operations of which
are exact: two plane faces that are accepted fulfil the constraints. -/
theorem C134_accepted_faces (L : LibraryKernel) (hK : Faithful L.isk.shapes) (hB : BoundsContain L.isk.shapes)
    (ops : List Op) (hact : ¬ (config ops.reverse).Inactive) (f g : Shape) (n m : V3) (eps : ℝ)
    (hf : FlatFace L f n) (hg : FlatFace L g m) (hx : ExactFaceOps L f g eps) (he : 0 < eps)
    (hu : UsedEps L (config ops.reverse) (.shape f) (.shape g) eps)
    (hacc : evaluate (libraryEngine L) (run ops) (.shape f) (.shape g) = .val true) :
    Spec.FacesFulfilled (config ops.reverse) f.points g.points f.outer g.outer n m eps (faceTol L f) (faceTol L g) :=
  accepted_faces hK hB hf hg hx he hu ((C35_accepts_exact (libraryEngine L) ops _ _ hact).1 hacc)

/-! ### Example -/

/-- A library with given results of the operations with faces. -/
noncomputable def faceLibrary (ops : FaceFaceOps) (ends : ℕ → V3 × V3) (curves : ℕ → CurveGeom)
    (surface : Shape → SurfaceGeom) (length : ℕ → ℝ) (K : ShapeKernel := boundedKernel) : LibraryKernel where
  isk := { exactIsKernel with shapes := K, faceOps := fun _ _ _ => ops, ends := ends }
  curves := curves
  surface := surface
  arcLength _ := 0
  edgeLength := length
  faceArea _ := 0

/-- Edges as the only results. -/
def edgeOps (es : List ℕ) (vertices : ℕ → List V3) : FaceFaceOps :=
  ⟨[], es, fun _ _ => false, vertices, fun _ => [], [], [], fun _ => false, fun _ => false⟩

theorem bounded_setDist {s t : Shape} (hs : s.points.Nonempty) (ht : t.points.Nonempty) :
    ∃ d, boundedKernel.extrema s t = some d ∧ Spec.SetDist s.points t.points d := by
  obtain ⟨d, hd⟩ := bounded_extrema hs ht
  refine ⟨d, hd, ?_⟩
  obtain ⟨d', hd', h⟩ := ideal_extrema hs ht
  have : distShapes idealKernel s t = .val d := by
    unfold distShapes
    rw [show idealKernel.extrema s t = some d from hd]
    rfl
  rw [this] at hd'
  rw [Outcome.val.inj hd']
  exact h

theorem len_pos_of_box {b : Box} {p q : V3} (hp : Spec.InBox (Box.lo b) (Box.hi b) p)
    (hq : Spec.InBox (Box.lo b) (Box.hi b) q) (h : p ≠ q) :
    0 < ((⟨b.xMax, b.yMax, b.zMax⟩ : V3) - ⟨b.xMin, b.yMin, b.zMin⟩).len := by
  refine V3.len_pos.2 fun h0 => h ?_
  have hx := congrArg V3.x h0
  have hy := congrArg V3.y h0
  have hz := congrArg V3.z h0
  simp only [V3.sub_x, V3.sub_y, V3.sub_z, V3.zero_x, V3.zero_y, V3.zero_z] at hx hy hz
  simp only [Spec.InBox, Box.lo, Box.hi] at hp hq
  ext <;> linarith [hp.1, hp.2, hq.1, hq.2]

variable {L : LibraryKernel}

theorem faceTol_pos (hL : BoundsContain L.isk.shapes) {s : Shape} (hb : InSomeBox s.outer) {p q : V3}
    (hp : p ∈ s.outer) (hq : q ∈ s.outer) (h : p ≠ q) : 0 < faceTol L s := by
  have h1 := hL (s.boundary .wire) hb p hp
  have h2 := hL (s.boundary .wire) hb q hq
  unfold faceTol
  exact mul_pos (len_pos_of_box h1 h2 h) confusion_pos

/-- A point on the outer wire, or far enough from it. -/
theorem bounded_point_ok (hv : L.isk.shapes.vertex = boundedKernel.vertex)
    (hL : L.isk.shapes.extrema = boundedKernel.extrema) {s : Shape} (hs : s.kind = .face) (ht : 0 < faceTol L s)
    (hne : s.outer.Nonempty) {t : ℝ} {p : V3} (h : p ∈ s.outer ∨ ∀ q ∈ s.outer, t ≤ Spec.dist p q) :
    PointOk (libraryEngine L) (.shape s) t p := by
  obtain ⟨d, hd, hset⟩ := bounded_setDist (s := ⟨.vertex, {p}, ∅⟩) (t := s.boundary .wire) ⟨p, rfl⟩ hne
  have hdist : computeDistance L.isk.shapes (.geom (.point p)) (.shape (s.boundary .wire)) = .val d := by
    show (doneOr _ (L.isk.shapes.vertex p) >>= fun s1 => doneOr _ (L.isk.shapes.extrema s1 (s.boundary .wire))) = _
    rw [hv, hL]
    show doneOr _ (boundedKernel.extrema ⟨.vertex, {p}, ∅⟩ (s.boundary .wire)) = _
    rw [hd]; rfl
  have hbd : (libraryEngine L).boundaryDist p (.shape s) = .val d := by
    show (if s.kind = .face then (getShape L.isk.shapes (.geom (.point p)) >>=
      fun s' => distShapes L.isk.shapes s' (s.boundary .wire)) else _) = _
    rw [if_pos hs]
    show (doneOr _ (L.isk.shapes.vertex p) >>= fun s1 => doneOr _ (L.isk.shapes.extrema s1 (s.boundary .wire))) = _
    rw [hv, hL]
    show doneOr _ (boundedKernel.extrema ⟨.vertex, {p}, ∅⟩ (s.boundary .wire)) = _
    rw [hd]; rfl
  have hon : ∀ b, decide (d < faceTol L s) = b → (libraryEngine L).onBoundary p (.shape s) = .val b := by
    classical
    intro b hb
    show (if s.kind = .face then pointOnGeometry L.isk.shapes p (.shape (s.boundary .wire)) (faceTol L s)
      else .thrown "Point on boundary not implemented") = .val b
    rw [if_pos hs]
    unfold pointOnGeometry
    rw [hdist]
    show Outcome.val (decide (d < faceTol L s)) = _
    rw [← hb]
  by_cases hlt : d < faceTol L s
  · exact .inl (hon true (by simp [hlt]))
  · right
    refine ⟨hon false (by simp [hlt]), d, hbd, ?_⟩
    rcases h with h | h
    · exfalso
      apply hlt
      have := hset.1 p rfl p h
      rw [dist_self_zero] at this
      linarith
    · by_contra hc
      obtain ⟨p', hp', q, hq, hpq⟩ := hset.2 (t - d) (by linarith)
      rw [show p' = p from hp'] at hpq
      have := h q hq
      linarith

open Classical in
/-- Faces that meet in edges are accepted if the edges are long enough, the angles are large enough, and the ends are on
the outer wires or far enough from them. -/
theorem accept_edges_of {es : List ℕ} {vs : ℕ → List V3} {f g : Shape} (hes : es ≠ []) {c : Config} {e : ℝ}
    (hi : (libraryEngine L).intersect (.shape f) (.shape g) c.eps =
      .val (.list (intersectFaceFace (edgeOps es vs) L.isk.ends e)))
    (hlen : ∀ l, c.minMagnitude = some l → ∀ k ∈ es, l ≤ L.edgeLength k)
    (hang : ∀ k ∈ es, ∃ θ, intersectionAngle L.curves (.face (L.surface f)) (.face (L.surface g))
      (.single (.edge k (L.isk.ends k).1 (L.isk.ends k).2)) = .val θ ∧ θ ≤ Real.pi / 2 ∧ ∀ t, c.minAngle = some t → t ≤ θ)
    (hbnd : ∀ b, c.minBoundaryDistance = some b → ∀ k ∈ es, ∀ x, x = (L.isk.ends k).1 ∨ x = (L.isk.ends k).2 →
      PointOk (libraryEngine L) (.shape f) b x ∧ PointOk (libraryEngine L) (.shape g) b x) :
    AcceptBy (libraryEngine L) NotLess c (.shape f) (.shape g) := by
  have hei : ∀ k, k ∈ edgeIntersections (edgeOps es vs) ↔ k ∈ es := by
    intro k
    rw [(edgeIntersections_spec _).2 k]
    simp [edgeOps]
  have hpi : pointIntersections (edgeOps es vs) e = [] := rfl
  obtain ⟨k0, hk0⟩ := List.exists_mem_of_ne_nil _ hes
  rcases faceFace_list (edgeOps es vs) L.isk.ends e with ⟨_, _, h, _⟩ | ⟨hn, hmem⟩
  · exact absurd ((hei k0).2 hk0) (by rw [h]; simp)
  have hmem : ∀ x, x ∈ intersectFaceFace (edgeOps es vs) L.isk.ends e ↔ ∃ k ∈ es, x = .edge k (L.isk.ends k).1 (L.isk.ends k).2 := by
    intro x
    rw [hmem, hpi]
    constructor
    · rintro (⟨p, hp, _⟩ | ⟨k, hk, rfl⟩ | ⟨k, hk, _⟩)
      · cases hp
      · exact ⟨k, (hei k).1 hk, rfl⟩
      · cases hk
    · rintro ⟨k, hk, rfl⟩
      exact .inr (.inl ⟨k, (hei k).2 hk, rfl⟩)
  refine ⟨.list (intersectFaceFace (edgeOps es vs) L.isk.ends e), hi, .inr ⟨?_, ?_, ?_, ?_, ?_⟩⟩
  · intro h
    have := h _ ((hmem _).2 ⟨k0, hk0, rfl⟩)
    cases this
  · intro _ x hx
    obtain ⟨k, _, rfl⟩ := (hmem x).1 hx
    show DimAtMost _ 1
    exact ⟨by norm_num, fun _ => le_refl _, by simp [IsSurface]⟩
  · intro l hl x hx _
    obtain ⟨k, hk, rfl⟩ := (hmem x).1 hx
    exact ⟨L.edgeLength k, rfl, hlen l hl k hk⟩
  · intro t ht
    have hall : ∀ x ∈ intersectFaceFace (edgeOps es vs) L.isk.ends e, ∃ θ, intersectionAngle L.curves (.face (L.surface f))
        (.face (L.surface g)) (.single x) = .val θ ∧ θ ≤ Real.pi / 2 ∧ t ≤ θ := by
      intro x hx
      obtain ⟨k, hk, rfl⟩ := (hmem x).1 hx
      obtain ⟨θ, h1, h2, h3⟩ := hang k hk
      exact ⟨θ, h1, h2, h3 t ht⟩
    let φ : IsGeom → ℝ := fun x => if h : x ∈ intersectFaceFace (edgeOps es vs) L.isk.ends e then (hall x h).choose else 0
    have hφ : ∀ x ∈ intersectFaceFace (edgeOps es vs) L.isk.ends e, intersectionAngle L.curves (.face (L.surface f))
        (.face (L.surface g)) (.single x) = .val (φ x) ∧ φ x ≤ Real.pi / 2 ∧ t ≤ φ x := by
      intro x hx
      have : φ x = (hall x hx).choose := dif_pos hx
      rw [this]
      exact (hall x hx).choose_spec
    obtain ⟨v, hv, _, x, hx, e⟩ := C53_list_minimum L.curves (.face (L.surface f)) (.face (L.surface g)) _ φ hn
      (fun x hx => ⟨(hφ x hx).1, (hφ x hx).2.1⟩)
    refine .inr ⟨v, hv, ?_⟩
    rw [e]
    exact (hφ x hx).2.2
  · intro b hb x hx
    obtain ⟨k, hk, rfl⟩ := (hmem x).1 hx
    have h1 := hbnd b hb k hk _ (.inl rfl)
    have h2 := hbnd b hb k hk _ (.inr rfl)
    exact ⟨⟨h1.1, h2.1⟩, ⟨h1.2, h2.2⟩⟩

/-- The same for a library with given results. -/
theorem accept_edges {es : List ℕ} {vs : ℕ → List V3} {ends : ℕ → V3 × V3} {curves : ℕ → CurveGeom}
    {surface : Shape → SurfaceGeom} {length : ℕ → ℝ} {K : ShapeKernel} (hK : Faithful K) (hB : BoundsContain K) {f g : Shape} (hf : f.kind = .face) (hg : g.kind = .face)
    (bf : InSomeBox f.points) (bg : InSomeBox g.points) (hes : es ≠ []) (hc : ∃ p ∈ f.points, p ∈ g.points)
    {c : Config} {e : ℝ} (he : 0 < e) (heps : c.eps = some e)
    (hlen : ∀ l, c.minMagnitude = some l → ∀ k ∈ es, l ≤ length k)
    (hang : ∀ k ∈ es, ∃ θ, intersectionAngle curves (.face (surface f)) (.face (surface g))
      (.single (.edge k (ends k).1 (ends k).2)) = .val θ ∧ θ ≤ Real.pi / 2 ∧ ∀ t, c.minAngle = some t → t ≤ θ)
    (hbnd : ∀ b, c.minBoundaryDistance = some b → ∀ k ∈ es, ∀ x, x = (ends k).1 ∨ x = (ends k).2 →
      PointOk (libraryEngine (faceLibrary (edgeOps es vs) ends curves surface length K)) (.shape f) b x ∧
      PointOk (libraryEngine (faceLibrary (edgeOps es vs) ends curves surface length K)) (.shape g) b x) :
    AcceptBy (libraryEngine (faceLibrary (edgeOps es vs) ends curves surface length K)) NotLess c (.shape f) (.shape g) := by
  refine accept_edges_of (vs := vs) (e := e) hes ?_ hlen hang hbnd
  rw [heps]
  show (intersect (faceLibrary (edgeOps es vs) ends curves surface length K).isk (.shape f) (.shape g) e >>=
    fun r => r.toResult) = _
  rcases C77_faces (faceLibrary (edgeOps es vs) ends curves surface length K).isk hK
    hB f g hf hg bf bg e he with h | ⟨h, _⟩
  · rw [h]; rfl
  · obtain ⟨p, h1, h2⟩ := hc
    exact absurd h2 (h p h1)

/-- A vertical face with a notch. -/
def notched : Shape where
  kind := .face
  points := {p | p.y = 0 ∧ (0 ≤ p.x ∧ p.x ≤ 4) ∧ (-1 ≤ p.z ∧ p.z ≤ 1) ∧ (p.z ≤ -1 / 2 ∨ p.x ≤ 1 ∨ 3 ≤ p.x)}
  outer := {p | p.y = 0 ∧ (0 ≤ p.x ∧ p.x ≤ 4) ∧ (-1 ≤ p.z ∧ p.z ≤ 1) ∧ (p.z ≤ -1 / 2 ∨ p.x ≤ 1 ∨ 3 ≤ p.x) ∧
    (p.x = 0 ∨ p.x = 4 ∨ p.z = -1 ∨ p.z = 1 ∨ (p.x = 1 ∧ -1 / 2 ≤ p.z) ∨ (p.x = 3 ∧ -1 / 2 ≤ p.z) ∨
      (p.z = -1 / 2 ∧ 1 ≤ p.x ∧ p.x ≤ 3))}

/-- A horizontal rectangle. -/
def floorFace : Shape where
  kind := .face
  points := {p | p.z = 0 ∧ (-1 ≤ p.x ∧ p.x ≤ 5) ∧ (-1 ≤ p.y ∧ p.y ≤ 1)}
  outer := {p | p.z = 0 ∧ (-1 ≤ p.x ∧ p.x ≤ 5) ∧ (-1 ≤ p.y ∧ p.y ≤ 1) ∧ (p.x = -1 ∨ p.x = 5 ∨ p.y = -1 ∨ p.y = 1)}

/-- The ends of the two segments in which the faces meet. -/
def notchEnds (e : ℕ) : V3 × V3 := (⟨3 * e, 0, 0⟩, ⟨3 * e + 1, 0, 0⟩)

noncomputable def notchCurves (e : ℕ) : CurveGeom := ⟨0, 1, fun t => ⟨3 * e + t, 0, 0⟩⟩

open Classical in
/-- The planes of the faces. -/
noncomputable def notchSurface (s : Shape) : SurfaceGeom :=
  ⟨fun _ => (0, 0), fun _ => 0, fun _ _ => if (⟨0, 1, 0⟩ : V3) ∈ s.points then (⟨1, 0, 0⟩, ⟨0, 1, 0⟩) else
    (⟨1, 0, 0⟩, ⟨0, 0, 1⟩)⟩

noncomputable def notchLibrary : LibraryKernel :=
  faceLibrary (edgeOps [0, 1] (fun e => [(notchEnds e).1, (notchEnds e).2])) notchEnds notchCurves notchSurface
    (fun _ => 1)

theorem notched_flat : FlatFace notchLibrary notched ⟨0, 1, 0⟩ where
  kind := rfl
  bounded := ⟨⟨0, 0, -1⟩, ⟨4, 0, 1⟩, fun p ⟨h1, h2, h3, _⟩ => ⟨h2.1, h2.2, h1.ge, h1.le, h3⟩⟩
  normal h := by have := congrArg V3.y h; simp at this
  plane p hp q hq := by
    have h1 : p.y = 0 := hp.1
    have h2 : q.y = 0 := hq.1
    simp [Spec.OnPlane, h1, h2]
  surface u v := ⟨-1, by norm_num, by
    show V3.cross ((notchSurface notched).d1 u v).1 ((notchSurface notched).d1 u v).2 = _
    unfold notchSurface
    simp only
    have : ¬ (⟨0, 1, 0⟩ : V3) ∈ notched.points := fun h => by have : (1 : ℝ) = 0 := h.1; norm_num at this
    rw [if_neg this]
    ext <;> simp [V3.cross]⟩

theorem floor_flat : FlatFace notchLibrary floorFace ⟨0, 0, 1⟩ where
  kind := rfl
  bounded := ⟨⟨-1, -1, 0⟩, ⟨5, 1, 0⟩, fun p ⟨h1, h2, h3⟩ => ⟨h2.1, h2.2, h3.1, h3.2, h1.ge, h1.le⟩⟩
  normal h := by have := congrArg V3.z h; simp at this
  plane p hp q hq := by
    have h1 : p.z = 0 := hp.1
    have h2 : q.z = 0 := hq.1
    simp [Spec.OnPlane, h1, h2]
  surface u v := ⟨1, by norm_num, by
    show V3.cross ((notchSurface floorFace).d1 u v).1 ((notchSurface floorFace).d1 u v).2 = _
    unfold notchSurface
    simp only
    have : (⟨0, 1, 0⟩ : V3) ∈ floorFace.points := by
      refine ⟨rfl, ⟨?_, ?_⟩, ⟨?_, ?_⟩⟩ <;> norm_num
    rw [if_pos this]
    ext <;> simp [V3.cross]⟩

theorem notch_edge (e : ℕ) (p : V3) : p ∈ edgePoints notchLibrary e ↔ p.y = 0 ∧ p.z = 0 ∧ 3 * e ≤ p.x ∧ p.x ≤ 3 * e + 1 := by
  constructor
  · rintro ⟨t, h0, h1, rfl⟩
    have h0 : 0 ≤ t := h0
    have h1 : t ≤ 1 := h1
    refine ⟨rfl, rfl, ?_, ?_⟩ <;> simp [notchLibrary, faceLibrary, notchCurves, h0, h1]
  · rintro ⟨h1, h2, h3, h4⟩
    refine ⟨p.x - 3 * e, sub_nonneg.2 h3, show p.x - 3 * e ≤ 1 by linarith, ?_⟩
    ext <;> simp [notchLibrary, faceLibrary, notchCurves, h1, h2]

theorem notch_exact : ExactFaceOps notchLibrary notched floorFace (1 / 10) where
  faces k hk := by cases hk
  edges e he p hp := by
    obtain ⟨h1, h2, h3, h4⟩ := (notch_edge e p).1 hp
    have he : e ∈ [0, 1] := he
    simp only [List.mem_cons, List.not_mem_nil, or_false] at he
    rcases he with rfl | rfl <;> norm_num at h3 h4
    · exact ⟨⟨h1, ⟨h3, by linarith⟩, by rw [h2]; norm_num, .inr (.inl h4)⟩, h2, ⟨by linarith, by linarith⟩, by
        rw [h1]; norm_num⟩
    · exact ⟨⟨h1, ⟨by linarith, by linarith⟩, by rw [h2]; norm_num, .inr (.inr h3)⟩, h2,
        ⟨by linarith, by linarith⟩, by rw [h1]; norm_num⟩
  ends e _ := by
    have h1 : (notchEnds e).1 ∈ edgePoints notchLibrary e := (notch_edge e _).2 ⟨rfl, rfl, le_refl _, by simp [notchEnds]⟩
    have h2 : (notchEnds e).2 ∈ edgePoints notchLibrary e := (notch_edge e _).2 ⟨rfl, rfl, by simp [notchEnds], le_refl _⟩
    refine ⟨h1, h2, fun v hv => ?_⟩
    have hv : v ∈ [(notchEnds e).1, (notchEnds e).2] := hv
    simp only [List.mem_cons, List.not_mem_nil, or_false] at hv
    rcases hv with rfl | rfl
    · exact h1
    · exact h2
  straight e _ _ := by
    refine ⟨fun p => ?_, ?_⟩
    · rw [notch_edge, Spec.onSegment_iff]
      constructor
      · rintro ⟨h1, h2, h3, h4⟩
        refine ⟨p.x - 3 * e, sub_nonneg.2 h3, by linarith, ?_⟩
        ext <;> simp [notchLibrary, faceLibrary, notchEnds, h1, h2]
      · rintro ⟨t, h0, h1, rfl⟩
        simp [notchLibrary, faceLibrary, notchEnds, h0, h1]
    · show (1 : ℝ) = Spec.dist ⟨3 * e, 0, 0⟩ ⟨3 * e + 1, 0, 0⟩
      simp [Spec.dist]
  points p h := by rcases h with ⟨h, _⟩ | ⟨h, _⟩ <;> cases h
  covered p hp hq := by
    right; left
    have hz : p.z = 0 := hq.1
    obtain ⟨hy, ⟨h0, h4⟩, _, h⟩ := hp
    rw [hz] at h
    rcases h with h | h | h
    · norm_num at h
    · exact ⟨0, by simp [notchLibrary, faceLibrary, edgeOps], (notch_edge 0 p).2 ⟨hy, hz, by simpa using h0, by simpa using h⟩⟩
    · exact ⟨1, by simp [notchLibrary, faceLibrary, edgeOps], (notch_edge 1 p).2 ⟨hy, hz, by simpa using h, by
        push_cast; linarith⟩⟩

/-- All constraints. -/
noncomputable def allOps : List Op := [.setIntersectionEpsilon (1 / 10), .setMinIntersectionDistance 1, .setMinIntersectionMagnitude 1,
  .setMinIntersectingAngle 1, .setMinDistance 1]

theorem notch_point (e : ℕ) (he : e ∈ [0, 1]) (x : V3) (hx : x = (notchEnds e).1 ∨ x = (notchEnds e).2) :
    PointOk (libraryEngine notchLibrary) (.shape notched) 1 x ∧ PointOk (libraryEngine notchLibrary) (.shape floorFace) 1 x := by
  have hx : x.y = 0 ∧ x.z = 0 ∧ (x.x = 0 ∨ x.x = 1 ∨ x.x = 3 ∨ x.x = 4) := by
    simp only [List.mem_cons, List.not_mem_nil, or_false] at he
    rcases he with rfl | rfl <;> rcases hx with rfl | rfl <;> norm_num [notchEnds]
  have o1 : (⟨0, 0, 0⟩ : V3) ∈ notched.outer := by
    refine ⟨rfl, ⟨?_, ?_⟩, ⟨?_, ?_⟩, ?_, .inl rfl⟩ <;> norm_num
  have o2 : (⟨4, 0, 0⟩ : V3) ∈ notched.outer := by
    refine ⟨rfl, ⟨?_, ?_⟩, ⟨?_, ?_⟩, ?_, .inr (.inl rfl)⟩ <;> norm_num
  have f1 : (⟨-1, 0, 0⟩ : V3) ∈ floorFace.outer := by
    refine ⟨rfl, ⟨?_, ?_⟩, ⟨?_, ?_⟩, .inl rfl⟩ <;> norm_num
  have f2 : (⟨5, 0, 0⟩ : V3) ∈ floorFace.outer := by
    refine ⟨rfl, ⟨?_, ?_⟩, ⟨?_, ?_⟩, .inr (.inl rfl)⟩ <;> norm_num
  have b1 : InSomeBox notched.outer := ⟨⟨0, 0, -1⟩, ⟨4, 0, 1⟩, fun p ⟨h1, h2, h3, _⟩ => ⟨h2.1, h2.2, h1.ge, h1.le, h3⟩⟩
  have b2 : InSomeBox floorFace.outer := ⟨⟨-1, -1, 0⟩, ⟨5, 1, 0⟩, fun p ⟨h1, h2, h3, _⟩ => ⟨h2.1, h2.2, h3.1, h3.2, h1.ge, h1.le⟩⟩
  refine ⟨bounded_point_ok rfl rfl rfl (faceTol_pos boundedKernel_contains b1 o1 o2 (by simp)) ⟨_, o1⟩ (.inl ?_),
    bounded_point_ok rfl rfl rfl (faceTol_pos boundedKernel_contains b2 f1 f2 (by norm_num)) ⟨_, f1⟩ (.inr fun q hq => ?_)⟩
  · obtain ⟨h1, h2, h3⟩ := hx
    refine ⟨h1, ?_, by rw [h2]; norm_num, ?_, ?_⟩
    · rcases h3 with h | h | h | h <;> rw [h] <;> norm_num
    · rcases h3 with h | h | h | h <;> rw [h] <;> norm_num
    · rcases h3 with h | h | h | h <;> rw [h, h2] <;> norm_num
  · obtain ⟨h1, h2, h3⟩ := hx
    obtain ⟨_, _, _, h⟩ := hq
    have hc := coord_dist x q
    rcases h with h | h | h | h
    · have := (le_abs_self _).trans hc.1
      rcases h3 with h' | h' | h' | h' <;> rw [h, h'] at this <;> linarith
    · have := (neg_le_abs _).trans hc.1
      rcases h3 with h' | h' | h' | h' <;> rw [h, h'] at this <;> linarith
    · have := hc.2.1
      rw [h, h1] at this
      norm_num at this
      exact this
    · have := hc.2.1
      rw [h, h1] at this
      norm_num at this
      exact this

/-- The faces are accepted. -/
theorem notch_accepted : evaluate (libraryEngine notchLibrary) (run allOps) (.shape notched) (.shape floorFace) = .val true := by
  have hact : ¬ (config allOps.reverse).Inactive := by
    rintro ⟨h, _⟩
    cases h
  refine (C35_accepts_exact (libraryEngine notchLibrary) _ _ _ hact).2 ?_
  refine accept_edges boundedKernel_faithful boundedKernel_contains rfl rfl notched_flat.bounded floor_flat.bounded (by simp) ⟨⟨0, 0, 0⟩, ?_, ?_⟩
    (e := 1 / 10) (by norm_num) rfl ?_ ?_ ?_
  · refine ⟨rfl, ⟨?_, ?_⟩, ⟨?_, ?_⟩, ?_⟩ <;> norm_num
  · refine ⟨rfl, ⟨?_, ?_⟩, ⟨?_, ?_⟩⟩ <;> norm_num
  · intro l hl k _
    obtain rfl : (1 : ℝ) = l := Option.some.inj hl
    exact le_refl _
  · intro k _
    obtain ⟨θ, h1, ⟨t, _, _, h2⟩, _⟩ := C53_edge_samples notchCurves (.face (notchSurface notched)) (.face (notchSurface floorFace))
      k (notchEnds k).1 (notchEnds k).2 (fun _ => Real.pi / 2) (.inl ⟨_, _, rfl, rfl⟩) (by simp [notchCurves]) (by
        intro t _ _
        obtain ⟨θ, h1, h2, _⟩ := flat_angle_at notched_flat floor_flat ((notchCurves k).value t)
        have : θ = Real.pi / 2 := by
          unfold Spec.IsPlaneAngle Spec.vecAngle at h2
          rw [h2]
          simp [Spec.inner]
          linarith
        rw [← this]
        exact h1)
    refine ⟨θ, h1, h2.le, fun t ht => ?_⟩
    obtain rfl : (1 : ℝ) = t := Option.some.inj ht
    rw [h2]
    have := Real.two_le_pi
    linarith
  · intro b hb k hk x hx
    obtain rfl : (1 : ℝ) = b := Option.some.inj hb
    exact notch_point k hk x hx

/-- Non-trivial instance: all constraints; the faces meet in two segments. -/
example : Spec.FacesFulfilled (config allOps.reverse) notched.points floorFace.points notched.outer floorFace.outer
    ⟨0, 1, 0⟩ ⟨0, 0, 1⟩ (1 / 10) (faceTol notchLibrary notched) (faceTol notchLibrary floorFace) :=
  C134_accepted_faces notchLibrary boundedKernel_faithful boundedKernel_contains allOps (by rintro ⟨h, _⟩; cases h)
    _ _ _ _ _ notched_flat floor_flat notch_exact (by norm_num) (.inl rfl) notch_accepted

end Props
