import Verif.Props.AcceptedFaceExamples
import Verif.Spec.FaceBoundary

/-!
# C136 Holes of faces
-/

namespace Props
open Verif Frackit
open Spec.Constraints (config Config parts NoIntersection AtLeast PointOk AcceptBy NotLess)
open Frackit.Constraints (Op run evaluate)

/-! ## C136 Intersections of accepted faces end on the boundaries or keep their distance to them -/

/-- The ends of the edge are on the boundaries of the faces (up to the tolerances), or far enough from them. -/
def EndsOk (L : LibraryKernel) (f g : Shape) (n m : V3) (b : ℝ) (p : V3) : Prop :=
  Spec.OnOrAway (Spec.FaceBoundary f.points n) b (faceTol L f) 0 p ∧
  Spec.OnOrAway (Spec.FaceBoundary g.points m) b (faceTol L g) 0 p

/-- The full claim: with a library, the operations of which are exact, the edges in which two accepted plane faces meet
end on the boundaries of the faces or far enough from them, and likewise for the points in which they meet. -/
def C136_full : Prop :=
  ∀ (L : LibraryKernel), Faithful L.isk.shapes → BoundsContain L.isk.shapes → ∀ (ops : List Op) (f g : Shape)
    (n m : V3) (eps b : ℝ), FlatFace L f n → FlatFace L g m → f.outer ⊆ Spec.FaceBoundary f.points n →
    g.outer ⊆ Spec.FaceBoundary g.points m → 0 < eps → UsedEps L (config ops.reverse) (.shape f) (.shape g) eps →
    (config ops.reverse).minBoundaryDistance = some b →
    evaluate (libraryEngine L) (run ops) (.shape f) (.shape g) = .val true →
    ∀ l, intersect L.isk (.shape f) (.shape g) eps = .val (.geoms (.list l)) →
      (∀ p, .point p ∈ l → EndsOk L f g n m b p) ∧
      ∀ e x y, .edge e x y ∈ l → EndsOk L f g n m b x ∧ EndsOk L f g n m b y

/-- The claim holds for faces without holes: the outer wire is the boundary (missing: faces with holes, see
`C136_disproof`). -/
theorem C136_no_holes_partial (L : LibraryKernel) (hK : Faithful L.isk.shapes) (ops : List Op) (f g : Shape)
    (n m : V3) (eps b : ℝ) (hf : f.kind = .face) (hg : g.kind = .face) (of : f.outer = Spec.FaceBoundary f.points n)
    (og : g.outer = Spec.FaceBoundary g.points m) (hu : UsedEps L (config ops.reverse) (.shape f) (.shape g) eps)
    (hb : (config ops.reverse).minBoundaryDistance = some b)
    (hacc : evaluate (libraryEngine L) (run ops) (.shape f) (.shape g) = .val true) (l : List IsGeom)
    (hl : intersect L.isk (.shape f) (.shape g) eps = .val (.geoms (.list l))) :
    (∀ p, .point p ∈ l → EndsOk L f g n m b p) ∧
    ∀ e x y, .edge e x y ∈ l → EndsOk L f g n m b x ∧ EndsOk L f g n m b y := by
  have hact : ¬ (config ops.reverse).Inactive := by
    rintro ⟨_, _, _, h⟩
    rw [hb] at h
    cases h
  obtain ⟨r, hr, hacc⟩ := (C35_accepts_exact (libraryEngine L) ops _ _ hact).1 hacc
  have hi : intersect L.isk (.shape f) (.shape g) eps = .val (.geoms r) := used_intersect hu hr
  rw [hl] at hi
  obtain rfl : IsResult.list l = r := by simpa using hi
  unfold EndsOk
  rw [← of, ← og]
  rcases hacc with ⟨h0, _⟩ | ⟨_, _, _, _, hbnd⟩
  · refine ⟨fun p hp => ?_, fun e x y hp => ?_⟩
    · have := h0 _ hp
      cases this
    · have := h0 _ hp
      cases this
  · refine ⟨fun p hp => ?_, fun e x y hp => ?_⟩
    · obtain ⟨h1, h2⟩ := hbnd b hb _ hp
      exact ⟨face_point_ok hK hf h1, face_point_ok hK hg h2⟩
    · obtain ⟨h1, h2⟩ := hbnd b hb _ hp
      exact ⟨⟨face_point_ok hK hf h1.1, face_point_ok hK hg h2.1⟩, face_point_ok hK hf h1.2, face_point_ok hK hg h2.2⟩

/-! ### A face with a hole -/

/-- A horizontal square with a square hole. -/
def framed : Shape where
  kind := .face
  points := {p | p.z = 0 ∧ |p.x| ≤ 4 ∧ |p.y| ≤ 4 ∧ (1 ≤ |p.x| ∨ 1 ≤ |p.y|)}
  outer := {p | p.z = 0 ∧ |p.x| ≤ 4 ∧ |p.y| ≤ 4 ∧ (|p.x| = 4 ∨ |p.y| = 4)}

/-- A vertical rectangle. -/
def probeFace : Shape where
  kind := .face
  points := {p | p.y = 0 ∧ (3 / 2 ≤ p.x ∧ p.x ≤ 3) ∧ (-1 ≤ p.z ∧ p.z ≤ 1)}
  outer := {p | p.y = 0 ∧ (3 / 2 ≤ p.x ∧ p.x ≤ 3) ∧ (-1 ≤ p.z ∧ p.z ≤ 1) ∧
    (p.x = 3 / 2 ∨ p.x = 3 ∨ p.z = -1 ∨ p.z = 1)}

noncomputable def probeEnds (_ : ℕ) : V3 × V3 := (⟨3 / 2, 0, 0⟩, ⟨3, 0, 0⟩)

noncomputable def probeCurves (_ : ℕ) : CurveGeom := ⟨3 / 2, 3, fun t => ⟨t, 0, 0⟩⟩

open Classical in
noncomputable def probeKernel : ShapeKernel :=
  { boundedKernel with bounds := fun s => if s.points = framed.outer then ⟨-4, 4, -4, 4, 0, 0⟩ else boundedKernel.bounds s }

noncomputable def probeLibrary : LibraryKernel :=
  faceLibrary (edgeOps [0] (fun e => [(probeEnds e).1, (probeEnds e).2])) probeEnds probeCurves notchSurface
    (fun _ => 3 / 2) probeKernel

theorem probeKernel_faithful : Faithful probeKernel where
  vertex := idealKernel_faithful.vertex
  edge := idealKernel_faithful.edge
  ellipseWire := idealKernel_faithful.ellipseWire
  ellipseEdge := idealKernel_faithful.ellipseEdge
  emptyTrim := idealKernel_faithful.emptyTrim
  ellipseFace := idealKernel_faithful.ellipseFace
  wireFace := idealKernel_faithful.wireFace
  cylinder := idealKernel_faithful.cylinder
  box := idealKernel_faithful.box
  sphere := idealKernel_faithful.sphere
  extrema := idealKernel_faithful.extrema

theorem probeKernel_contains : BoundsContain probeKernel := by
  intro s hs p hp
  by_cases h : s.points = framed.outer
  · have e : probeKernel.bounds s = ⟨-4, 4, -4, 4, 0, 0⟩ := if_pos h
    rw [e]
    rw [h] at hp
    obtain ⟨h1, h2, h3, _⟩ := hp
    rw [abs_le] at h2 h3
    exact ⟨h2.1, h2.2, h3.1, h3.2, h1.ge, h1.le⟩
  · have e : probeKernel.bounds s = boundedKernel.bounds s := if_neg h
    rw [e]
    exact boundedKernel_contains s hs p hp

theorem framed_flat : FlatFace probeLibrary framed ⟨0, 0, 1⟩ where
  kind := rfl
  bounded := inSomeBox_abs 4 fun p ⟨h1, h2, h3, _⟩ => ⟨h2, h3, by rw [h1]; norm_num⟩
  normal h := by have := congrArg V3.z h; simp at this
  plane p hp q hq := by
    have h1 : p.z = 0 := hp.1
    have h2 : q.z = 0 := hq.1
    simp [Spec.OnPlane, h1, h2]
  surface u v := ⟨1, by norm_num, by
    show V3.cross ((notchSurface framed).d1 u v).1 ((notchSurface framed).d1 u v).2 = _
    unfold notchSurface
    simp only
    have : (⟨0, 1, 0⟩ : V3) ∈ framed.points := by
      refine ⟨rfl, ?_, ?_, ?_⟩ <;> norm_num
    rw [if_pos this]
    ext <;> simp [V3.cross]⟩

theorem probe_flat : FlatFace probeLibrary probeFace ⟨0, 1, 0⟩ where
  kind := rfl
  bounded := ⟨⟨3 / 2, 0, -1⟩, ⟨3, 0, 1⟩, fun p ⟨h1, h2, h3⟩ => ⟨h2.1, h2.2, h1.ge, h1.le, h3⟩⟩
  normal h := by have := congrArg V3.y h; simp at this
  plane p hp q hq := by
    have h1 : p.y = 0 := hp.1
    have h2 : q.y = 0 := hq.1
    simp [Spec.OnPlane, h1, h2]
  surface u v := ⟨-1, by norm_num, by
    show V3.cross ((notchSurface probeFace).d1 u v).1 ((notchSurface probeFace).d1 u v).2 = _
    unfold notchSurface
    simp only
    have : ¬ (⟨0, 1, 0⟩ : V3) ∈ probeFace.points := fun h => by have : (1 : ℝ) = 0 := h.1; norm_num at this
    rw [if_neg this]
    ext <;> simp [V3.cross]⟩

theorem floor_box : InSomeBox floorFace.points := floor_flat.bounded

/-! Boundaries -/

theorem beside_dist (p : V3) (r : ℝ) (hr : 0 < r) :
    Spec.dist p (p + ⟨r / 2, 0, 0⟩) < r ∧ Spec.dist p (p - ⟨r / 2, 0, 0⟩) < r ∧
    Spec.dist p (p + ⟨0, r / 2, 0⟩) < r ∧ Spec.dist p (p - ⟨0, r / 2, 0⟩) < r ∧
    Spec.dist p (p + ⟨0, 0, r / 2⟩) < r ∧ Spec.dist p (p - ⟨0, 0, r / 2⟩) < r := by
  have : Real.sqrt ((r / 2) ^ 2) < r := by
    rw [Real.sqrt_sq (by linarith)]; linarith
  refine ⟨?_, ?_, ?_, ?_, ?_, ?_⟩ <;> · simp [Spec.dist] at this ⊢; exact this

theorem framed_outer : framed.outer ⊆ Spec.FaceBoundary framed.points ⟨0, 0, 1⟩ := by
  rintro p ⟨h1, h2, h3, h4⟩
  refine ⟨⟨h1, h2, h3, ?_⟩, fun r hr => ?_⟩
  · rcases h4 with h | h
    · left; rw [h]; norm_num
    · right; rw [h]; norm_num
  obtain ⟨a1, a2, a3, a4, _⟩ := beside_dist p r hr
  have out : ∀ q : V3, 4 < |q.x| ∨ 4 < |q.y| → q ∉ framed.points := by
    rintro q (h | h) ⟨_, h2, h3, _⟩
    · exact absurd h2 (not_le.2 h)
    · exact absurd h3 (not_le.2 h)
  rcases h4 with h | h
  · rcases (abs_eq (by norm_num)).1 h with h | h
    · exact ⟨_, by simp [Spec.OnPlane], a1, out _ (.inl (lt_of_lt_of_le (by simp [h]; exact hr) (le_abs_self _)))⟩
    · exact ⟨_, by simp [Spec.OnPlane], a2, out _ (.inl (lt_of_lt_of_le (by simp [h]; exact hr) (neg_le_abs _)))⟩
  · rcases (abs_eq (by norm_num)).1 h with h | h
    · exact ⟨_, by simp [Spec.OnPlane], a3, out _ (.inr (lt_of_lt_of_le (by simp [h]; exact hr) (le_abs_self _)))⟩
    · exact ⟨_, by simp [Spec.OnPlane], a4, out _ (.inr (lt_of_lt_of_le (by simp [h]; exact hr) (neg_le_abs _)))⟩

/-- The hole has a boundary. -/
theorem framed_hole : (⟨1, 0, 0⟩ : V3) ∈ Spec.FaceBoundary framed.points ⟨0, 0, 1⟩ := by
  refine ⟨⟨rfl, by norm_num, by norm_num, .inl (by norm_num)⟩, fun r hr => ?_⟩
  have hm : 0 < min r 1 := lt_min hr one_pos
  refine ⟨_, by simp [Spec.OnPlane], (beside_dist ⟨1, 0, 0⟩ (min r 1) hm).2.1.trans_le (min_le_left _ _), ?_⟩
  rintro ⟨_, _, _, h⟩
  have h1 : min r 1 ≤ 1 := min_le_right _ _
  rcases h with h | h
  · have h : 1 ≤ |1 - min r 1 / 2| := h
    rw [abs_of_nonneg (by linarith)] at h
    linarith
  · simp at h
    norm_num at h

theorem probe_outer : probeFace.outer = Spec.FaceBoundary probeFace.points ⟨0, 1, 0⟩ := by
  ext p
  constructor
  · rintro ⟨h1, h2, h3, h4⟩
    refine ⟨⟨h1, h2, h3⟩, fun r hr => ?_⟩
    obtain ⟨a1, a2, _, _, a5, a6⟩ := beside_dist p r hr
    rcases h4 with h | h | h | h
    · refine ⟨_, by simp [Spec.OnPlane], a2, fun ⟨_, h', _⟩ => ?_⟩
      simp [h] at h'
      linarith
    · refine ⟨_, by simp [Spec.OnPlane], a1, fun ⟨_, h', _⟩ => ?_⟩
      simp [h] at h'
      linarith
    · refine ⟨_, by simp [Spec.OnPlane], a6, fun ⟨_, _, h'⟩ => ?_⟩
      simp [h] at h'
      linarith
    · refine ⟨_, by simp [Spec.OnPlane], a5, fun ⟨_, _, h'⟩ => ?_⟩
      simp [h] at h'
      linarith
  · rintro ⟨⟨h1, h2, h3⟩, h⟩
    refine ⟨h1, h2, h3, ?_⟩
    by_contra hc
    push Not at hc
    obtain ⟨c1, c2, c3, c4⟩ := hc
    have d1 := lt_of_le_of_ne h2.1 (Ne.symm c1)
    have d2 := lt_of_le_of_ne h2.2 c2
    have d3 := lt_of_le_of_ne h3.1 (Ne.symm c3)
    have d4 := lt_of_le_of_ne h3.2 c4
    obtain ⟨q, hq, hd, hn⟩ := h (min (min (p.x - 3 / 2) (3 - p.x)) (min (p.z + 1) (1 - p.z)))
      (lt_min (lt_min (by linarith) (by linarith)) (lt_min (by linarith) (by linarith)))
    rw [lt_min_iff, lt_min_iff, lt_min_iff] at hd
    have hy : q.y = 0 := by
      simp [Spec.OnPlane, h1] at hq
      exact hq
    obtain ⟨hx, _, hz⟩ := coord_dist p q
    rw [abs_le] at hx hz
    exact hn ⟨hy, ⟨by linarith, by linarith⟩, by linarith, by linarith⟩

theorem floor_outer : floorFace.outer = Spec.FaceBoundary floorFace.points ⟨0, 0, 1⟩ := by
  ext p
  constructor
  · rintro ⟨h1, h2, h3, h4⟩
    refine ⟨⟨h1, h2, h3⟩, fun r hr => ?_⟩
    obtain ⟨a1, a2, a3, a4, _⟩ := beside_dist p r hr
    rcases h4 with h | h | h | h
    · refine ⟨_, by simp [Spec.OnPlane], a2, fun ⟨_, h', _⟩ => ?_⟩
      simp [h] at h'
      linarith
    · refine ⟨_, by simp [Spec.OnPlane], a1, fun ⟨_, h', _⟩ => ?_⟩
      simp [h] at h'
      linarith
    · refine ⟨_, by simp [Spec.OnPlane], a4, fun ⟨_, _, h'⟩ => ?_⟩
      simp [h] at h'
      linarith
    · refine ⟨_, by simp [Spec.OnPlane], a3, fun ⟨_, _, h'⟩ => ?_⟩
      simp [h] at h'
      linarith
  · rintro ⟨⟨h1, h2, h3⟩, h⟩
    refine ⟨h1, h2, h3, ?_⟩
    by_contra hc
    push Not at hc
    obtain ⟨c1, c2, c3, c4⟩ := hc
    have d1 := lt_of_le_of_ne h2.1 (Ne.symm c1)
    have d2 := lt_of_le_of_ne h2.2 c2
    have d3 := lt_of_le_of_ne h3.1 (Ne.symm c3)
    have d4 := lt_of_le_of_ne h3.2 c4
    obtain ⟨q, hq, hd, hn⟩ := h (min (min (p.x + 1) (5 - p.x)) (min (p.y + 1) (1 - p.y)))
      (lt_min (lt_min (by linarith) (by linarith)) (lt_min (by linarith) (by linarith)))
    rw [lt_min_iff, lt_min_iff, lt_min_iff] at hd
    have hy : q.z = 0 := by
      simp [Spec.OnPlane, h1] at hq
      exact hq
    obtain ⟨hx, hz, _⟩ := coord_dist p q
    rw [abs_le] at hx hz
    exact hn ⟨hy, ⟨by linarith, by linarith⟩, by linarith, by linarith⟩

/-- The minimum distance of ends of intersections to the boundaries is one. -/
noncomputable def probeOps : List Op := [.setIntersectionEpsilon (1 / 10), .setMinIntersectionDistance 1]

/-- A horizontal face is accepted if the ends have the distance one to its outer wire. -/
theorem probe_accepted {f : Shape} {n : V3} (hf : f.kind = .face) (bf : InSomeBox f.points)
    (hfl : FlatFace probeLibrary f n) (hc : (⟨2, 0, 0⟩ : V3) ∈ f.points) (ht : 0 < faceTol probeLibrary f)
    (hne : f.outer.Nonempty) (h : ∀ x, x = 3 / 2 ∨ x = 3 → ∀ q ∈ f.outer, 1 ≤ Spec.dist ⟨x, 0, 0⟩ q) :
    evaluate (libraryEngine probeLibrary) (run probeOps) (.shape f) (.shape probeFace) = .val true ∧
    ∃ l, intersect probeLibrary.isk (.shape f) (.shape probeFace) (1 / 10) = .val (.geoms (.list l)) ∧
      .edge 0 ⟨3 / 2, 0, 0⟩ ⟨3, 0, 0⟩ ∈ l := by
  have hact : ¬ (config probeOps.reverse).Inactive := by
    rintro ⟨_, _, _, h⟩
    cases h
  have o1 : (⟨3 / 2, 0, 0⟩ : V3) ∈ probeFace.outer := by
    refine ⟨rfl, ⟨?_, ?_⟩, ⟨?_, ?_⟩, .inl rfl⟩ <;> norm_num
  have o2 : (⟨3, 0, 0⟩ : V3) ∈ probeFace.outer := by
    refine ⟨rfl, ⟨?_, ?_⟩, ⟨?_, ?_⟩, .inr (.inl rfl)⟩ <;> norm_num
  have b1 : InSomeBox probeFace.outer := ⟨⟨3 / 2, 0, -1⟩, ⟨3, 0, 1⟩, fun p ⟨h1, h2, h3, _⟩ => ⟨h2.1, h2.2, h1.ge, h1.le, h3⟩⟩
  have hp : (⟨2, 0, 0⟩ : V3) ∈ probeFace.points := by
    refine ⟨rfl, ⟨?_, ?_⟩, ⟨?_, ?_⟩⟩ <;> norm_num
  constructor
  · refine (C35_accepts_exact (libraryEngine probeLibrary) _ _ _ hact).2 ?_
    refine accept_edges probeKernel_faithful probeKernel_contains hf rfl bf probe_flat.bounded (by simp) ⟨_, hc, hp⟩
      (e := 1 / 10) (by norm_num) rfl (fun l hl => by cases hl) ?_ ?_
    · intro k _
      obtain ⟨φ, hφ⟩ : ∃ φ : ℝ, ∀ p, faceFaceAngleAt (notchSurface f) (notchSurface probeFace) p = .val φ ∧ φ ≤ Real.pi / 2 := by
        obtain ⟨φ, h1, h2, h3⟩ := flat_angle_at hfl probe_flat 0
        refine ⟨φ, fun p => ?_⟩
        obtain ⟨φ', h1', h2', h3'⟩ := flat_angle_at hfl probe_flat p
        rw [planeAngle_unique h2 h2']
        exact ⟨h1', h3'⟩
      obtain ⟨θ, h1, ⟨t, _, _, h2⟩, _⟩ := C53_edge_samples probeCurves (.face (notchSurface f)) (.face (notchSurface probeFace))
        k (probeEnds k).1 (probeEnds k).2 (fun _ => φ) (.inl ⟨_, _, rfl, rfl⟩) (by norm_num [probeCurves])
        (fun t _ _ => (hφ _).1)
      exact ⟨θ, h1, h2.trans_le (hφ 0).2, fun t ht => by cases ht⟩
    · intro b hb k hk x hx
      obtain rfl : (1 : ℝ) = b := Option.some.inj hb
      refine ⟨bounded_point_ok rfl rfl hf ht hne (.inr ?_), bounded_point_ok rfl rfl rfl
        (faceTol_pos probeKernel_contains b1 o1 o2 (by norm_num)) ⟨_, o1⟩ (.inl ?_)⟩
      · rcases hx with rfl | rfl
        · exact h _ (.inl rfl)
        · exact h _ (.inr rfl)
      · rcases hx with rfl | rfl
        · exact o1
        · exact o2
  · rcases C77_faces probeLibrary.isk probeKernel_faithful probeKernel_contains f probeFace hf rfl bf probe_flat.bounded
      (1 / 10) (by norm_num) with h | ⟨h, _⟩
    · refine ⟨_, h, ?_⟩
      show _ ∈ intersectFaceFace (edgeOps [0] (fun e => [(probeEnds e).1, (probeEnds e).2])) probeEnds (1 / 10)
      simp [intersectFaceFace, edgeOps, edgeIntersections, probeEnds]
    · exact absurd hp (h _ hc)

theorem framed_tol : faceTol probeLibrary framed = Real.sqrt 128 * confusion := by
  have e : probeKernel.bounds (framed.boundary .wire) = ⟨-4, 4, -4, 4, 0, 0⟩ := if_pos rfl
  unfold faceTol
  rw [show probeLibrary.isk.shapes = probeKernel from rfl, e]
  norm_num [V3.len, V3.sqLen]

theorem framed_accepted : evaluate (libraryEngine probeLibrary) (run probeOps) (.shape framed) (.shape probeFace) = .val true ∧
    ∃ l, intersect probeLibrary.isk (.shape framed) (.shape probeFace) (1 / 10) = .val (.geoms (.list l)) ∧
      .edge 0 ⟨3 / 2, 0, 0⟩ ⟨3, 0, 0⟩ ∈ l := by
  refine probe_accepted rfl framed_flat.bounded framed_flat ⟨rfl, by norm_num, by norm_num, .inl (by norm_num)⟩ ?_
    ⟨⟨4, 0, 0⟩, rfl, by norm_num, by norm_num, .inl (by norm_num)⟩ ?_
  · rw [framed_tol]
    exact mul_pos (by positivity) confusion_pos
  · rintro x hx q ⟨_, h2, h3, h4⟩
    obtain ⟨c1, c2, _⟩ := coord_dist ⟨x, 0, 0⟩ q
    rcases h4 with h | h
    · rcases (abs_eq (by norm_num)).1 h with h | h
      · have := (neg_le_abs _).trans c1
        rcases hx with rfl | rfl <;> rw [h] at this <;> linarith
      · have := (le_abs_self _).trans c1
        rcases hx with rfl | rfl <;> rw [h] at this <;> linarith
    · have : |q.y| ≤ Spec.dist ⟨x, 0, 0⟩ q := by simpa using c2
      linarith

/-- The property does not hold: an intersection ends close to a hole, but not on its boundary. -/
theorem C136_disproof : ¬ C136_full := by
  intro h
  obtain ⟨hacc, l, hl, hmem⟩ := framed_accepted
  have := ((h probeLibrary probeKernel_faithful probeKernel_contains probeOps framed probeFace ⟨0, 0, 1⟩ ⟨0, 1, 0⟩ (1 / 10) 1
    framed_flat probe_flat framed_outer probe_outer.subset (by norm_num) (.inl rfl) rfl hacc l hl).2 _ _ _ hmem).1.1
  rcases this with ⟨q, ⟨hq, hb⟩, hd⟩ | h
  · have htol : faceTol probeLibrary framed ≤ 1 / 4 := by
      rw [framed_tol]
      have : Real.sqrt 128 ≤ 12 := Real.sqrt_le_iff.2 ⟨by norm_num, by norm_num⟩
      have h2 : Real.sqrt 128 * confusion ≤ 12 * confusion := mul_le_mul_of_nonneg_right this confusion_pos.le
      unfold confusion at *
      norm_num at *
      linarith
    obtain ⟨c1, c2, _⟩ := coord_dist ⟨3 / 2, 0, 0⟩ q
    obtain ⟨q', hq', hd', hn⟩ := hb (1 / 8) (by norm_num)
    obtain ⟨d1, d2, _⟩ := coord_dist q q'
    have hz : q'.z = 0 := by
      have h1 : q.z = 0 := hq.1
      simp [Spec.OnPlane, h1] at hq'
      exact hq'
    rw [abs_le] at c1 c2 d1 d2
    simp only at c1 c2
    refine hn ⟨hz, abs_le.2 ⟨by linarith, by linarith⟩, abs_le.2 ⟨by linarith, by linarith⟩, .inl ?_⟩
    exact le_trans (by linarith) (le_abs_self _)
  · have := h _ framed_hole
    have e : Spec.dist ⟨3 / 2, 0, 0⟩ ⟨1, 0, 0⟩ = 1 / 2 := by
      unfold Spec.dist
      rw [show ((3 / 2 : ℝ) - 1) ^ 2 + (0 - 0) ^ 2 + (0 - 0) ^ 2 = (1 / 2) ^ 2 by norm_num, Real.sqrt_sq (by norm_num)]
    rw [e] at this
    norm_num at this

/-- Non-trivial instance of the part that holds: two rectangles. -/
example : EndsOk probeLibrary floorFace probeFace ⟨0, 0, 1⟩ ⟨0, 1, 0⟩ 1 ⟨3 / 2, 0, 0⟩ := by
  have f1 : (⟨-1, 0, 0⟩ : V3) ∈ floorFace.outer := by
    refine ⟨rfl, ⟨?_, ?_⟩, ⟨?_, ?_⟩, .inl rfl⟩ <;> norm_num
  have f2 : (⟨5, 0, 0⟩ : V3) ∈ floorFace.outer := by
    refine ⟨rfl, ⟨?_, ?_⟩, ⟨?_, ?_⟩, .inr (.inl rfl)⟩ <;> norm_num
  have b2 : InSomeBox floorFace.outer :=
    ⟨⟨-1, -1, 0⟩, ⟨5, 1, 0⟩, fun p ⟨h1, h2, h3, _⟩ => ⟨h2.1, h2.2, h3.1, h3.2, h1.ge, h1.le⟩⟩
  have hfl : FlatFace probeLibrary floorFace ⟨0, 0, 1⟩ := ⟨rfl, floor_flat.bounded, floor_flat.normal, floor_flat.plane, floor_flat.surface⟩
  obtain ⟨hacc, l, hl, hmem⟩ := probe_accepted (f := floorFace) rfl floor_flat.bounded hfl
    (by refine ⟨rfl, ⟨?_, ?_⟩, ⟨?_, ?_⟩⟩ <;> norm_num) (faceTol_pos probeKernel_contains b2 f1 f2 (by norm_num)) ⟨_, f1⟩ (by
      rintro x hx q ⟨_, _, _, h4⟩
      obtain ⟨c1, c2, _⟩ := coord_dist ⟨x, 0, 0⟩ q
      rcases h4 with h | h | h | h
      · have := (le_abs_self _).trans c1
        rcases hx with rfl | rfl <;> rw [h] at this <;> linarith
      · have := (neg_le_abs _).trans c1
        rcases hx with rfl | rfl <;> rw [h] at this <;> linarith
      · rw [h] at c2; norm_num at c2; exact c2
      · rw [h] at c2; norm_num at c2; exact c2)
  exact ((C136_no_holes_partial probeLibrary probeKernel_faithful probeOps floorFace probeFace _ _ (1 / 10) 1 rfl rfl
    floor_outer probe_outer (.inl rfl) rfl hacc l hl).2 _ _ _ hmem).1

end Props
