import Verif.Props.ExactLibrary
import Verif.Props.Generation
import Verif.Props.GenerationMulti
import Verif.Props.SampledPolygons

/-!
# C126 The networks generated by the examples fulfil the constraints geometrically
-/

namespace Props
open Verif Frackit Lemmas
open Spec.Constraints (config Config parts NoIntersection AtLeast PointOk AcceptBy NotLess BoundaryOkBy)

/-- Two planar entities that have no intersection according to `intersect`. -/
structure EmptyPair (L : LibraryKernel) (eps : ℝ) (a b : DistArg) (p q : Plane) (tA tB : BoundaryTol) : Prop where
  first : PlanarEntity L a p tA
  second : PlanarEntity L b q tB
  result : ∀ r, intersect L.isk a.toIs b.toIs eps = .val r → r = .geoms (.single .empty)

/-- Faces in parallel planes have no intersection (or the computation fails). -/
theorem parallel_empty {K : Kernel} {f1 f2 : FaceGeom} {L ce1 ce2 eps : ℝ} {g : IsGeom}
    (hp : gpIsParallel f1.plane.normal f2.plane.normal angular)
    (hg : intersectPlanarPlanar K f1 f2 L ce1 ce2 eps = .val g) : g = .empty := by
  classical
  unfold intersectPlanarPlanar intersectPlanePlane at hg
  rw [if_pos hp] at hg
  by_cases h : f1.plane.contains f2.plane.supp eps
  · rw [if_pos h] at hg
    cases hg
  · rw [if_neg h] at hg
    cases hg
    rfl

/-- Accepted entities without an intersection keep the minimum distance. -/
theorem empty_fulfil {L : LibraryKernel} (hK : Faithful L.isk.shapes) {a b : DistArg} {eps : ℝ} {tA tB : BoundaryTol}
    {p q : Plane} {c : Config} (h : EmptyPair L eps a b p q tA tB) (hu : UsedEps L c a b eps)
    (hacc : AcceptBy (libraryEngine L) NotLess c a b) (hmin : ∃ d, c.minDistance = some d ∧ 0 < d) (n m : V3)
    (eps' t t' : ℝ) :
    Spec.Fulfilled c (argPoints a) (argPoints b) (boundaryOf a) (boundaryOf b) n m eps' t t' := by
  obtain ⟨r, hr, hacc⟩ := hacc
  have hr := h.result _ (used_intersect hu hr)
  simp only [Intersected.geoms.injEq] at hr
  subst hr
  have hno : NoIntersection (.single .empty) := by simp [NoIntersection, parts]
  rcases hacc with ⟨_, hacc⟩ | ⟨hne, _⟩
  swap
  · exact absurd hno hne
  have hdist : ∀ d, c.minDistance = some d → ∀ p ∈ argPoints a, ∀ q ∈ argPoints b, d ≤ Spec.dist p q := by
    intro d hd p hp q hq
    obtain ⟨x, hx, hdx⟩ := hacc d hd
    exact hdx.trans ((C73_distance L.isk.shapes hK a b h.first.valid h.second.valid (h.first.kind b) x hx).1 p hp q hq)
  refine ⟨fun d hd => .inl (hdist d hd), ?_⟩
  rintro ⟨x, hx, hy⟩
  obtain ⟨d, hd, hpos⟩ := hmin
  have := hdist d hd x hx x hy
  rw [dist_self_zero] at this
  linarith

/-- The entities have an exact intersection (`MeetExactly`), or none. -/
def PlanarMeeting (L : LibraryKernel) (eps : ℝ) (a b : DistArg) (p q : Plane) (tA tB : BoundaryTol) : Prop :=
  (∃ l, MeetExactly L.isk eps l a b p q tA tB) ∨ EmptyPair L eps a b p q tA tB

/-- Fulfilled constraints do not depend on the order of the entities. -/
theorem fulfilled_swap {c : Config} {A B bA bB : Set V3} {n m : V3} {eps tA tB : ℝ}
    (h : Spec.Fulfilled c A B bA bB n m eps tA tB) : Spec.Fulfilled c B A bB bA m n eps tB tA := by
  constructor
  · intro d hd
    rcases h.apart d hd with h | ⟨p, hp, q, hq, hpq⟩
    · exact .inl fun p hp q hq => by rw [Spec.dist_comm]; exact h q hq p hp
    · exact .inr ⟨q, hq, p, hp, by rw [Spec.dist_comm]; exact hpq⟩
  · rintro ⟨p, hp, hq⟩
    obtain ⟨e, f, h1, h2, h3, h4⟩ := h.meets ⟨p, hq, hp⟩
    refine ⟨e, f, fun p => and_comm.trans (h1 p), fun t ht θ hθ => h2 t ht θ ?_, h3, fun b hb x hx => (h4 b hb x hx).symm⟩
    unfold Spec.IsPlaneAngle Spec.vecAngle at hθ ⊢
    rw [show Spec.inner n m = Spec.inner m n by simp [Spec.inner]; ring, mul_comm (Spec.norm n)]
    exact hθ

/-- Larger tolerances. -/
theorem fulfilled_mono {c : Config} {A B bA bB : Set V3} {n m : V3} {eps tA tB eps' tA' tB' : ℝ}
    (h : Spec.Fulfilled c A B bA bB n m eps tA tB) (he : eps ≤ eps') (hA : tA ≤ tA') (hB : tB ≤ tB') :
    Spec.Fulfilled c A B bA bB n m eps' tA' tB' := by
  constructor
  · intro d hd
    rcases h.apart d hd with h | ⟨p, hp, q, hq, hpq⟩
    · exact .inl h
    · exact .inr ⟨p, hp, q, hq, by linarith⟩
  · intro hc
    obtain ⟨e, f, h1, h2, h3, h4⟩ := h.meets hc
    have away : ∀ {bnd : Set V3} {b t t' : ℝ} {x : V3}, t ≤ t' → Spec.OnOrAway bnd b (t + eps) eps x →
        Spec.OnOrAway bnd b (t' + eps') eps' x := by
      intro bnd b t t' x ht hx
      rcases hx with ⟨q, hq, hd⟩ | hx
      · exact .inl ⟨q, hq, by linarith⟩
      · exact .inr fun q hq => by have := hx q hq; linarith
    exact ⟨e, f, h1, h2, fun l hl hne => by have := h3 l hl hne; linarith,
      fun b hb x hx => ⟨away hA (h4 b hb x hx).1, away hB (h4 b hb x hx).2⟩⟩

/-- Compatible entities fulfil the constraints. -/
theorem compatible_fulfil {L : LibraryKernel} (hS : SoundShapes L.isk.shapes) {a b : DistArg} {eps : ℝ} {tA tB : BoundaryTol}
    {p q : Plane} {d an mg bd : ℝ} (h : PlanarMeeting L eps a b p q tA tB) (he : 0 < eps) (hd : 0 < d)
    (hu : ∃ e1 e2, defaultEpsilon L.isk.shapes a = .val e1 ∧ defaultEpsilon L.isk.shapes b = .val e2 ∧ eps = min e1 e2)
    (hacc : Spec.Network.Compatible (libraryEngine L) d an mg bd a b) :
    Spec.Fulfilled ⟨some d, some an, some mg, some bd, none, false⟩ (argPoints a) (argPoints b) (boundaryOf a)
      (boundaryOf b) p.normal q.normal eps tA.near tB.near := by
  rcases h with ⟨l, h⟩ | h
  · exact accepted_fulfil (meet_planarPair hS he h) (.inr ⟨rfl, hu⟩) hacc fun _ => ⟨d, rfl, hd⟩
  · exact empty_fulfil hS.faithful h (.inr ⟨rfl, hu⟩) hacc ⟨d, rfl, hd⟩ _ _ _ _ _

/-! ### Quadrilaterals -/

/-- A quadrilateral in a plane with unit normal `n` with different corners passed around a convex figure, the first
three of which are not on a line. -/
structure RegularQuad (n : V3) (q : Quadrilateral) : Prop where
  made : q = Quadrilateral.make q.p0 q.p1 q.p2 q.p3
  unit : Spec.IsUnit n
  nodup : [q.p0, q.p1, q.p3, q.p2].Nodup
  planar : Spec.PlanarPolygon n q.p0 [q.p0, q.p1, q.p3, q.p2]
  convex : Spec.ConvexPolygon n [q.p0, q.p1, q.p3, q.p2]
  corner : ¬ Spec.Collinear q.p0 q.p1 q.p2

namespace RegularQuad
variable {n : V3} {q : Quadrilateral} (h : RegularQuad n q)
include h

theorem figure : ConvexFigure [q.p0, q.p1, q.p3, q.p2] := ⟨n, q.p0, h.unit, h.nodup, h.planar, h.convex⟩

theorem exists_plane : ∃ pl, q.plane = .val pl ∧ (∀ c ∈ [q.p0, q.p1, q.p2, q.p3], Spec.OnPlane pl.supp pl.normal c) ∧
    (pl.normal = n ∨ pl.normal = -n) := by
  obtain ⟨pl, hpl, hf, h0, h1, h2, _⟩ := C03_plane_from_points q.p0 q.p1 q.p2 h.corner
  have hu := (Spec.isUnit_iff n).1 h.unit
  have hm := (Spec.isUnit_iff pl.normal).1 hf.2.2.1
  have e1 : n.dot (q.p1 - q.p0) = 0 := (Spec.onPlane_iff _ _ _).1 (h.planar q.p1 (by simp))
  have e2 : n.dot (q.p2 - q.p0) = 0 := (Spec.onPlane_iff _ _ _).1 (h.planar q.p2 (by simp))
  have e3 : n.dot (q.p3 - q.p0) = 0 := (Spec.onPlane_iff _ _ _).1 (h.planar q.p3 (by simp))
  have f1 := sub_inplane h0 h1
  have f2 := sub_inplane h0 h2
  have hc : (q.p1 - q.p0).cross (q.p2 - q.p0) ≠ 0 := fun e => h.corner ((collinear_iff_cross _ _ _).2 e)
  have c1 := cross_inplane h.unit e1 e2
  have c2 := cross_inplane hf.2.2.1 f1 f2
  set w := (q.p1 - q.p0).cross (q.p2 - q.p0) with hw
  have hmw : pl.normal.dot w ≠ 0 := by
    intro e
    rw [e] at c2
    exact hc (c2.trans (by module))
  have hs' : pl.normal = (n.dot w / pl.normal.dot w) • n := by
    have : (pl.normal.dot w) • pl.normal = (n.dot w) • n := c2.symm.trans c1
    rw [show pl.normal = (pl.normal.dot w)⁻¹ • ((pl.normal.dot w) • pl.normal) by
      rw [smul_smul, inv_mul_cancel₀ hmw, one_smul]]
    conv_lhs => rw [this]
    rw [smul_smul, smul_smul, inv_mul_cancel₀ hmw, one_smul]
    congr 1
    ring
  have hs : pl.normal = (n.dot pl.normal) • n := by
    have : n.dot pl.normal = n.dot w / pl.normal.dot w := by
      conv_lhs => rw [hs']
      rw [V3.dot_smul]
      have : n.dot n = 1 := hu
      rw [this, mul_one]
    rw [this]; exact hs'
  have hk : n.dot pl.normal = 1 ∨ n.dot pl.normal = -1 := by
    have h1 : pl.normal.dot pl.normal = 1 := hm
    have h2 : pl.normal.dot pl.normal = (n.dot pl.normal) * (n.dot pl.normal) := by
      conv_lhs => arg 2; rw [hs]
      rw [V3.dot_smul, V3.dot_comm pl.normal n]
    have : (n.dot pl.normal) ^ 2 = 1 := by rw [sq, ← h2, h1]
    have : (n.dot pl.normal - 1) * (n.dot pl.normal + 1) = 0 := by linear_combination this
    rcases mul_eq_zero.1 this with h | h
    · left; linarith
    · right; linarith
  have hor : pl.normal = n ∨ pl.normal = -n := by
    rcases hk with hk | hk
    · left; rw [hs, hk]; module
    · right; rw [hs, hk]; module
  refine ⟨pl, by rw [h.made]; exact hpl, ?_, hor⟩
  intro c hcm
  simp only [List.mem_cons, List.not_mem_nil, or_false] at hcm
  rcases hcm with rfl | rfl | rfl | rfl
  · exact h0
  · exact h1
  · exact h2
  · rw [Spec.onPlane_iff] at h0 ⊢
    have : q.p3 - pl.supp = (q.p3 - q.p0) + (q.p0 - pl.supp) := by module
    rw [this, V3.dot_add, h0, add_zero, hs]
    simp only [V3.dot, V3.smul_x, V3.smul_y, V3.smul_z] at e3 ⊢
    linear_combination (n.x * pl.normal.x + n.y * pl.normal.y + n.z * pl.normal.z) * e3

theorem area_pos : 0 < q.area := by
  have hin : ∀ c ∈ [q.p0, q.p1, q.p3, q.p2], Spec.OnPlane q.p0 n c := h.planar
  have e1 := area_inplane h.unit (hin q.p0 (by simp)) (hin q.p1 (by simp)) (hin q.p3 (by simp))
  have e2 := area_inplane h.unit (hin q.p0 (by simp)) (hin q.p3 (by simp)) (hin q.p2 (by simp))
  have ha : q.area = 1 / 2 * |Spec.turn n q.p0 q.p1 q.p3| + 1 / 2 * |Spec.turn n q.p0 q.p3 q.p2| := by
    rw [h.made]; show (Triangle.make _ _ _).area + (Triangle.make _ _ _).area = _
    rw [e1, e2]; rfl
  have t1 : 0 ≤ Spec.turn n q.p0 q.p1 q.p2 := h.convex (q.p0, q.p1) (by simp [Spec.polyEdges]) q.p2 (by simp)
  have t2 : 0 ≤ Spec.turn n q.p1 q.p3 q.p2 := h.convex (q.p1, q.p3) (by simp [Spec.polyEdges]) q.p2 (by simp)
  have t3 : Spec.turn n q.p0 q.p1 q.p3 + Spec.turn n q.p0 q.p3 q.p2 =
      Spec.turn n q.p0 q.p1 q.p2 + Spec.turn n q.p1 q.p3 q.p2 := by
    simp only [Spec.turn, Spec.det]; ring
  have t4 : Spec.turn n q.p0 q.p1 q.p2 ≠ 0 := by
    intro h0
    have := len_cross_inplane h.unit (sub_inplane (hin q.p0 (by simp)) (hin q.p1 (by simp)))
      (sub_inplane (hin q.p0 (by simp)) (hin q.p2 (by simp)))
    rw [← turn_eq, h0, abs_zero] at this
    exact h.corner ((collinear_iff_cross _ _ _).2 (V3.len_eq_zero.1 this))
  have := le_abs_self (Spec.turn n q.p0 q.p1 q.p3)
  have := le_abs_self (Spec.turn n q.p0 q.p3 q.p2)
  have := lt_of_le_of_ne t1 (Ne.symm t4)
  rw [ha]
  linarith

theorem face (ops : ShapeOps) : ∃ f, quadFace q ops = .val f := by
  obtain ⟨pl, hpl, _⟩ := h.exists_plane
  have hc : ∃ c, q.center = .val c := by
    rw [h.made]
    have := h.area_pos
    rw [h.made] at this
    exact ⟨_, if_neg (ne_of_gt this)⟩
  obtain ⟨c, hc⟩ := hc
  exact ⟨⟨pl, c, _, _, _⟩, by unfold quadFace; rw [hpl, hc]; rfl⟩

end RegularQuad

theorem cross_len_le (u v : V3) : (u.cross v).len ≤ u.len * v.len := by
  unfold V3.len
  rw [← Real.sqrt_mul (V3.sqLen_nonneg _)]
  apply Real.sqrt_le_sqrt
  simp only [V3.sqLen, V3.cross]
  nlinarith [sq_nonneg (u.x * v.x + u.y * v.y + u.z * v.z)]

/-- The area of a quadrilateral is at most twice the square of the longest edge. -/
theorem quad_area_le (p0 p1 p2 p3 : V3) (c : ℝ)
    (h : ∀ e ∈ Frackit.quadEdges (Quadrilateral.make p0 p1 p2 p3), (e.target - e.source).len ≤ c) :
    (Quadrilateral.make p0 p1 p2 p3).area ≤ 2 * c ^ 2 := by
  have h1 : (p1 - p0).len ≤ c := h ⟨p0, p1⟩ (by simp [Frackit.quadEdges, Quadrilateral.make])
  have h2 : (p3 - p1).len ≤ c := h ⟨p1, p3⟩ (by simp [Frackit.quadEdges, Quadrilateral.make])
  have h3 : (p2 - p0).len ≤ c := h ⟨p0, p2⟩ (by simp [Frackit.quadEdges, Quadrilateral.make])
  have h4 : (p3 - p0).len ≤ 2 * c := by
    rw [show p3 - p0 = (p1 - p0) + (p3 - p1) by module]
    exact (V3.len_add_le _ _).trans (by linarith)
  have n1 := V3.len_nonneg (p1 - p0)
  have n2 := V3.len_nonneg (p2 - p0)
  have n3 := V3.len_nonneg (p3 - p0)
  have a1 := cross_len_le (p1 - p0) (p3 - p0)
  have a2 := cross_len_le (p3 - p0) (p2 - p0)
  have a3 : (p1 - p0).len * (p3 - p0).len ≤ c * (2 * c) := mul_le_mul h1 h4 n3 (by linarith)
  have a4 : (p3 - p0).len * (p2 - p0).len ≤ 2 * c * c := mul_le_mul h4 h3 n2 (by linarith)
  show 0.5 * ((p1 - p0).cross (p3 - p0)).len + 0.5 * ((p3 - p0).cross (p2 - p0)).len ≤ _
  nlinarith

/-- The default tolerance of a quadrilateral. -/
noncomputable def quadEps (q : Quadrilateral) : ℝ := 0.5 * Real.sqrt q.area * confusion

theorem quadEps_le (p0 p1 p2 p3 : V3) (c : ℝ) (hc : 0 ≤ c)
    (h : ∀ e ∈ Frackit.quadEdges (Quadrilateral.make p0 p1 p2 p3), (e.target - e.source).len ≤ c) :
    quadEps (Quadrilateral.make p0 p1 p2 p3) ≤ c * confusion := by
  have h1 := quad_area_le p0 p1 p2 p3 c h
  have h2 : Real.sqrt (Quadrilateral.make p0 p1 p2 p3).area ≤ 2 * c := by
    apply Real.sqrt_le_iff.2 ⟨by linarith, by nlinarith⟩
  unfold quadEps
  have : 0 ≤ confusion := by norm_num [confusion]
  nlinarith

theorem charLength_ge (q1 q2 : Quadrilateral) : ∀ e ∈ Frackit.quadEdges q1, (e.target - e.source).len ≤ quadQuadCharLength q1 q2 := by
  intro e he
  unfold quadQuadCharLength V3.len
  apply Real.sqrt_le_sqrt
  have h1 := (foldl_max_ge Segment.squaredLength (Frackit.quadEdges q1) 0).2 e he
  exact h1.trans (foldl_max_ge Segment.squaredLength (Frackit.quadEdges q2) _).1

/-- The tolerances of the boundary of a quadrilateral with edges no longer than `D`. -/
noncomputable def quadTol (D : ℝ) (q : Quadrilateral) : BoundaryTol := ⟨quadEps q + 1 / 10 ^ 7 * D, quadEps q⟩

/-- The boolean operations and the line of intersection of the planes are exact for two quadrilaterals, or the planes
are parallel. -/
def ExactQuads (I : IsKernel) (q1 q2 : Quadrilateral) (eps : ℝ) : Prop :=
  ∀ f1 f2, quadFace q1 (I.ops (.quadrilateral q1)) = .val f1 → quadFace q2 (I.ops (.quadrilateral q2)) = .val f2 →
    gpIsParallel f1.plane.normal f2.plane.normal angular ∨
      ∃ l, ExactLine I.algo f1.plane f2.plane eps l ∧
        ExactCut f1 (Spec.InHull [q1.p0, q1.p1, q1.p2, q1.p3]) (probingSegment f1.center l (quadQuadCharLength q1 q2))
          (0.1 * eps) ∧
        ExactCut f2 (Spec.InHull [q2.p0, q2.p1, q2.p2, q2.p3]) (probingSegment f2.center l (quadQuadCharLength q1 q2))
          (0.1 * eps)

theorem preChecked_cases {α : Type} {I : IsKernel} {a b : DistArg} {eps : ℝ} {e : α} {algo : Outcome α} {r : α}
    (h : preChecked I a b eps e algo = .val r) : r = e ∨ algo = .val r := by
  unfold preChecked at h
  obtain ⟨x, _, h⟩ := Outcome.bind_eq_val.1 h
  obtain ⟨y, _, h⟩ := Outcome.bind_eq_val.1 h
  split_ifs at h
  · exact .inr h
  · cases h; exact .inl rfl

theorem quadTol_edge {K : ShapeKernel} {q : Quadrilateral} {D : ℝ}
    (h : ∀ s ∈ Spec.polyEdges [q.p0, q.p1, q.p3, q.p2], Spec.dist s.1 s.2 ≤ D) :
    EdgeTol K (.quadrilateral q) [q.p0, q.p1, q.p3, q.p2] (quadTol D q) := by
  intro e he
  rw [← Outcome.val.inj he]
  refine ⟨le_refl _, fun s hs => ?_⟩
  show _ ≤ quadEps q + 1 / 10 ^ 7 * D
  have := h s hs
  have : quadEps q = 0.5 * Real.sqrt q.area * confusion := rfl
  rw [this]
  linarith

theorem quadrilaterals_meet {L : LibraryKernel} (hS : SoundShapes L.isk.shapes) {n m : V3} {q1 q2 : Quadrilateral}
    (h1 : RegularQuad n q1) (h2 : RegularQuad m q2) {D1 D2 : ℝ}
    (hD1 : ∀ s ∈ Spec.polyEdges [q1.p0, q1.p1, q1.p3, q1.p2], Spec.dist s.1 s.2 ≤ D1)
    (hD2 : ∀ s ∈ Spec.polyEdges [q2.p0, q2.p1, q2.p3, q2.p2], Spec.dist s.1 s.2 ≤ D2)
    (hx : ExactQuads L.isk q1 q2 (min (quadEps q1) (quadEps q2))) :
    ∃ p1 p2, (p1.normal = n ∨ p1.normal = -n) ∧ (p2.normal = m ∨ p2.normal = -m) ∧
      PlanarMeeting L (min (quadEps q1) (quadEps q2)) (.geom (.quadrilateral q1)) (.geom (.quadrilateral q2)) p1 p2
        (quadTol D1 q1) (quadTol D2 q2) := by
  obtain ⟨f1, hf1⟩ := h1.face (L.isk.ops (.quadrilateral q1))
  obtain ⟨f2, hf2⟩ := h2.face (L.isk.ops (.quadrilateral q2))
  obtain ⟨pl1, hp1, c1, n1⟩ := h1.exists_plane
  obtain ⟨pl2, hp2, c2, n2⟩ := h2.exists_plane
  have e1 : pl1 = f1.plane := Outcome.val.inj (hp1.symm.trans (quadFace_parts hf1).1)
  have e2 : pl2 = f2.plane := Outcome.val.inj (hp2.symm.trans (quadFace_parts hf2).1)
  subst e1 e2
  refine ⟨f1.plane, f2.plane, n1, n2, ?_⟩
  rcases hx f1 f2 hf1 hf2 with hpar | ⟨l, hl, hc1, hc2⟩
  · right
    refine ⟨?_, ?_, ?_⟩
    · have := quad_entity (L := L) hS.total (pl := f1.plane) (tol := quadTol D1 q1) (p0 := q1.p0) (p1 := q1.p1)
        (p2 := q1.p2) (p3 := q1.p3) (by rw [← h1.made]; exact hp1) h1.figure c1
        (by rw [← h1.made]; exact quadTol_edge hD1)
      rw [← h1.made] at this
      exact this
    · have := quad_entity (L := L) hS.total (pl := f2.plane) (tol := quadTol D2 q2) (p0 := q2.p0) (p1 := q2.p1)
        (p2 := q2.p2) (p3 := q2.p3) (by rw [← h2.made]; exact hp2) h2.figure c2
        (by rw [← h2.made]; exact quadTol_edge hD2)
      rw [← h2.made] at this
      exact this
    · intro r hr
      rcases preChecked_cases (show preChecked _ _ _ _ _ _ = _ from hr) with h | h
      · exact h
      · obtain ⟨g, hg, h⟩ := Outcome.bind_eq_val.1 h
        cases h
        congr 2
        unfold intersectQuadQuad at hg
        split_ifs at hg
        rw [hf1, hf2] at hg
        exact parallel_empty hpar hg
  · left
    refine ⟨l, ?_⟩
    have hle : min (quadEps q1) (quadEps q2) ≤ 18 * quadQuadCharLength q1 q2 := by
      have h3 := quadEps_le q1.p0 q1.p1 q1.p2 q1.p3 (quadQuadCharLength q1 q2) (Real.sqrt_nonneg _)
        (by rw [← h1.made]; exact charLength_ge q1 q2)
      rw [← h1.made] at h3
      have h4 : 0 ≤ quadQuadCharLength q1 q2 := Real.sqrt_nonneg _
      have h5 : confusion ≤ 1 := by norm_num [confusion]
      have := min_le_left (quadEps q1) (quadEps q2)
      nlinarith
    have := MeetExactly.quadrilaterals (I := L.isk) (eps := min (quadEps q1) (quadEps q2)) (l := l)
      q1.p0 q1.p1 q1.p2 q1.p3 q2.p0 q2.p1 q2.p2 q2.p3 f1 f2 (quadTol D1 q1) (quadTol D2 q2)
      (by rw [← h1.made]; exact hf1) (by rw [← h2.made]; exact hf2) h1.figure h2.figure c1 c2
      (by rw [← h1.made]; exact quadTol_edge hD1) (by rw [← h2.made]; exact quadTol_edge hD2)
      (by rw [← h1.made, ← h2.made]; exact hle) hl (by rw [← h1.made, ← h2.made]; exact hc1)
      (by rw [← h1.made, ← h2.made]; exact hc2)
    rw [← h1.made, ← h2.made] at this
    exact this

theorem isPlaneAngle_neg_left {n m : V3} {θ : ℝ} (h : Spec.IsPlaneAngle n m θ) : Spec.IsPlaneAngle (-n) m θ := by
  unfold Spec.IsPlaneAngle at h ⊢
  have : Spec.vecAngle (-n) m = Real.pi - Spec.vecAngle n m := by
    unfold Spec.vecAngle
    rw [show Spec.norm (-n) = Spec.norm n by simp [Spec.norm], ← Real.arccos_neg]
    congr 1
    simp only [Spec.inner, V3.neg_x, V3.neg_y, V3.neg_z]
    ring
  rw [this, h, min_comm]
  congr 1
  ring

theorem isPlaneAngle_symm {n m : V3} {θ : ℝ} (h : Spec.IsPlaneAngle n m θ) : Spec.IsPlaneAngle m n θ := by
  unfold Spec.IsPlaneAngle Spec.vecAngle at h ⊢
  rw [show Spec.inner m n = Spec.inner n m by simp [Spec.inner]; ring, mul_comm (Spec.norm m)]
  exact h

theorem fulfilled_normals {c : Config} {A B bA bB : Set V3} {n m n' m' : V3} {eps tA tB : ℝ}
    (h : Spec.Fulfilled c A B bA bB n m eps tA tB) (hn : n = n' ∨ n = -n') (hm : m = m' ∨ m = -m') :
    Spec.Fulfilled c A B bA bB n' m' eps tA tB := by
  refine ⟨h.apart, fun hc => ?_⟩
  obtain ⟨e, f, h1, h2, h3, h4⟩ := h.meets hc
  refine ⟨e, f, h1, fun t ht θ hθ => h2 t ht θ ?_, h3, h4⟩
  rcases hn with rfl | rfl <;> rcases hm with rfl | rfl
  · exact hθ
  · exact isPlaneAngle_symm (isPlaneAngle_neg_left (isPlaneAngle_symm hθ))
  · exact isPlaneAngle_neg_left hθ
  · exact isPlaneAngle_neg_left (isPlaneAngle_symm (isPlaneAngle_neg_left (isPlaneAngle_symm hθ)))

/-- Two regular quadrilaterals with edges no longer than 1.2 that are compatible. -/
theorem quadrilaterals_fulfil {L : LibraryKernel} (hS : SoundShapes L.isk.shapes) {n m : V3} {q1 q2 : Quadrilateral}
    (h1 : RegularQuad n q1) (h2 : RegularQuad m q2)
    (hD1 : ∀ s ∈ Spec.polyEdges [q1.p0, q1.p1, q1.p3, q1.p2], Spec.dist s.1 s.2 ≤ 1.2)
    (hD2 : ∀ s ∈ Spec.polyEdges [q2.p0, q2.p1, q2.p3, q2.p2], Spec.dist s.1 s.2 ≤ 1.2)
    (hx : ExactQuads L.isk q1 q2 (min (quadEps q1) (quadEps q2))) {d an mg bd : ℝ} (hd : 0 < d)
    (hacc : Spec.Network.Compatible (libraryEngine L) d an mg bd (.geom (.quadrilateral q1)) (.geom (.quadrilateral q2))) :
    Spec.Fulfilled ⟨some d, some an, some mg, some bd, none, false⟩ (argPoints (.geom (.quadrilateral q1)))
      (argPoints (.geom (.quadrilateral q2))) (boundaryOf (.geom (.quadrilateral q1)))
      (boundaryOf (.geom (.quadrilateral q2))) n m (1 / (4 * 10 ^ 6)) (1 / (4 * 10 ^ 6)) (1 / (4 * 10 ^ 6)) := by
  obtain ⟨p1, p2, n1, n2, hm⟩ := quadrilaterals_meet hS h1 h2 hD1 hD2 hx
  have hpos : ∀ {n : V3} {q : Quadrilateral}, RegularQuad n q → 0 < quadEps q := by
    intro n q h
    have := Real.sqrt_pos.2 h.area_pos
    unfold quadEps
    have : 0 < confusion := by norm_num [confusion]
    positivity
  have hle : ∀ {n : V3} {q : Quadrilateral}, RegularQuad n q →
      (∀ s ∈ Spec.polyEdges [q.p0, q.p1, q.p3, q.p2], Spec.dist s.1 s.2 ≤ 1.2) → quadEps q ≤ 1.2 / 10 ^ 7 := by
    intro n q h hD
    have := quadEps_le q.p0 q.p1 q.p2 q.p3 1.2 (by norm_num) (by
      rw [← h.made]
      intro e he
      have edge : ∀ s ∈ Spec.polyEdges [q.p0, q.p1, q.p3, q.p2], (s.2 - s.1).len ≤ 1.2 := by
        intro s hs
        have := hD s hs
        rwa [Spec.dist_comm, Spec.dist_eq_len] at this
      have edge' : ∀ s ∈ Spec.polyEdges [q.p0, q.p1, q.p3, q.p2], (s.1 - s.2).len ≤ 1.2 := by
        intro s hs
        have := hD s hs
        rwa [Spec.dist_eq_len] at this
      simp only [Frackit.quadEdges, List.mem_cons, List.not_mem_nil, or_false] at he
      rcases he with rfl | rfl | rfl | rfl
      · exact edge (q.p0, q.p1) (by simp [Spec.polyEdges])
      · exact edge (q.p1, q.p3) (by simp [Spec.polyEdges])
      · exact edge' (q.p2, q.p0) (by simp [Spec.polyEdges])
      · exact edge' (q.p3, q.p2) (by simp [Spec.polyEdges]))
    rw [← h.made] at this
    refine this.trans (le_of_eq ?_)
    norm_num [confusion]
  have l1 := hle h1 hD1
  have l2 := hle h2 hD2
  refine fulfilled_mono (fulfilled_normals (compatible_fulfil hS hm (lt_min (hpos h1) (hpos h2)) hd
    ⟨quadEps q1, quadEps q2, rfl, rfl, rfl⟩ hacc) n1 n2) ?_ ?_ ?_
  · refine (min_le_left _ _).trans (l1.trans ?_); norm_num
  · show quadEps q1 + 1 / 10 ^ 7 * 1.2 ≤ _
    refine (add_le_add_left l1 _).trans ?_
    norm_num
  · show quadEps q2 + 1 / 10 ^ 7 * 1.2 ≤ _
    refine (add_le_add_left l2 _).trans ?_
    norm_num

/-! ### Sampled quadrilaterals -/

/-- Quadrilaterals drawn with lengths of at most `b`. -/
def QuadDrawOf (b : ℝ) (d : PolygonDraws) : Prop :=
  ∃ Ls Ld, Admissible { d with corners := fun _ => 4 } 4 Ls Ld ∧ Ls ≤ b ∧ Ld ≤ b

/-- The quadrilaterals of an example: drawn with lengths of at most `0.8`. -/
def QuadDraw (d : PolygonDraws) : Prop := ∃ Ls Ld, Admissible { d with corners := fun _ => 4 } 4 Ls Ld ∧ Ls ≤ 0.8 ∧ Ld ≤ 0.8

/-- What is asked of a quadrilateral in addition: no tiny components of the edges, different corners, and the first three
are not on a line. -/
structure Ordinary (strike dip : ℝ) (q : Quadrilateral) : Prop where
  edges : Spec.NoTinyEdges strike dip [q.p0, q.p1, q.p3, q.p2]
  nodup : [q.p0, q.p1, q.p3, q.p2].Nodup
  corner : ¬ Spec.Collinear q.p0 q.p1 q.p2

/-- The corners are in a plane of the drawn orientation, their bounding box is centred at the drawn point, and they are at
most 1.2 apart. -/
structure DrawnQuad (d : PolygonDraws) (q : Quadrilateral) : Prop where
  planar : Spec.PlanarPolygon (Spec.dipNormal d.strikeAngle d.dipAngle) q.p0 [q.p0, q.p1, q.p3, q.p2]
  center : Spec.BoxCenter [q.p0, q.p1, q.p3, q.p2] d.center
  size : ∀ a ∈ [q.p0, q.p1, q.p3, q.p2], ∀ b ∈ [q.p0, q.p1, q.p3, q.p2], Spec.dist a b ≤ 1.2

theorem frame_dist {s t : ℝ} {a b : V3} (hn : (Spec.dipNormal s t).dot (b - a) = 0) :
    (Spec.dist a b) ^ 2 = ((Spec.dipDir s t).dot b - (Spec.dipDir s t).dot a) ^ 2 +
      ((Spec.strikeDir s).dot b - (Spec.strikeDir s).dot a) ^ 2 := by
  have h1 := Real.sin_sq_add_cos_sq s
  have h2 := Real.sin_sq_add_cos_sq t
  rw [Spec.dist, Real.sq_sqrt (by positivity)]
  simp only [Spec.dipNormal, Spec.dipDir, Spec.strikeDir, V3.dot, V3.sub_x, V3.sub_y, V3.sub_z] at hn ⊢
  linear_combination hn * (Real.sin t * Real.cos s * (b.x - a.x) + Real.sin t * Real.sin s * (b.y - a.y) +
      Real.cos t * (b.z - a.z)) -
    ((Real.cos s * (b.x - a.x) + Real.sin s * (b.y - a.y)) ^ 2 + (b.z - a.z) ^ 2) * h2 -
    ((b.x - a.x) ^ 2 + (b.y - a.y) ^ 2) * h1

theorem sampled_quad_of {sort : List V3 → List V3} (hs : SortsBy edgeAngle sort) {d : PolygonDraws} {bd : ℝ} (h : QuadDrawOf bd d) :
    ∃ q, sampleQuadrilateral sort d = .val q ∧
      (Spec.PlanarPolygon (Spec.dipNormal d.strikeAngle d.dipAngle) q.p0 [q.p0, q.p1, q.p3, q.p2] ∧
        Spec.BoxCenter [q.p0, q.p1, q.p3, q.p2] d.center ∧
        ∀ a ∈ [q.p0, q.p1, q.p3, q.p2], ∀ b ∈ [q.p0, q.p1, q.p3, q.p2], Spec.dist a b ≤ 1.5 * bd) ∧
      (Ordinary d.strikeAngle d.dipAngle q → RegularQuad (Spec.dipNormal d.strikeAngle d.dipAngle) q) := by
  obtain ⟨Ls, Ld, h, hLs, hLd⟩ := h
  obtain ⟨q, hq, hpl, hc, hconv⟩ := C27_quadrilateral sort hs d Ls Ld h
  obtain ⟨cs, k1, k2, -, -, ⟨lo, hi, k5, k6⟩, ⟨lo', hi', k7, k8⟩⟩ := C27_structure sort hs _ 4 Ls Ld h
  obtain ⟨c0, c1, c2, c3, rfl⟩ : ∃ c0 c1 c2 c3, cs = [c0, c1, c2, c3] := by
    match cs, k2 with
    | [a, b, c, d], _ => exact ⟨a, b, c, d, rfl⟩
  have e : q = Quadrilateral.make c0 c1 c3 c2 := by
    unfold sampleQuadrilateral at hq
    rw [k1] at hq
    exact (Outcome.val.inj hq).symm
  subst e
  have hp := hpl c0 (List.mem_cons_self ..)
  refine ⟨_, hq, ⟨hp, hc, ?_⟩, fun ho => ⟨rfl, dipNormal_unit _ _, ho.nodup, hp, (hconv ho.edges).2, ho.corner⟩⟩
  intro a ha b hb
  have hn := sub_inplane (hp a ha) (hp b hb)
  have bound : ∀ {f : V3 → ℝ} {lo hi L : ℝ}, Spec.Extent f [c0, c1, c2, c3] lo hi → hi - lo ≤ L → L ≤ bd →
      (f b - f a) ^ 2 ≤ bd ^ 2 ∧ 0 ≤ bd := by
    intro f lo hi L hx h1 h2
    have a1 := hx.1.2 ⟨a, ha, rfl⟩
    have a2 := hx.2.2 ⟨a, ha, rfl⟩
    have b1 := hx.1.2 ⟨b, hb, rfl⟩
    have b2 := hx.2.2 ⟨b, hb, rfl⟩
    have : |f b - f a| ≤ bd := abs_le.2 ⟨by linarith, by linarith⟩
    exact ⟨by nlinarith [abs_nonneg (f b - f a), sq_abs (f b - f a)], (abs_nonneg _).trans this⟩
  have := frame_dist hn
  have x1 := bound k5 k6 hLd
  have x2 := bound k7 k8 hLs
  simp only [Spec.inner_eq_dot] at x1 x2
  have h0 : 0 ≤ Spec.dist a b := Real.sqrt_nonneg _
  by_contra hlt
  have hlt := not_le.1 hlt
  nlinarith [mul_self_lt_mul_self (by linarith [x1.2]) hlt, x1.1, x2.1, sq_nonneg bd]

theorem sampled_quad {sort : List V3 → List V3} (hs : SortsBy edgeAngle sort) {d : PolygonDraws} (h : QuadDraw d) :
    ∃ q, sampleQuadrilateral sort d = .val q ∧ DrawnQuad d q ∧
      (Ordinary d.strikeAngle d.dipAngle q → RegularQuad (Spec.dipNormal d.strikeAngle d.dipAngle) q) := by
  obtain ⟨q, h1, ⟨h2, h3, h4⟩, h5⟩ := sampled_quad_of hs (bd := 0.8) h
  refine ⟨q, h1, ⟨h2, h3, fun a ha b hb => (h4 a ha b hb).trans (by norm_num)⟩, h5⟩

/-! ### The network of example 1 -/

/-- A candidate of example 1. -/
noncomputable def quadDraw (sort : List V3 → List V3) (d : PolygonDraws) : Outcome DistArg :=
  sampleQuadrilateral sort d >>= fun q => .val (.geom (.quadrilateral q))

/-- Two quadrilaterals keep the distance 0.05 or meet in a point or a segment: at an angle of at least `angle`, in a
segment no shorter than 0.05, and 0.05 away from or on the boundaries, up to a tolerance of 10⁻⁶. -/
def KeepConstraints (angle : ℝ) (n m : V3) (q1 q2 : Quadrilateral) : Prop :=
  Spec.Fulfilled ⟨some 0.05, some angle, some 0.05, some 0.05, none, false⟩
    {p | Spec.InHull [q1.p0, q1.p1, q1.p3, q1.p2] p} {p | Spec.InHull [q2.p0, q2.p1, q2.p3, q2.p2] p}
    {p | OnBoundary [q1.p0, q1.p1, q1.p3, q1.p2] p} {p | OnBoundary [q2.p0, q2.p1, q2.p3, q2.p2] p} n m
    (1 / (4 * 10 ^ 6)) (1 / (4 * 10 ^ 6)) (1 / (4 * 10 ^ 6))

/-- The entity `x` is the quadrilateral `q` made of the draws `d`. -/
def MadeOf (sort : List V3 → List V3) (d : PolygonDraws) (x : DistArg) (q : Quadrilateral) : Prop :=
  sampleQuadrilateral sort d = .val q ∧ x = .geom (.quadrilateral q)

theorem madeOf {sort : List V3 → List V3} {d : PolygonDraws} {x : DistArg} (h : quadDraw sort d = .val x) :
    ∃ q, MadeOf sort d x q := by
  obtain ⟨q, hq, h⟩ := Outcome.bind_eq_val.1 h
  exact ⟨q, hq, (Outcome.val.inj h).symm⟩

theorem drawn_keep {L : LibraryKernel} (hS : SoundShapes L.isk.shapes) {sort : List V3 → List V3}
    (hs : SortsBy edgeAngle sort) {d1 d2 : PolygonDraws} (h1 : QuadDraw d1) (h2 : QuadDraw d2) {x y : DistArg}
    {q1 q2 : Quadrilateral} (m1 : MadeOf sort d1 x q1) (m2 : MadeOf sort d2 y q2)
    (o1 : Ordinary d1.strikeAngle d1.dipAngle q1) (o2 : Ordinary d2.strikeAngle d2.dipAngle q2)
    (hx : ExactQuads L.isk q1 q2 (min (quadEps q1) (quadEps q2))) {an : ℝ}
    (hacc : Spec.Network.Compatible (libraryEngine L) 0.05 an 0.05 0.05 x y) :
    KeepConstraints an (Spec.dipNormal d1.strikeAngle d1.dipAngle) (Spec.dipNormal d2.strikeAngle d2.dipAngle) q1 q2 := by
  obtain ⟨r1, e1, hd1, hr1⟩ := sampled_quad hs h1
  obtain ⟨r2, e2, hd2, hr2⟩ := sampled_quad hs h2
  obtain rfl : r1 = q1 := Outcome.val.inj (e1.symm.trans m1.1)
  obtain rfl : r2 = q2 := Outcome.val.inj (e2.symm.trans m2.1)
  rw [m1.2, m2.2] at hacc
  have edge : ∀ {d : PolygonDraws} {q : Quadrilateral}, DrawnQuad d q →
      ∀ s ∈ Spec.polyEdges [q.p0, q.p1, q.p3, q.p2], Spec.dist s.1 s.2 ≤ 1.2 := by
    intro d q h s hs
    obtain ⟨a, b⟩ := s
    have e : a ∈ [q.p0, q.p1, q.p3, q.p2] ∧ b ∈ [q.p0, q.p1, q.p3, q.p2] := by
      simp only [Spec.polyEdges] at hs
      exact ⟨(List.of_mem_zip hs).1, by have := (List.of_mem_zip hs).2; simp at this ⊢; tauto⟩
    exact h.size _ e.1 _ e.2
  exact quadrilaterals_fulfil hS (hr1 o1) (hr2 o2) (edge hd1) (edge hd2) hx (by norm_num) hacc

/-- The constraints hold for the entities `x`, `y` made of the draws `d`, `d'` (in any order of evaluation), provided that
they are ordinary and that the library computes their intersection exactly. -/
def PairKept (L : LibraryKernel) (sort : List V3 → List V3) (angle : ℝ) (d d' : ℕ → PolygonDraws) (x y : DistArg) : Prop :=
  ∀ i j q q', MadeOf sort (d i) x q → MadeOf sort (d' j) y q' →
    Ordinary (d i).strikeAngle (d i).dipAngle q → Ordinary (d' j).strikeAngle (d' j).dipAngle q' →
    ExactQuads L.isk q q' (min (quadEps q) (quadEps q')) → ExactQuads L.isk q' q (min (quadEps q') (quadEps q)) →
    KeepConstraints angle (Spec.dipNormal (d i).strikeAngle (d i).dipAngle)
      (Spec.dipNormal (d' j).strikeAngle (d' j).dipAngle) q q'

/-- Every entity is made of one of the first `k` draws. -/
def MadeOfDraws (sort : List V3 → List V3) (d : ℕ → PolygonDraws) (k : ℕ) (l : List DistArg) : Prop :=
  ∀ x ∈ l, ∃ i < k, ∃ q, MadeOf sort (d i) x q ∧ DrawnQuad (d i) q

theorem pairKept {L : LibraryKernel} (hS : SoundShapes L.isk.shapes) {sort : List V3 → List V3}
    (hs : SortsBy edgeAngle sort) {d d' : ℕ → PolygonDraws} (h1 : ∀ k, QuadDraw (d k)) (h2 : ∀ k, QuadDraw (d' k))
    {x y : DistArg} {an : ℝ} (h : Spec.Network.Compatible (libraryEngine L) 0.05 an 0.05 0.05 x y ∨
      Spec.Network.Compatible (libraryEngine L) 0.05 an 0.05 0.05 y x) : PairKept L sort an d d' x y := by
  intro i j q q' m1 m2 o1 o2 x1 x2
  rcases h with h | h
  · exact drawn_keep hS hs (h1 i) (h2 j) m1 m2 o1 o2 x1 h
  · exact fulfilled_swap (drawn_keep hS hs (h2 j) (h1 i) m2 m1 o2 o1 x2 h)

theorem madeOfDraws {sort : List V3 → List V3} (hs : SortsBy edgeAngle sort) {d : ℕ → PolygonDraws}
    (hd : ∀ k, QuadDraw (d k)) {k : ℕ} {l : List DistArg} (h : ∀ x ∈ l, ∃ i < k, quadDraw sort (d i) = .val x) :
    MadeOfDraws sort d k l := by
  intro x hx
  obtain ⟨i, hi, hd'⟩ := h x hx
  obtain ⟨q, hq⟩ := madeOf hd'
  obtain ⟨r, e, hr, _⟩ := sampled_quad hs (hd i)
  obtain rfl : r = q := Outcome.val.inj (e.symm.trans hq.1)
  exact ⟨i, hi, r, hq, hr⟩

/-- **C126** The network of example 1: fifteen quadrilaterals of each of the two sets, made of the draws; any two of them
fulfil the constraints as point sets: 30 degrees within a set, 40 degrees between the sets. -/
theorem C126_example1 (L : LibraryKernel) (hS : SoundShapes L.isk.shapes)
    (order : SamplingStatus → List (ℕ × ℕ)) (ho : ∀ s, (order s).Perm s.count)
    (sort : List V3 → List V3) (hs : SortsBy edgeAngle sort) (d1 d2 : ℕ → PolygonDraws)
    (hd1 : ∀ k, QuadDraw (d1 k)) (hd2 : ∀ k, QuadDraw (d2 k)) (fuel k : ℕ) (s : Appl.TwoSets DistArg)
    (h : Appl.example1 (libraryEngine L) order (fun k => quadDraw sort (d1 k)) (fun k => quadDraw sort (d2 k)) fuel
      = .val (some (k, s))) :
    s.set1.length = 15 ∧ s.set2.length = 15 ∧ MadeOfDraws sort d1 k s.set1 ∧ MadeOfDraws sort d2 k s.set2 ∧
      s.set1.Pairwise (PairKept L sort (Real.pi / 6) d1 d1) ∧ s.set2.Pairwise (PairKept L sort (Real.pi / 6) d2 d2) ∧
      ∀ x ∈ s.set1, ∀ y ∈ s.set2, PairKept L sort (2 * Real.pi / 9) d1 d2 x y := by
  obtain ⟨⟨n1, n2⟩, _, c1, c2, c3, m1, m2⟩ := C61_two_sets order ho _ _ 15 15 fuel k s h
  refine ⟨by simpa using n1, by simpa using n2, madeOfDraws hs hd1 m1, madeOfDraws hs hd2 m2, ?_, ?_, ?_⟩
  · exact List.pairwise_iff_getElem.2 fun i j hi hj hij => pairKept hS hs hd1 hd1 (.inl (c1 i j hi hj hij))
  · exact List.pairwise_iff_getElem.2 fun i j hi hj hij => pairKept hS hs hd2 hd2 (.inl (c2 i j hi hj hij))
  · exact fun x hx y hy => pairKept hS hs hd1 hd2 (c3 x hx y hy)

/-- **C126** The network of example 2: the same for twelve quadrilaterals of each set. -/
theorem C126_example2 (L : LibraryKernel) (hS : SoundShapes L.isk.shapes) (dom : Appl.CylinderDomain DistArg)
    (order : SamplingStatus → List (ℕ × ℕ)) (ho : ∀ s, (order s).Perm s.count)
    (sort : List V3 → List V3) (hs : SortsBy edgeAngle sort) (d1 d2 : ℕ → PolygonDraws)
    (hd1 : ∀ k, QuadDraw (d1 k)) (hd2 : ∀ k, QuadDraw (d2 k)) (fuel k : ℕ) (s : Appl.TwoSets DistArg)
    (h : Appl.example2 (libraryEngine L) dom order (fun k => quadDraw sort (d1 k)) (fun k => quadDraw sort (d2 k)) fuel
      = .val (some (k, s))) :
    s.set1.length = 12 ∧ s.set2.length = 12 ∧ MadeOfDraws sort d1 k s.set1 ∧ MadeOfDraws sort d2 k s.set2 ∧
      s.set1.Pairwise (PairKept L sort (Real.pi / 6) d1 d1) ∧ s.set2.Pairwise (PairKept L sort (Real.pi / 6) d2 d2) ∧
      ∀ x ∈ s.set1, ∀ y ∈ s.set2, PairKept L sort (2 * Real.pi / 9) d1 d2 x y := by
  obtain ⟨n1, n2, _, c1, c2, c3, _⟩ := C61_example2 dom order ho _ _ fuel k s h
  obtain ⟨m1, m2⟩ := C61_drawn2 dom order ho _ _ fuel k s h
  refine ⟨n1, n2, madeOfDraws hs hd1 m1, madeOfDraws hs hd2 m2, ?_, ?_, ?_⟩
  · exact List.pairwise_iff_getElem.2 fun i j hi hj hij => pairKept hS hs hd1 hd1 (.inl (c1 i j hi hj hij))
  · exact List.pairwise_iff_getElem.2 fun i j hi hj hij => pairKept hS hs hd2 hd2 (.inl (c2 i j hi hj hij))
  · exact fun x hx y hy => pairKept hS hs hd1 hd2 (c3 x hx y hy)

/-! ### With an exact library -/

theorem RegularQuad.char_pos {n : V3} {q1 : Quadrilateral} (h : RegularQuad n q1) (q2 : Quadrilateral) :
    0 < quadQuadCharLength q1 q2 := by
  have h1 := charLength_ge q1 q2 ⟨q1.p0, q1.p1⟩ (by simp [Frackit.quadEdges])
  refine lt_of_lt_of_le (lt_of_le_of_ne (V3.len_nonneg _) fun e => ?_) h1
  have h0 := V3.len_eq_zero.1 e.symm
  have := h.nodup
  rw [show q1.p1 = q1.p0 from sub_eq_zero.1 h0] at this
  simp at this

/-- The exact library computes the intersections of regular quadrilaterals exactly. -/
theorem exact_quads {n m : V3} {q1 q2 : Quadrilateral} (h1 : RegularQuad n q1) (h2 : RegularQuad m q2) (eps : ℝ) :
    ExactQuads exactLibrary.isk q1 q2 eps := by
  intro f1 f2 hf1 hf2
  by_cases hp : gpIsParallel f1.plane.normal f2.plane.normal angular
  · exact .inl hp
  right
  have u1 : Spec.IsUnit f1.plane.normal := by
    have := (quadFace_parts hf1).1
    rw [h1.made] at this
    exact ofPoints_unit this
  have u2 : Spec.IsUnit f2.plane.normal := by
    have := (quadFace_parts hf2).1
    rw [h2.made] at this
    exact ofPoints_unit this
  obtain ⟨l, hl⟩ := exactAlgo_line u1 u2 eps hp
  have hL := h1.char_pos q2
  exact ⟨l, hl, exact_quad_cut (by rw [← h1.made]; exact hf1) hl.unit hL,
    exact_quad_cut (by rw [← h2.made]; exact hf2) hl.unit hL⟩

/-- **C126** With an exact library any two ordinary quadrilaterals of the network of example 1 fulfil the constraints. -/
theorem C126_exact_library (order : SamplingStatus → List (ℕ × ℕ)) (ho : ∀ s, (order s).Perm s.count)
    (sort : List V3 → List V3) (hs : SortsBy edgeAngle sort) (d1 d2 : ℕ → PolygonDraws)
    (hd1 : ∀ k, QuadDraw (d1 k)) (hd2 : ∀ k, QuadDraw (d2 k)) (fuel k : ℕ) (s : Appl.TwoSets DistArg)
    (h : Appl.example1 (libraryEngine exactLibrary) order (fun k => quadDraw sort (d1 k)) (fun k => quadDraw sort (d2 k)) fuel
      = .val (some (k, s))) (x y : DistArg) (hx : x ∈ s.set1) (hy : y ∈ s.set2) (i j : ℕ) (q r : Quadrilateral)
    (hq : MadeOf sort (d1 i) x q) (hr : MadeOf sort (d2 j) y r) (oq : Ordinary (d1 i).strikeAngle (d1 i).dipAngle q)
    (or : Ordinary (d2 j).strikeAngle (d2 j).dipAngle r) :
    KeepConstraints (2 * Real.pi / 9) (Spec.dipNormal (d1 i).strikeAngle (d1 i).dipAngle)
      (Spec.dipNormal (d2 j).strikeAngle (d2 j).dipAngle) q r := by
  obtain ⟨q', e1, _, h1⟩ := sampled_quad hs (hd1 i)
  obtain ⟨r', e2, _, h2⟩ := sampled_quad hs (hd2 j)
  obtain rfl : q' = q := Outcome.val.inj (e1.symm.trans hq.1)
  obtain rfl : r' = r := Outcome.val.inj (e2.symm.trans hr.1)
  exact (C126_example1 exactLibrary exactLibrary_sound order ho sort hs d1 d2 hd1 hd2 fuel k s h).2.2.2.2.2.2 x hx y hy
    i j q' r' hq hr oq or (exact_quads (h1 oq) (h2 or) _) (exact_quads (h2 or) (h1 oq) _)

end Props
